import Verif.Polar.PropsList
import Verif.Polar.ParPath
/- C39 (polar_parity_aided.hh); `isParity`, `dataBelow`, `span`, `coded` and `withParity` in Schedule.lean and `pathMetric` in
PropsList.lean are the specification. -/
namespace Verif.Polar
open PolarHelper (I8 prodV maddV qmulV)
open Verif.RS (sb)
variable {L : Nat}

/-! ### The encoder -/

/-- The parity-aided encoder makes of a message the codeword that `PolarEncoder` makes of the message with the parity symbols
inserted; it reads `dataBelow first stride F` message symbols, where `F` is the number of positions that are not frozen. -/
theorem C39_encode (c message : List Int) (frozen : List Nat) (level stride first : Nat) (hlevel : 1 ≤ level)
    (hf : 2 ^ level ≤ 32 * frozen.length) (hm : dataBelow first stride (freeBelow frozen (2 ^ level)) ≤ message.length) (hc : 2 ^ level ≤ c.length)
    (hi : ∀ x ∈ message, x = 1 ∨ x = -1) :
    ∃ cw, parEncode ph8 c message frozen level stride first = some cw ∧
      encode ph8 c (withParity first stride message (freeBelow frozen (2 ^ level))) frozen level = some cw ∧
      Writes c cw level (polar level (symbolAt frozen (withParity first stride message (freeBelow frozen (2 ^ level))))) ∧
      ∀ j, j < 2 ^ level → cw.getD j 0 = 1 ∨ cw.getD j 0 = -1 := by
  have e := parEncode_eq (first := first) (stride := stride) hi hlevel hf (by rw [rank_eq]; exact hm) hc
  rw [rank_eq] at e
  obtain ⟨cw, h1, h2, h3⟩ := C35_hard c (withParity first stride message (freeBelow frozen (2 ^ level))) frozen level hlevel hf
    (by rw [withParity_length]) hc (withParity_sym _ _ hi _)
  exact ⟨cw, by rw [e, h1], h1, h2, h3⟩

/-! ### The decoder -/

/-- A call `PolarParityDecoder<SIMD<int8_t, L>, MAX_M>()(rank, message, codeword, frozen, level, stride, first)` that the decoder
accepts; its members `soft`, `hard` and `maps` and its uninitialised array `metric` are in any state, `rank` may be null. -/
structure ParCall (L MAX_M : Nat) (soft hard : List (Reg L)) (maps : List (LMap L)) (metric : List Int) (rank : Option (List Nat))
    (message : List (Reg L)) (codeword : List Int) (frozen : List Nat) (level stride first : Nat) : Prop where
  lanes : 1 ≤ L ∧ L ≤ 256
  max_le : MAX_M ≤ 16
  level_ge : 5 ≤ level
  level_le : level ≤ MAX_M
  soft_len : soft.length = 2 * 2 ^ MAX_M
  hard_len : hard.length = 2 ^ MAX_M
  maps_len : maps.length = 2 ^ MAX_M
  metric_len : metric.length = L
  rank_len : ∀ r, rank = some r → L ≤ r.length
  codeword_len : 2 ^ level ≤ codeword.length
  codeword_range : ∀ i, i < 2 ^ level → I8 (codeword.getD i 0)
  frozen_len : 2 ^ level ≤ 32 * frozen.length
  frozen_words : ∀ w ∈ frozen, w < 2 ^ 32
  free : 1 ≤ freeBelow frozen (2 ^ level)
  first_pos : 1 ≤ first
  message_len : dataBelow first stride (freeBelow frozen (2 ^ level)) ≤ message.length

/-- The number of message symbols. -/
noncomputable def parK (frozen : List Nat) (level stride first : Nat) : Nat := dataBelow first stride (freeBelow frozen (2 ^ level))

/-- What a call of the parity-aided decoder leaves behind; `metric` are the final path metrics. -/
structure ParResult (L : Nat) (rank : Option (List Nat)) (message : List (Reg L)) (codeword : List Int) (frozen : List Nat) (level stride first : Nat)
    (rank' : Option (List Nat)) (message' : List (Reg L)) (metric : List Int) : Prop where
  /-- only the first `K` registers of the message array are written -/
  frame : message'.length = message.length ∧ ∀ i, parK frozen level stride first ≤ i → message'.getD i 0 = message.getD i 0
  /-- every lane holds a message of ±1 symbols -/
  symbols : ∀ k, ∀ x ∈ (ln k message').take (parK frozen level stride first), x = 1 ∨ x = -1
  /-- a metric below 1000000 is the penalty of the lane's message with the right parity symbols inserted -/
  metrics : metric.length = L ∧ ∀ k : Fin L, 0 ≤ metric.getD k 0 ∧ (metric.getD k 0 < 1000000 → metric.getD k 0 =
    pathMetric level (Frozen frozen) (codeword.getD · 0)
      (symbolAt frozen (withParity first stride ((ln k message').take (parK frozen level stride first)) (freeBelow frozen (2 ^ level)))))
  /-- two lanes with metrics below 1000000 have different messages -/
  distinct : ∀ k k' : Fin L, metric.getD k 0 < 1000000 → metric.getD k' 0 < 1000000 →
    (ln k message').take (parK frozen level stride first) = (ln k' message').take (parK frozen level stride first) → k = k'
  /-- if the last position is not frozen the metrics do not decrease -/
  sorted : ¬ Frozen frozen (2 ^ level - 1) → ∀ k k' : Fin L, k ≤ k' → metric.getD k 0 ≤ metric.getD k' 0
  /-- the rank counts how often the metric has changed -/
  ranks : (rank = none → rank' = none) ∧ ∀ r, rank = some r → ∃ r', rank' = some r' ∧ r'.length = r.length ∧
    (∀ i, i < L → r'.getD i 0 = changes (fun j => metric.getD j 0) i) ∧ ∀ i, L ≤ i → r'.getD i 0 = r.getD i 0

theorem dataBelow_le (first stride r : Nat) : dataBelow first stride r ≤ r := by
  unfold dataBelow
  exact (Finset.card_filter_le _ _).trans (by simp)

theorem dataBelow_pos {first stride r : Nat} (h : 1 ≤ first) (hr : 1 ≤ r) : 1 ≤ dataBelow first stride r := by
  refine le_trans ?_ (dataBelow_mono first stride hr)
  have := dataBelow_succ first stride 0
  rw [this, dataBelow_zero, if_pos (by rw [cAt, if_pos (by omega)]; omega)]

theorem par_run (MAX_M : Nat) (soft hard : List (Reg L)) (maps : List (LMap L)) (metric : List Int) (rank : Option (List Nat))
    (message : List (Reg L)) (codeword : List Int) (frozen : List Nat) (level stride first : Nat)
    (h : ParCall L MAX_M soft hard maps metric rank message codeword frozen level stride first) :
    ∃ rank' message' metric', parDecode MAX_M soft hard maps metric rank message codeword frozen level stride first = some (rank', message', metric') ∧
      ParResult L rank message codeword frozen level stride first rank' message' metric' ∧
      (∀ (data u : List Int), (∀ a ∈ data, Sym a) → parK frozen level stride first ≤ data.length → (∀ a ∈ u, Sym a) → Obeys 1 (fbits frozen 0 (2 ^ level)) u →
        info (fbits frozen 0 (2 ^ level)) u = withParity first stride data (freeBelow frozen (2 ^ level)) →
        (∀ j, j < 2 ^ level → SignOf (codeword.getD j 0) ((T qmulV level u).getD j 1)) →
        (∀ k : Fin L, k.val = 0 → (ln k message').take (parK frozen level stride first) = data.take (parK frozen level stride first) ∧ metric'.getD k 0 = 0) ∧
        ∀ k, 0 < k → k < L → 1 ≤ metric'.getD k 0) ∧
      ∀ [NeZero L], ∃ (V : Fin L → List Int) (q : Fin L → List Int × Int), (∀ k, (V k).length = 2 ^ level) ∧
        (∀ k, (ln k message').take (parK frozen level stride first) = ((parLf L stride message (2 ^ MAX_M)).pathI (0, first) ([], 1) (info (fbits frozen 0 (2 ^ level)) (V k))).1) ∧
        (parLf L stride message (2 ^ MAX_M)).node level (fbits frozen 0 (2 ^ level)) (0, first) 0 (fun _ => codeword.take (2 ^ level))
          (List.ofFn fun k : Fin L => ([], ([], 1), if k.val = 0 then 0 else 1000000)) = List.ofFn fun k => (V k, q k, metric'.getD k 0) := by
  obtain ⟨⟨hL, hL'⟩, g1, g2, g3, g4, g5, g6, g7, g8, g9, g10, g11, g12, g13, gf, g14⟩ := h
  haveI : NeZero L := ⟨by omega⟩
  have hp : (2 : Nat) ^ level ≤ 2 ^ MAX_M := Nat.pow_le_pow_right (by omega) g3
  set F := freeBelow frozen (2 ^ level) with hF
  have hFle : F ≤ 2 ^ level := by
    rw [hF, ← cnt_fbits]
    exact (List.length_filter_le _ _).trans (by simp [fbits])
  set K := parK frozen level stride first with hK
  have hK' : K = dataBelow first stride F := rfl
  have hKle : K ≤ F := dataBelow_le _ _ _
  have hKpos : 1 ≤ K := dataBelow_pos gf g13
  obtain ⟨m0, em0, m1, m2, m3⟩ := metric0_ok (by omega) g7
  obtain ⟨a, ea, a1, a2⟩ := dupLoop_ok (L := L) (level := level) (soft := soft) (by omega) g9
  have hc0 : cAt first stride 0 = first := by rw [cAt, if_pos (by omega)]; omega
  have hneed : need stride first F = K := by
    have := need_eq first stride F 0
    rw [dataBelow_zero, hc0, Nat.zero_add, Nat.zero_add] at this
    exact this
  set x0 : PX L := ⟨m0, message, maps, 0, (phV L).one, first⟩ with hx0
  set A := parLf L stride message (2 ^ MAX_M) with hA
  obtain ⟨t, r, U, et, t1, ⟨B, i0, i1, i2, i3, i4, i5, i6, i7, -⟩, run⟩ := top_run (A := A) (parLfOk stride hL' message (2 ^ MAX_M)) (parAgree stride 0) g12 g2 (by omega)
    g11 g13 g9 g10 (m := ⟨x0, hard, a⟩) a2 (by dsimp only; omega) (by
      refine ⟨le_rfl, ⟨m1, fun k hk => ?_⟩, rfl, fun _ _ => rfl, g6, ?_, ?_, fun i hi => ?_, Or.inr gf⟩
      · show 0 ≤ m0.getD k 0 ∧ m0.getD k 0 ≤ 1000000
        rcases Nat.eq_zero_or_pos k with rfl | hk0
        · rw [m2]; omega
        · rw [m3 k hk0 hk]; omega
      · show 0 + need stride first F ≤ message.length
        omega
      · show 0 + need stride first F ≤ 2 ^ MAX_M
        omega
      · exact absurd hi (Nat.not_lt_zero i))
  have hctl0 : A.ctl x0 = (dataBelow first stride 0, cAt first stride 0) := by
    rw [hc0]; rfl
  have htr0 : ∀ k, A.tr x0 k = ([], par first stride [] 0) := fun k => by rw [par_zero]; rfl
  have hcnt : r.1.index = K := by
    have := run.ctl
    dsimp only at this
    rw [hctl0, step_iter, cnt_fbits, Nat.zero_add] at this
    exact congrArg Prod.fst this
  rw [hcnt] at i3 i5 i6 i7
  obtain ⟨out, eo, o1, o2, o3⟩ := backLoop_ok (L := L) (message := r.1.message) (maps := r.1.maps) (n := K) hKpos (by omega) (by omega) i7
  obtain ⟨hv, htr, hmet⟩ := run.lanes
  dsimp only at htr hmet
  have hob : ∀ k, Obeys 1 (fbits frozen 0 (2 ^ level)) (ln k U) := by
    intro k
    refine ⟨by rw [ln_length, run.obeys.1], fun i hi => ?_⟩
    by_cases hi' : i < U.length
    · rw [ln_getD k U (phV L).one 1 hi', run.obeys.2 i hi]; rfl
    · rw [List.getD_eq_default _ _ (by rw [ln_length]; omega)]
  have hfl : (fbits frozen 0 (2 ^ level)).length = 2 ^ level := by simp [fbits]
  have hlen : ∀ k, (ln k U).length = 2 ^ level := fun k => by rw [← (hob k).1, hfl]
  have hil : ∀ k, (info (fbits frozen 0 (2 ^ level)) (ln k U)).length = F := fun k => by
    rw [info_length (hob k).1, filter_count, rank_eq]
  have hmsg : ∀ k, (ln k out).take K = (A.pathI (dataBelow first stride 0, cAt first stride 0) ([], par first stride [] 0) (info (fbits frozen 0 (2 ^ level)) (ln k U))).1 := by
    intro k
    rw [o3 k]
    have := htr k
    rw [path_info _ _ _ _ _ (hob k).1, htr0, hctl0] at this
    rw [← this]
    show tr r.1.message r.1.maps K k = tr r.1.message r.1.maps r.1.index k
    rw [hcnt]
  have hsymU : ∀ k, ∀ x ∈ ln k U, Sym x := by
    intro k x hx
    obtain ⟨b, hb, rfl⟩ := List.mem_map.1 hx
    exact run.sym b hb k
  have hsymI : ∀ k, ∀ x ∈ info (fbits frozen 0 (2 ^ level)) (ln k U), Sym x := by
    intro k x hx
    unfold info at hx
    obtain ⟨⟨b, y⟩, hy, rfl⟩ := List.mem_map.1 hx
    exact hsymU k _ (List.of_mem_zip (List.mem_of_mem_filter hy)).2
  have hcw : ∀ k, ln k ((codeword.take (2 ^ level)).map fun v (_ : Fin L) => v) = codeword.take (2 ^ level) := by
    intro k; unfold ln; rw [List.map_map]; exact List.map_id _
  have hmm : ∀ k : Fin L, A.met x0 k = if k.val = 0 then 0 else 1000000 := by
    intro k
    show m0.getD k 0 = _
    by_cases h0 : k.val = 0
    · rw [if_pos h0, h0]; exact m2
    · rw [if_neg h0, m3 _ (by omega) k.isLt]
  -- a metric below 1000000
  have hlow : ∀ k : Fin L, r.1.metric.getD k 0 < 1000000 → r.2.2 k = 0 ∧ A.goods (fbits frozen 0 (2 ^ level)) (A.ctl x0) (A.tr x0 ⟨r.2.2 k, hv k⟩) (ln k U) := by
    intro k hk
    have := hmet k
    have hk' : A.met r.1 k < 1000000 := hk
    rw [this] at hk'
    obtain ⟨q1, q2⟩ := cost_low stride message (2 ^ MAX_M) _ _ _ _ _ _ _ hfl (hlen k) hk'
    refine ⟨?_, q2⟩
    rw [hmm] at q1
    by_contra h0
    rw [if_neg h0] at q1
    omega
  have hcoded : ∀ k : Fin L, r.1.metric.getD k 0 < 1000000 → info (fbits frozen 0 (2 ^ level)) (ln k U) = withParity first stride ((ln k out).take K) F := by
    intro k hk
    have hg := (hlow k hk).2
    rw [goods_info _ _ _ _ _ (hob k).1, htr0, hctl0] at hg
    have := path_coded first stride message (2 ^ MAX_M) _ 0 [] (hsymI k) (by simp) (by simp [dataBelow_zero]) hg
    rw [hil k] at this
    rw [hmsg k]
    unfold withParity
    simpa only [Nat.zero_add] using this
  obtain ⟨rank', er, hr1, hr2⟩ := rankOpt_ok (L := L) (m := r.1.metric) (rank := rank) i1.1 g8
  refine ⟨rank', out, r.1.metric, ?_, ?_, ?_, fun {_} => ⟨fun k => ln k U, A.tr r.1, hlen, fun k => ?_, ?_⟩⟩
  · unfold parDecode
    rw [show assertUB (level ≤ MAX_M) = some () from if_pos g3, sb, em0, sb, ea, sb, et, sb, t1, er, sb, hcnt, eo, sb]
    rfl
  · refine ⟨⟨by rw [o1, i2], fun i hi => by rw [o2 i hi, i3 i hi]⟩, fun k x hx => ?_, ⟨i1.1, fun k => ⟨(i1.2 k k.isLt).1, fun hk => ?_⟩⟩, fun k k' h1 h2 h3 => ?_,
      fun hlast k k' hk => ?_, hr1, hr2⟩
    · rw [hmsg k] at hx
      exact path_sym stride message (2 ^ MAX_M) _ _ _ _ (hsymI k) (by simp) x hx
    · have := hmet k
      have hpath := obeys_eq (hob k)
      rw [hcoded k hk] at hpath
      obtain ⟨q1, q2⟩ := hlow k hk
      rw [hcw, cost_eq A (fun c p μ s b hg => by
          simp only [hA, parLf] at hg ⊢; rw [if_pos hg]) level _ _ _ _ _ _ (Frozen frozen) (codeword.getD · 0)
        (symbolAt frozen (withParity first stride ((ln k out).take K) F)) hfl (by simp [g9]) (hlen k) (fun i hi => by rw [fbits_zero, getD_range_map _ _ hi]; rfl)
        (fun i hi => by rw [getD_take_lt hi]) (fun i hi => by rw [hpath, getD_range_map _ _ hi, ← complete_eq]; rfl) g10 (hsymU k)
        (fun i _ hf => by unfold symbolAt; rw [if_pos hf]) q2, hmm, if_pos q1, zero_add] at this
      exact this
    · have e1 := hcoded k h1
      have e2 := hcoded k' h2
      rw [h3, ← e2] at e1
      exact run.inj k k' (by rw [(hlow k h1).1, (hlow k' h2).1]) (info_inj (hob k) (hob k') e1)
    · refine run.sorted ?_ k k' hk
      rw [fbits_last (by positivity)]
      congr 1
      simpa [Frozen, fbit] using hlast
  · intro data u hd hdl hu ho hinfo hs
    obtain ⟨c1, c2⟩ := coded_path first stride message (2 ^ MAX_M) hd F 0 (by rw [Nat.zero_add]; exact hdl)
    have hw : (List.range F).map (fun i => coded first stride data (0 + i)) = withParity first stride data F := by
      unfold withParity; simp only [Nat.zero_add]
    rw [hw, dataBelow_zero, List.take_zero, par_zero] at c1 c2
    have hgood : A.goods (fbits frozen 0 (2 ^ level)) (A.ctl x0) (A.tr x0 0) u := by
      rw [goods_info _ _ _ _ _ ho.1, hinfo, htr0, hctl0, dataBelow_zero, par_zero]; exact c1
    obtain ⟨q1, q2, q3, q4⟩ := run.truth u hu ho hgood ⟨by rw [hcw, T_length _ _ _ (by rw [← ho.1, hfl])]; simp [g9], fun i hi => by
      rw [hcw] at hi ⊢
      have hi : i < 2 ^ level := by simp at hi; omega
      rw [getD_take_lt hi, ← getElem_eq_getD (by omega), getElem_eq_getD _ 0]
      exact hs i hi⟩ m2 (fun k hk => by
        show 1 ≤ m0.getD k 0
        have : k.val ≠ 0 := fun h => hk (Fin.ext h)
        rw [m3 k (by omega) k.isLt]; omega)
    refine ⟨fun k hk => ?_, fun k hk hk' => q4 ⟨k, hk'⟩ (fun h => by have := congrArg Fin.val h; simp at this; omega)⟩
    have : k = 0 := Fin.ext hk
    subst this
    refine ⟨?_, q3⟩
    rw [hmsg, q2, hinfo, dataBelow_zero, par_zero, c2, Nat.zero_add]
    rfl
  · have := hmsg k
    rw [dataBelow_zero, hc0, par_zero] at this
    exact this
  · have := run.exact 0 (fun _ => []) (fun _ => codeword.take (2 ^ level)) (fun _ => rfl) (fun k w => (hcw k).symm)
    dsimp only [List.nil_append] at this
    have e0 : (fun k : Fin L => (([] : List Int), A.tr x0 k, A.met x0 k)) = fun k : Fin L => ([], ([], 1), if k.val = 0 then 0 else 1000000) := by
      funext k
      refine Prod.ext rfl (Prod.ext ?_ (hmm k))
      show A.tr x0 k = ([], 1)
      rw [htr0, par_zero]
    rw [e0, hctl0, dataBelow_zero, hc0] at this
    exact this

/-- On any soft values the decoder stays inside its arrays, no metric overflows, and the result is as described by `ParResult`. -/
theorem C39_decode (MAX_M : Nat) (soft hard : List (Reg L)) (maps : List (LMap L)) (metric : List Int) (rank : Option (List Nat))
    (message : List (Reg L)) (codeword : List Int) (frozen : List Nat) (level stride first : Nat)
    (h : ParCall L MAX_M soft hard maps metric rank message codeword frozen level stride first) :
    ∃ rank' message' metric', parDecode MAX_M soft hard maps metric rank message codeword frozen level stride first = some (rank', message', metric') ∧
      ParResult L rank message codeword frozen level stride first rank' message' metric' := by
  obtain ⟨rank', message', metric', e, h, -, -⟩ := par_run MAX_M soft hard maps metric rank message codeword frozen level stride first h
  exact ⟨rank', message', metric', e, h⟩

/-- If the soft values have the signs of the codeword that `PolarParityEncoder` makes of `data` with the same `stride` and
`first` — any non-zero `int8_t` amplitudes — then lane 0 of the result is the message, with metric and rank 0; every other lane
has a metric and a rank of at least 1. -/
theorem C39_sign_correct (MAX_M : Nat) (soft hard : List (Reg L)) (maps : List (LMap L)) (metric : List Int) (rank : Option (List Nat))
    (message : List (Reg L)) (codeword : List Int) (frozen : List Nat) (level stride first : Nat)
    (h : ParCall L MAX_M soft hard maps metric rank message codeword frozen level stride first)
    (data cw0 cw : List Int) (hm : parK frozen level stride first ≤ data.length) (hi : ∀ x ∈ data, x = 1 ∨ x = -1)
    (hc : 2 ^ level ≤ cw0.length) (henc : parEncode ph8 cw0 data frozen level stride first = some cw)
    (hsign : ∀ j, j < 2 ^ level → 0 < codeword.getD j 0 * cw.getD j 0) :
    ∃ rank' message' metric', parDecode MAX_M soft hard maps metric rank message codeword frozen level stride first = some (rank', message', metric') ∧
      (∀ k : Fin L, k.val = 0 → (ln k message').take (parK frozen level stride first) = data.take (parK frozen level stride first)) ∧
      metric'.getD 0 0 = 0 ∧ (∀ k, 0 < k → k < L → 1 ≤ metric'.getD k 0) ∧
      ∀ r, rank = some r → ∃ r', rank' = some r' ∧ r'.getD 0 0 = 0 ∧ ∀ k, 0 < k → k < L → 1 ≤ r'.getD k 0 := by
  obtain ⟨rank', message', metric', e, hres, htruth, -⟩ := par_run MAX_M soft hard maps metric rank message codeword frozen level stride first h
  have hL := h.lanes.1
  have hf := h.frozen_len
  set W := withParity first stride data (freeBelow frozen (2 ^ level)) with hW
  have hWi : ∀ x ∈ W, x = 1 ∨ x = -1 := withParity_sym _ _ hi _
  have hWl : W.length = freeBelow frozen (2 ^ level) := withParity_length _ _ _ _
  have hsy := symbolAt_sym (frozen := frozen) hWi
  set u := (List.range (2 ^ level)).map (complete 1 (fbit frozen) W) with hu
  have hul : u.length = 2 ^ level := by simp [hu]
  have hus : ∀ a ∈ u, Sym a := by
    intro a ha
    obtain ⟨i, _, rfl⟩ := List.mem_map.1 ha
    have := hsy i
    rwa [← complete_eq] at this
  have hpol : ∀ j, j < 2 ^ level → (T qmulV level u).getD j 1 = polar level (symbolAt frozen W) j := fun j hj =>
    T_polar hul hus (fun i hi => by rw [hu, getD_range_map _ _ hi, ← complete_eq]; rfl) hj
  obtain ⟨cw', e', -, ⟨-, hcw⟩, hpm⟩ := C39_encode cw0 data frozen level stride first (by have := h.level_ge; omega) hf hm hc hi
  rw [henc] at e'
  cases e'
  obtain ⟨q1, q2⟩ := htruth data u hi hm hus (obeys_complete _ _ _ _) (info_complete (by rw [hWl, rank_eq])) (fun j hj => by
    have h1 := hcw j
    rw [if_pos hj] at h1
    have h2 := hsign j hj
    rw [h1] at h2
    rw [hpol j hj]
    refine ⟨h.codeword_range j hj, ?_⟩
    have hs : Sym (polar level (symbolAt frozen W) j) := by
      unfold polar; rw [← P_prod level _ j hj]; exact P_sym _ _ hsy j
    rcases hs with h3 | h3
    · rw [h3, mul_one] at h2; exact Or.inl ⟨h3, h2⟩
    · rw [h3] at h2; exact Or.inr ⟨h3, by omega⟩)
  have hm0 : metric'.getD 0 0 = 0 := (q1 ⟨0, hL⟩ rfl).2
  refine ⟨rank', message', metric', e, fun k hk => (q1 k hk).1, hm0, q2, fun r hr => ?_⟩
  obtain ⟨r', er, -, h2, -⟩ := hres.ranks.2 r hr
  refine ⟨r', er, by rw [h2 0 hL]; rfl, fun k hk hk' => ?_⟩
  rw [h2 k hk']
  have h1 : changes (fun j => metric'.getD j 0) 1 = 1 := by
    have := q2 1 (by omega) (by omega)
    rw [changes, changes, if_pos (by show metric'.getD 0 0 ≠ metric'.getD 1 0; omega)]
  exact le_trans (le_of_eq h1.symm) (changes_mono _ (by omega))

/-- A call of a decoder for one codeword of 32 symbols, with `L` lanes, and its result as plain lists. -/
def parRun (L frozen K stride first : Nat) (codeword : List Int) : Option (Option (List Nat) × List (List Int) × List Int) := do
  let r ← parDecode (L := L) 5 (List.replicate 64 fun _ => 99) (List.replicate 32 fun _ => 77) (List.replicate 32 fun _ => 200) (List.replicate L 5)
    (some (List.replicate L 9)) (List.replicate K fun _ => 5) codeword [frozen] 5 stride first
  return (r.1, r.2.1.map List.ofFn, r.2.2)

/-- The schedule for `first = 2`, `stride = 1`: two message symbols, their parity, then each message symbol twice. -/
example : withParity 2 1 [-1, 1, -1, 1] 6 = [-1, 1, -1, -1, -1, 1] := by decide +kernel

/-- Four lanes, information set {15, 23, 27, 29, 30, 31}, `first = 2`, `stride = 1`, the codeword of (-1, 1, -1, 1) with amplitudes from 1 to
128. -/
example : (parEncode ph8 (List.replicate 32 0) [-1, 1, -1, 1] [0x177f7fff] 5 1 2 >>= fun cw =>
    parRun 4 0x177f7fff 5 1 2 (List.zipWith (fun (i : Nat) (x : Int) => if x < 0 then -((i : Int) * 4 + 4) else (i : Int) * 3 + 1) (List.range 32) cw)) =
    some (some [0, 1, 1, 1],
      [[-1, -1, -1, -1], [1, 1, 1, 1], [-1, -1, 1, 1], [1, -1, 1, -1], [5, 5, 5, 5]],
      [0, 127, 127, 127]) := by decide +kernel

example : ParCall 4 5 (List.replicate 64 fun _ => 99) (List.replicate 32 fun _ => 77) (List.replicate 32 fun _ => 200) (List.replicate 4 5)
    (some (List.replicate 4 9)) (List.replicate 5 fun _ => 5) (List.replicate 32 1) [0x177f7fff] 5 1 2 where
  lanes := by omega
  max_le := by omega
  level_ge := by omega
  level_le := by omega
  soft_len := by simp
  hard_len := by simp
  maps_len := by simp
  metric_len := by simp
  rank_len := by rintro r ⟨⟩; simp
  codeword_len := by simp
  codeword_range := by
    intro i hi
    rw [getD_replicate' _ _ _ (by simpa using hi)]; exact ⟨by omega, by omega⟩
  frozen_len := by simp
  frozen_words := by simp
  free := by rw [← rank_eq]; decide +kernel
  first_pos := by omega
  message_len := by rw [← rank_eq]; decide +kernel

/-- `first` must be positive: otherwise the decoder accesses `message[-1]` (polar_parity_aided.hh:137). -/
theorem C39_first_zero : parRun 2 0x7fffffff 1 1 0 (List.replicate 32 1) = none := by decide +kernel

end Verif.Polar
