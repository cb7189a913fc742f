import Verif.Polar.FloatClean
/- C62: the list decoder and the parity-aided list decoder on `float` and `double`. -/
namespace Verif.Polar
open Verif.RS (sb)
open FlList (FReg LXF PXF)
variable {L : Nat}

/-! ### Specification -/

/-- The textbook's list decoder (SpecSclOf.lean) in the arithmetic of the format `F`: min-sum decoding where every sum is rounded, metrics that
add up the penalties with rounding (`fadd`), one path of metric 0 and `L - 1` of metric 1000000 to begin with. -/
noncomputable def sclF (F : Rounding) (L M : Nat) (s : Nat → ℚ) (fr : Nat → Prop) (cost : List Int → WithTop ℚ → ℚ → Int → WithTop ℚ) : List (List Int × WithTop ℚ) :=
  sclOf (minSum F.rnd) L M s fr 0 1000000 (fun μ s => fadd F μ (penaltyQ s 1)) cost

/-- A call of `PolarListDecoder<SIMD<float, L>, MAX_M>` (or `double`) that the decoder accepts; its members `soft`, `hard` and `maps` and its
uninitialised array `metric` are in any state, `rank` may be null.  The soft values `s` are finite, at most `B` in magnitude, and `B * 2^level`
does not overflow.  `U` is the number of values of the unsigned integer of that size. -/
structure FListCall (F : Rounding) (U L MAX_M : Nat) (soft hard : List (FReg L)) (maps : List (LMap L)) (metric : List Fl) (rank : Option (List Nat))
    (codeword : List Fl) (frozen : List Nat) (level : Nat) (s : Nat → ℚ) (B : ℚ) : Prop where
  lanes : 1 ≤ L ∧ L ≤ U
  million : F.rep 1000000 ∧ 1000000 < F.huge
  max_le : MAX_M ≤ 16
  level_ge : 5 ≤ level
  level_le : level ≤ MAX_M
  soft_len : soft.length = 2 * 2 ^ MAX_M
  hard_len : hard.length = 2 ^ MAX_M
  maps_len : maps.length = 2 ^ MAX_M
  metric_len : metric.length = L
  rank_len : ∀ r, rank = some r → L ≤ r.length
  codeword_len : 2 ^ level ≤ codeword.length
  values : ∀ j, j < 2 ^ level → codeword.getD j .nan = .fin (s j) ∧ F.rep (s j) ∧ |s j| ≤ B
  bound : F.rep B ∧ B * 2 ^ level < F.huge
  frozen_len : 2 ^ level ≤ 32 * frozen.length
  frozen_words : ∀ w ∈ frozen, w < 2 ^ 32
  free : 1 ≤ freeBelow frozen (2 ^ level)

/-- The textbook's list of paths as the result of a call: the metrics of the paths, their message symbols in the lanes, nothing else
written; the rank counts how often the metric has changed. -/
structure FSclResult (L : Nat) (ps : List (List Int × WithTop ℚ)) (symbols : List Int → List Int) (K : Nat) (rank : Option (List Nat)) (message : List (FReg L))
    (rank' : Option (List Nat)) (message' : List (FReg L)) (metric : List Fl) : Prop where
  paths : ps.length = L
  metrics : metric = ps.map fun a => metFl a.2
  messages : ∀ k : Fin L, (message'.map fun r => r k).take K = (symbols (ps.getD k ([], 0)).1).map flSym
  frame : message'.length = message.length ∧ message'.drop K = message.drop K
  ranks : (rank = none → rank' = none) ∧ ∀ r, rank = some r → ∃ r', rank' = some r' ∧ r'.length = r.length ∧
    (∀ i, i < L → r'.getD i 0 = changesOf (fun j => (ps.getD j ([], 0)).2) i) ∧ ∀ i, L ≤ i → r'.getD i 0 = r.getD i 0

/-! ### The recursion -/

theorem paths_init {P : Type} [LinearOrder P] (hL : 1 ≤ L) (z ph : P) : Paths L 0 (([], z) :: List.replicate (L - 1) (([] : List Int), ph)) := by
  refine ⟨by simp; omega, fun a ha => ?_, fun a ha x hx => ?_⟩
  all_goals
    have : a.1 = [] := by
      rcases List.mem_cons.1 ha with rfl | h
      · rfl
      · rw [List.eq_of_mem_replicate h]
  · rw [this]; rfl
  · rw [this] at hx; simp at hx

theorem word_init {P : Type} [LinearOrder P] (z ph : P) (n k : Nat) : word (([], z) :: List.replicate n (([] : List Int), ph)) k = [] := by
  unfold word
  cases k with
  | zero => rfl
  | succ k =>
    simp only [List.map_cons, List.getD_cons_succ, List.map_replicate]
    rw [List.getD_eq_getElem?_getD, List.getElem?_replicate]
    split <;> rfl

theorem mets_init {F : Rounding} (h6 : F.rep 1000000) (hh : 1000000 < F.huge) (n : Nat) :
    MetsP F (.fin 0 :: List.replicate n (.fin 1000000)) (([], 0) :: List.replicate n (([] : List Int), 1000000)) := by
  refine ⟨?_, fun a ha => ?_⟩
  · rw [List.map_cons, List.map_replicate]; rfl
  · rcases List.mem_cons.1 ha with rfl | h
    · intro q hq
      have : (0 : ℚ) = q := WithTop.coe_inj.1 (show ((0 : ℚ) : WithTop ℚ) = q from hq)
      subst this
      exact ⟨le_rfl, F.zero, by have := F.one_lt; linarith⟩
    · rw [List.eq_of_mem_replicate h]; exact mok_phantom h6 hh

theorem float_top [NeZero L] {X : Type} {F : Rounding} {B : ℚ} (hB : F.rep B) {level : Nat} {frozen : List Nat} {cost : List Int → WithTop ℚ → ℚ → Int → WithTop ℚ}
    {Rel : Nat → X → List (List Int × WithTop ℚ) → Prop} {W : Walk (FReg L) (LMap L) X} {N : Nodes (FReg L) (LMap L) X}
    (C : Sim (phFV F L) (minSum F.rnd) level (RF F B) (fun a v => a = .fin v) (fun a x => a = flSym x) (Frozen frozen) (fun μ s => fadd F μ (penaltyQ s 1)) cost Rel (.fin 0) W N)
    (ag : Agree (oneF L) W N) (hw : ∀ w ∈ frozen, w < 2 ^ 32) (h5 : 5 ≤ level) (h16 : level ≤ 16) (hf : 2 ^ level ≤ 32 * frozen.length) (hfree : 1 ≤ freeBelow frozen (2 ^ level))
    {codeword : List Fl} {s : Nat → ℚ} (hc : 2 ^ level ≤ codeword.length) (hs : ∀ j, j < 2 ^ level → codeword.getD j .nan = .fin (s j) ∧ F.rep (s j) ∧ |s j| ≤ B)
    {m : Mem (FReg L) X} (hm : Has (oneF L) m.soft (2 ^ level) ((codeword.take (2 ^ level)).map fun v (_ : Fin L) => v)) (hh : 2 ^ level ≤ m.hard.length)
    (hrel : Rel 0 m.x (([], 0) :: List.replicate (L - 1) ([], 1000000))) :
    ∃ t, treeTop W 16 frozen level m = some t ∧ Rel (2 ^ level) t.1.x (sclF F L level s (Frozen frozen) cost) ∧ Paths L (2 ^ level) (sclF F L level s (Frozen frozen) cost) := by
  have hL : 1 ≤ L := Nat.pos_of_ne_zero (NeZero.ne L)
  have hsl : ((codeword.take (2 ^ level)).map fun v (_ : Fin L) => v).length = 2 ^ level := by simp [hc]
  have hcnt : cnt (fbits frozen 0 (2 ^ level)) = freeBelow frozen (2 ^ level) := cnt_fbits _ _
  obtain ⟨x', hd, mp, e, r, ps, -, -⟩ := (list_sim (floatLaws F hB) C (σ := s) (fun i hi => ⟨(hs i hi).2.1, by simpa using (hs i hi).2.2⟩) level 0 0 (by omega) (by simp) (fbits frozen 0 (2 ^ level)) m.x
    ((codeword.take (2 ^ level)).map fun v (_ : Fin L) => v) (([], 0) :: List.replicate (L - 1) ([], 1000000)) (by simp [fbits])
    (fun i hi => by rw [fbits_zero, getD_range_map _ _ hi, Nat.zero_mul, Nat.zero_add]; rfl) hsl (by rw [Nat.zero_mul]; exact hrel) (by rw [Nat.zero_mul]; exact paths_init hL _ _)
    (fun k i hi => by
      rw [getD_map' _ _ Fl.nan _ (by simp; omega), getD_take_lt hi, (hs i hi).1]
      rfl)).2 (fun h => not_all_frozen (by omega) h.2) (by omega)
  rw [Nat.zero_mul, Nat.zero_add] at r ps
  obtain ⟨t, et, t1, -⟩ := treeTop_ok ag hw h5 h16 hf hsl hm hh e
  refine ⟨t, et, ?_, ps⟩
  rw [t1]; exact r

theorem fdrop_of_getD {α : Type} {a b : List α} {d : α} {n : Nat} (hl : a.length = b.length) (h : ∀ i, n ≤ i → a.getD i d = b.getD i d) : a.drop n = b.drop n :=
  ext_getD d (by simp [hl]) fun i _ => by rw [getD_drop', getD_drop']; exact h _ (by omega)

/-- The end of a call: ranks, and the message put in order. -/
theorem float_end [NeZero L] {F : Rounding} {ps : List (List Int × WithTop ℚ)} (hps : ps.length = L) {symbols : List Int → List Int} {K cap : Nat} {rank : Option (List Nat)}
    {message0 message : List (FReg L)} {maps : List (LMap L)} {metric : List Fl} (hm : MetsP F metric ps) (hr : ∀ r, rank = some r → L ≤ r.length) (hK : 1 ≤ K) (h1 : K ≤ message0.length) (h2 : K ≤ cap)
    (rows : Rows message0 cap K (fun k => (symbols (word ps k)).map flSym) message maps) :
    ∃ rank' message', FlList.rankOpt L metric rank = some rank' ∧ FlList.backLoop message maps K = some message' ∧ FSclResult L ps symbols K rank message0 rank' message' metric := by
  obtain ⟨i1, i2, i3, i4, i5⟩ := rows
  obtain ⟨rank', er, ranks⟩ := rankOptF_ok (L := L) (m := ps.map Prod.snd) (rank := rank) (by simp [hps]) hr
  obtain ⟨out, eo, o1, o2, o3⟩ := backLoopF_ok (message := message) (maps := maps) (n := K) hK (by omega) (by omega) i4
  have e : (ps.map Prod.snd).map metFl = metric := by rw [hm.1, List.map_map]; rfl
  rw [e] at er
  refine ⟨rank', out, er, eo, hps, hm.1, fun k => ?_, ⟨by rw [o1, i1], fdrop_of_getD (d := oneF L) (by rw [o1, i1]) fun i hi => by rw [o2 i hi, i2 i hi]⟩, ranks.1, fun r hr => ?_⟩
  · have hk : k.val < ps.length := by rw [hps]; exact k.isLt
    rw [o3 k, i5 k]
    dsimp only
    rw [word_eq hk, ← getElem_eq_getD hk]
  · obtain ⟨r', a1, a2, a3, a4⟩ := ranks.2 r hr
    refine ⟨r', a1, a2, fun i hi => ?_, a4⟩
    rw [a3 i hi]
    congr 1
    funext j
    rw [List.getD_eq_getElem?_getD, List.getElem?_map, List.getD_eq_getElem?_getD]
    cases ps[j]? <;> rfl

theorem rows_init [NeZero L] (message : List (FReg L)) (maps : List (LMap L)) {target : Fin L → List Fl} (ht : ∀ k, target k = []) : Rows message maps.length 0 target message maps :=
  ⟨rfl, fun _ _ => rfl, rfl, fun i hi => by omega, fun k => by rw [ht]; rfl⟩

/-! ### Theorems -/

/-- On any finite soft values that cannot overflow the list decoder computes exactly the textbook's list, rounding included: the same paths in the
same order with the same metrics.  Together with the frame this determines every output of the call. -/
theorem C62_list (F : Rounding) (U MAX_M : Nat) (soft hard : List (FReg L)) (maps : List (LMap L)) (metric : List Fl) (rank : Option (List Nat)) (message : List (FReg L))
    (codeword : List Fl) (frozen : List Nat) (level : Nat) (s : Nat → ℚ) (B : ℚ) (h : FListCall F U L MAX_M soft hard maps metric rank codeword frozen level s B)
    (hmsg : freeBelow frozen (2 ^ level) ≤ message.length) :
    ∃ rank' message' metric', FlList.listDecode F U MAX_M soft hard maps metric rank message codeword frozen level = some (rank', message', metric') ∧
      FSclResult L (sclF F L level s (Frozen frozen) (addF F)) (freeSymbols (Frozen frozen)) (freeBelow frozen (2 ^ level)) rank message rank' message' metric' := by
  haveI : NeZero L := ⟨by have := h.lanes; omega⟩
  have hpow : 2 ^ level ≤ 2 ^ MAX_M := Nat.pow_le_pow_right (by norm_num) h.level_le
  have hcap : freeBelow frozen (2 ^ level) ≤ maps.length := by
    rw [h.maps_len]
    refine le_trans ?_ hpow
    rw [← cnt_fbits]
    refine (List.length_filter_le _ _).trans ?_
    simp [fbits]
  obtain ⟨soft', es, s1, s2⟩ := dupLoopF_ok (L := L) (level := level) (codeword := codeword) (soft := soft) (by rw [h.soft_len]; omega) h.codeword_len
  obtain ⟨t, et, ⟨r1, r2, r3⟩, pt⟩ := float_top h.bound.1 (listSimF (F := F) h.lanes.2 h.bound.1 h.bound.2 (frozen := frozen) (msg0 := message) (cap := maps.length) hmsg hcap) (listAgreeF F U (oneF L))
    h.frozen_words h.level_ge (h.level_le.trans h.max_le) h.frozen_len h.free h.codeword_len h.values (m := ⟨⟨.fin 0 :: List.replicate (L - 1) (.fin 1000000), message, maps, 0⟩, hard, soft'⟩) s2
    (by rw [h.hard_len]; exact hpow) ⟨mets_init h.million.1 h.million.2 _, by simp [freeBelow], rows_init _ _ fun k => by rw [word_init]; rfl⟩
  rw [r2] at r3
  obtain ⟨rank', message', e1, e2, res⟩ := float_end pt.count r1 h.rank_len h.free hmsg hcap r3
  refine ⟨rank', message', t.1.x.metric, ?_, res⟩
  unfold FlList.listDecode
  rw [show assertUB (level ≤ MAX_M) = some () from if_pos h.level_le, sb, metric0F_ok h.million.1 h.million.2 h.lanes.1 h.metric_len, sb, es, sb, et, sb, e1, sb, r2, e2]
  rfl

/-- The same for the parity-aided list decoder. -/
theorem C62_parity (F : Rounding) (U MAX_M : Nat) (soft hard : List (FReg L)) (maps : List (LMap L)) (metric : List Fl) (rank : Option (List Nat)) (message : List (FReg L))
    (codeword : List Fl) (frozen : List Nat) (level stride first : Nat) (s : Nat → ℚ) (B : ℚ) (h : FListCall F U L MAX_M soft hard maps metric rank codeword frozen level s B)
    (hfirst : 1 ≤ first) (hmsg : dataBelow first stride (freeBelow frozen (2 ^ level)) ≤ message.length) :
    ∃ rank' message' metric', FlList.parDecode F U MAX_M soft hard maps metric rank message codeword frozen level stride first = some (rank', message', metric') ∧
      FSclResult L (sclF F L level s (Frozen frozen) (parityF F first stride (Frozen frozen))) (fun w => dataSymbols first stride (freeSymbols (Frozen frozen) w))
        (dataBelow first stride (freeBelow frozen (2 ^ level))) rank message rank' message' metric' := by
  haveI : NeZero L := ⟨by have := h.lanes; omega⟩
  have hpow : 2 ^ level ≤ 2 ^ MAX_M := Nat.pow_le_pow_right (by norm_num) h.level_le
  have hcap : dataBelow first stride (freeBelow frozen (2 ^ level)) ≤ maps.length := by
    rw [h.maps_len]
    refine (dataBelow_le _ _ _).trans (le_trans ?_ hpow)
    rw [← cnt_fbits]
    refine (List.length_filter_le _ _).trans ?_
    simp [fbits]
  obtain ⟨soft', es, s1, s2⟩ := dupLoopF_ok (L := L) (level := level) (codeword := codeword) (soft := soft) (by rw [h.soft_len]; omega) h.codeword_len
  obtain ⟨t, et, ⟨r1, r2, -, -, r3⟩, pt⟩ := float_top h.bound.1 (parSimF (F := F) h.million.1 h.million.2 h.lanes.2 h.bound.1 h.bound.2 (frozen := frozen) (stride := stride) hfirst (msg0 := message) (cap := maps.length) hmsg hcap)
    (parAgreeF F U stride (oneF L))
    h.frozen_words h.level_ge (h.level_le.trans h.max_le) h.frozen_len h.free h.codeword_len h.values (m := ⟨⟨.fin 0 :: List.replicate (L - 1) (.fin 1000000), message, maps, 0, (phFV F L).one, first⟩, hard, soft'⟩) s2
    (by rw [h.hard_len]; exact hpow) ⟨mets_init h.million.1 h.million.2 _, by simp [freeBelow, dataBelow], by simp [freeBelow, cAt], fun k => by
      rw [word_init]; simp [phFV, flSym, sinceProd, freeSymbols], rows_init _ _ fun k => by rw [word_init]; rfl⟩
  rw [r2] at r3
  obtain ⟨rank', message', e1, e2, res⟩ := float_end (symbols := fun w => dataSymbols first stride (freeSymbols (Frozen frozen) w)) pt.count r1 h.rank_len (dataBelow_pos hfirst h.free) hmsg hcap r3
  refine ⟨rank', message', t.1.x.metric, ?_, res⟩
  unfold FlList.parDecode
  rw [show assertUB (level ≤ MAX_M) = some () from if_pos h.level_le, sb, metric0F_ok h.million.1 h.million.2 h.lanes.1 h.metric_len, sb, es, sb, et, sb, e1, sb, r2, e2]
  rfl

/-- What the outputs are if lane 0 holds the message `m` for sure: its symbols, metric 0 and rank 0, and all other lanes have larger metrics and ranks. -/
structure FirstLane (L : Nat) (m : List Int) (rank : Option (List Nat)) (rank' : Option (List Nat)) (message' : List (FReg L)) (metric : List Fl) : Prop where
  message : ∀ k : Fin L, k.val = 0 → (message'.map fun r => r k).take m.length = m.map flSym
  metric_zero : metric.getD 0 .nan = .fin 0
  metric_pos : ∀ k, 0 < k → k < L → Fl.lt (.fin 0) (metric.getD k .nan) = true
  ranks : ∀ r, rank = some r → ∃ r', rank' = some r' ∧ r'.getD 0 0 = 0 ∧ ∀ k, 0 < k → k < L → 1 ≤ r'.getD k 0

theorem changesOf_pos {P : Type} [DecidableEq P] (m : Nat → P) (h : m 0 ≠ m 1) : ∀ k, 0 < k → 1 ≤ changesOf m k := by
  intro k
  induction k with
  | zero => intro h; omega
  | succ k ih =>
    intro _
    rw [changesOf]
    rcases Nat.eq_zero_or_pos k with rfl | hk
    · rw [if_pos h]; omega
    · have := ih hk; omega

theorem firstLane {F : Rounding} {ps : List (List Int × WithTop ℚ)} {symbols : List Int → List Int} {m : List Int} {rank rank' : Option (List Nat)} {message message' : List (FReg L)} {metric : List Fl}
    (hL : 1 ≤ L) {u : Nat → Int} {n : Nat} (hc : Clean F u n ps) (hm : symbols (pre u n) = m) (h : FSclResult L ps symbols m.length rank message rank' message' metric) : FirstLane L m rank rank' message' metric := by
  obtain ⟨rest, rfl, hr⟩ := hc
  have hrest : ∀ k, 0 < k → k < L → ∃ a ∈ rest, ((pre u n, (0 : WithTop ℚ)) :: rest).getD k ([], 0) = a := by
    intro k hk hk'
    obtain ⟨j, rfl⟩ : ∃ j, k = j + 1 := ⟨k - 1, by omega⟩
    have hl := h.paths
    rw [List.length_cons] at hl
    exact ⟨rest[j], List.getElem_mem (by omega), by rw [List.getD_cons_succ, ← getElem_eq_getD (by omega)]⟩
  refine ⟨fun k hk => ?_, ?_, fun k hk hk' => ?_, fun r hr' => ?_⟩
  · rw [h.messages k, hk, List.getD_cons_zero, hm]
  · rw [h.metrics]; rfl
  · obtain ⟨a, ha, e⟩ := hrest k hk hk'
    rw [h.metrics, getD_map' _ _ ([], 0) Fl.nan (show k < ((pre u n, (0 : WithTop ℚ)) :: rest).length by rw [h.paths]; exact hk'), e]
    have := metFl_lt 0 a.2
    rw [show Fl.fin 0 = metFl 0 from rfl, this]
    simpa using (hr a ha).1
  · obtain ⟨r', a1, a2, a3, a4⟩ := h.ranks.2 r hr'
    refine ⟨r', a1, by rw [a3 0 (by omega)]; rfl, fun k hk hk' => ?_⟩
    rw [a3 k hk']
    refine changesOf_pos _ ?_ k hk
    obtain ⟨a, ha, e⟩ := hrest 1 (by omega) (by omega)
    rw [e, List.getD_cons_zero]
    exact ((hr a ha).1).ne

theorem freeBelow_mono (frozen : List Nat) {a b : Nat} (h : a ≤ b) : freeBelow frozen a ≤ freeBelow frozen b := by
  induction b, h using Nat.le_induction with
  | base => exact le_rfl
  | succ b _ ih => rw [freeBelow_succ]; omega

theorem clean_init {F : Rounding} (h6 : F.rep 1000000) (hh : 1000000 < F.huge) (u : Nat → Int) (n : Nat) : Clean F u 0 (([], 0) :: List.replicate n ([], 1000000)) :=
  ⟨_, rfl, fun a ha => by rw [List.eq_of_mem_replicate ha]; exact ⟨million_pos, mok_phantom h6 hh⟩⟩

/-- The textbook's list, where the soft values have the signs of a codeword. -/
theorem first_list {F : Rounding} {U MAX_M : Nat} {soft hard : List (FReg L)} {maps : List (LMap L)} {metric : List Fl} {rank : Option (List Nat)} {message : List (FReg L)}
    {codeword : List Fl} {frozen : List Nat} {level : Nat} {s : Nat → ℚ} {B : ℚ} (h : FListCall F U L MAX_M soft hard maps metric rank codeword frozen level s B)
    {data : List Int} (hlen : data.length = freeBelow frozen (2 ^ level)) (hi : ∀ x ∈ data, x = 1 ∨ x = -1)
    (hsign : ∀ j, j < 2 ^ level → 0 < s j * polar level (symbolAt frozen data) j) {rank' : Option (List Nat)} {message' : List (FReg L)} {metric' : List Fl}
    (res : FSclResult L (sclF F L level s (Frozen frozen) (addF F)) (freeSymbols (Frozen frozen)) (freeBelow frozen (2 ^ level)) rank message rank' message' metric') :
    FirstLane L data rank rank' message' metric' := by
  have hu := symbolAt_sym (frozen := frozen) hi
  have c := clean_steps h.bound.1 h.lanes.1 hu (fun i hi => ⟨(h.values i hi).2.1, by simpa using (h.values i hi).2.2⟩) hsign (fun i _ hf => by unfold symbolAt; exact if_pos hf)
    (fair_add F level (Frozen frozen) hu) level 0 _ le_rfl (by simp) (by rw [Nat.zero_mul]; exact clean_init h.million.1 h.million.2 _ (L - 1))
  rw [Nat.zero_add, Nat.one_mul] at c
  exact firstLane (symbols := freeSymbols (Frozen frozen)) h.lanes.1 c (by rw [free_pre, range_getD _ (by omega), List.take_of_length_le (by omega)]) (by rw [hlen]; exact res)

/-- If the soft values have the signs of the codeword of the message `data` (as `PolarEncoder` makes it, C35, C59) then lane 0 of the list decoder's result holds
the message, with metric and rank 0; every other lane has a larger metric and rank. -/
theorem C62_sign_correct (F : Rounding) (U MAX_M : Nat) (soft hard : List (FReg L)) (maps : List (LMap L)) (metric : List Fl) (rank : Option (List Nat)) (message : List (FReg L))
    (codeword : List Fl) (frozen : List Nat) (level : Nat) (s : Nat → ℚ) (B : ℚ) (h : FListCall F U L MAX_M soft hard maps metric rank codeword frozen level s B)
    (hmsg : freeBelow frozen (2 ^ level) ≤ message.length) (data : List Int) (hlen : data.length = freeBelow frozen (2 ^ level)) (hi : ∀ x ∈ data, x = 1 ∨ x = -1)
    (hsign : ∀ j, j < 2 ^ level → 0 < s j * polar level (symbolAt frozen data) j) :
    ∃ rank' message' metric', FlList.listDecode F U MAX_M soft hard maps metric rank message codeword frozen level = some (rank', message', metric') ∧
      FirstLane L data rank rank' message' metric' := by
  obtain ⟨rank', message', metric', e, res⟩ := C62_list F U MAX_M soft hard maps metric rank message codeword frozen level s B h hmsg
  exact ⟨rank', message', metric', e, first_list h hlen hi hsign res⟩

/-- The same with parity symbols. -/
theorem first_parity {F : Rounding} {U MAX_M : Nat} {soft hard : List (FReg L)} {maps : List (LMap L)} {metric : List Fl} {rank : Option (List Nat)} {message : List (FReg L)}
    {codeword : List Fl} {frozen : List Nat} {level stride first : Nat} {s : Nat → ℚ} {B : ℚ} (h : FListCall F U L MAX_M soft hard maps metric rank codeword frozen level s B)
    {data : List Int} (hlen : data.length = dataBelow first stride (freeBelow frozen (2 ^ level))) (hi : ∀ x ∈ data, x = 1 ∨ x = -1)
    (hsign : ∀ j, j < 2 ^ level → 0 < s j * polar level (symbolAt frozen (withParity first stride data (freeBelow frozen (2 ^ level)))) j)
    {rank' : Option (List Nat)} {message' : List (FReg L)} {metric' : List Fl}
    (res : FSclResult L (sclF F L level s (Frozen frozen) (parityF F first stride (Frozen frozen))) (fun w => dataSymbols first stride (freeSymbols (Frozen frozen) w))
        (dataBelow first stride (freeBelow frozen (2 ^ level))) rank message rank' message' metric') :
    FirstLane L data rank rank' message' metric' := by
  set W := withParity first stride data (freeBelow frozen (2 ^ level)) with hW
  have hWi : ∀ x ∈ W, x = 1 ∨ x = -1 := withParity_sym _ _ hi _
  have hu := symbolAt_sym (frozen := frozen) hWi
  have hfree : ∀ n, n ≤ 2 ^ level → freeSymbols (Frozen frozen) (pre (symbolAt frozen W) n) = (List.range (freeBelow frozen n)).map (coded first stride data) := by
    intro n hn
    rw [free_pre]
    refine List.map_congr_left fun i hi => ?_
    have hi : i < freeBelow frozen n := by simpa using hi
    exact withParity_getD _ _ _ (hi.trans_le (freeBelow_mono frozen hn))
  have c := clean_steps h.bound.1 h.lanes.1 hu (fun i hi => ⟨(h.values i hi).2.1, by simpa using (h.values i hi).2.2⟩) hsign (fun i _ hf => by unfold symbolAt; exact if_pos hf)
    (fair_parity h.million.1 h.million.2 level (Frozen frozen) hu first stride fun n hn hf => by
      rw [hfree n hn.le, since_coded, List.length_map, List.length_range]
      by_cases hc : cAt first stride (freeBelow frozen n) = 0
      · refine Or.inr ?_
        have hlt : freeBelow frozen n < freeBelow frozen (2 ^ level) := by
          have := freeBelow_mono frozen (show n + 1 ≤ 2 ^ level from hn)
          rw [freeBelow_succ, if_neg hf] at this
          omega
        have : symbolAt frozen W n = coded first stride data (freeBelow frozen n) := by
          unfold symbolAt
          rw [if_neg hf]; exact withParity_getD _ _ _ hlt
        rw [this, coded_eq, if_neg (by simp [hc])]
      · exact Or.inl hc) level 0 _ le_rfl (by simp) (by rw [Nat.zero_mul]; exact clean_init h.million.1 h.million.2 _ (L - 1))
  rw [Nat.zero_add, Nat.one_mul] at c
  refine firstLane (symbols := fun w => dataSymbols first stride (freeSymbols (Frozen frozen) w)) h.lanes.1 c ?_ (by rw [hlen]; exact res)
  rw [hfree _ le_rfl, data_coded, range_getD _ (by omega), List.take_of_length_le (by omega)]

/-- The same for the parity-aided list decoder and the codeword of `PolarParityEncoder` (C39). -/
theorem C62_parity_sign_correct (F : Rounding) (U MAX_M : Nat) (soft hard : List (FReg L)) (maps : List (LMap L)) (metric : List Fl) (rank : Option (List Nat)) (message : List (FReg L))
    (codeword : List Fl) (frozen : List Nat) (level stride first : Nat) (s : Nat → ℚ) (B : ℚ) (h : FListCall F U L MAX_M soft hard maps metric rank codeword frozen level s B)
    (hfirst : 1 ≤ first) (hmsg : dataBelow first stride (freeBelow frozen (2 ^ level)) ≤ message.length)
    (data : List Int) (hlen : data.length = dataBelow first stride (freeBelow frozen (2 ^ level))) (hi : ∀ x ∈ data, x = 1 ∨ x = -1)
    (hsign : ∀ j, j < 2 ^ level → 0 < s j * polar level (symbolAt frozen (withParity first stride data (freeBelow frozen (2 ^ level)))) j) :
    ∃ rank' message' metric', FlList.parDecode F U MAX_M soft hard maps metric rank message codeword frozen level stride first = some (rank', message', metric') ∧
      FirstLane L data rank rank' message' metric' := by
  obtain ⟨rank', message', metric', e, res⟩ := C62_parity F U MAX_M soft hard maps metric rank message codeword frozen level stride first s B h hfirst hmsg
  exact ⟨rank', message', metric', e, first_parity h hlen hi hsign res⟩

/-! ### Cases -/

/-- `float` and `double` hold 1000000. -/
theorem million32 : binary32.rep 1000000 ∧ (1000000 : ℚ) < binary32.huge :=
  ⟨⟨1000000, 0, by norm_num, by norm_num, by norm_num⟩, by show (1000000 : ℚ) < 2 ^ 128; norm_num⟩
theorem million64 : binary64.rep 1000000 ∧ (1000000 : ℚ) < binary64.huge :=
  ⟨⟨1000000, 0, by norm_num, by norm_num, by norm_num⟩, by
    show (1000000 : ℚ) < 2 ^ 1024
    exact lt_of_lt_of_le (by norm_num : (1000000 : ℚ) < 2 ^ 20) (pow_le_pow_right₀ (by norm_num) (by norm_num))⟩

theorem quarters_ok : ∀ j, j < 2 ^ 5 → (quarters.map Fl.fin).getD j .nan = .fin (quarters.getD j 0) ∧ quarters.getD j 0 = ((received.getD j 0 : Int) : ℚ) * (2 : ℚ) ^ (-2 : ℤ) ∧ |received.getD j 0| ≤ 128 := by
  decide +kernel

/-- The received values of PropsSct.lean in quarters, four of them with the wrong sign: a call of `PolarListDecoder<SIMD<float, 4>, 5>`. -/
theorem quarters_call : FListCall binary32 (2 ^ 32) 4 5 (List.replicate 64 fun _ => .nan) (List.replicate 32 fun _ => .nan) (List.replicate 32 fun _ => 200) (List.replicate 4 .nan)
    (some (List.replicate 4 9)) (quarters.map .fin) [0x177f7fff] 5 (quarters.getD · 0) 32 where
  lanes := by norm_num
  million := million32
  max_le := by norm_num
  level_ge := by norm_num
  level_le := by norm_num
  soft_len := by simp
  hard_len := by simp
  maps_len := by simp
  metric_len := by simp
  rank_len := by rintro r ⟨⟩; simp
  codeword_len := by simp [quarters, received]
  values j hj := by
    obtain ⟨a, b, c⟩ := quarters_ok j hj
    refine ⟨a, ⟨received.getD j 0, -2, by omega, by norm_num, b⟩, ?_⟩
    have h4 : (2 : ℚ) ^ (-2 : ℤ) = 1 / 4 := by norm_num
    have : (|((received.getD j 0 : Int) : ℚ)|) ≤ 128 := by exact_mod_cast c
    rw [b, abs_mul, h4, abs_of_pos (by norm_num : (0 : ℚ) < 1 / 4)]
    linarith
  bound := ⟨⟨32, 0, by norm_num, by norm_num, by norm_num⟩, by show (32 : ℚ) * 2 ^ 5 < 2 ^ 128; norm_num⟩
  frozen_len := by norm_num
  frozen_words := by simp
  free := by decide +kernel

/-- The values received for the codeword of a message of six symbols, all with the right signs, a thousand to a thousand million. -/
example : ∃ rank' message' metric', FlList.listDecode binary32 (2 ^ 32) 5 (List.replicate 64 fun _ => .nan) (List.replicate 32 fun _ => .nan) (List.replicate 32 fun _ => 200) (List.replicate 4 .nan)
    (some (List.replicate 4 9)) (List.replicate 7 fun (_ : Fin 4) => Fl.fin 5) ((List.range 32).map fun i => Fl.fin (if i % 2 = 0 then 1000 else 1000000000)) [0x177f7fff] 5 = some (rank', message', metric') ∧
    FirstLane 4 [1, 1, 1, 1, 1, 1] (some (List.replicate 4 9)) rank' message' metric' := by
  have hval : ∀ j, j < 32 → ((List.range 32).map fun i => Fl.fin (if i % 2 = 0 then 1000 else 1000000000)).getD j .nan = .fin (if j % 2 = 0 then 1000 else 1000000000) := fun j hj => getD_range_map _ _ hj
  refine C62_sign_correct binary32 (2 ^ 32) 5 _ _ _ _ _ _ _ [0x177f7fff] 5 (fun j => if j % 2 = 0 then 1000 else 1000000000) 1000000000 ⟨by norm_num, million32, by norm_num, by norm_num, by norm_num, by simp, by simp,
    by simp, by simp, by rintro r ⟨⟩; simp, by simp, fun j hj => ?_, ?_, by norm_num, by simp, by decide +kernel⟩ ?_ [1, 1, 1, 1, 1, 1] ?_ (by simp) fun j hj => ?_
  · refine ⟨hval j hj, ?_, ?_⟩
    · split
      · exact ⟨1000, 0, by norm_num, by norm_num, by norm_num⟩
      · exact ⟨1953125, 9, by norm_num, by norm_num, by norm_num⟩
    · split <;> norm_num
  · exact ⟨⟨1953125, 9, by norm_num, by norm_num, by norm_num⟩, by show (1000000000 : ℚ) * 2 ^ 5 < 2 ^ 128; norm_num⟩
  · have : freeBelow [0x177f7fff] (2 ^ 5) = 6 := by decide +kernel
    rw [this]; simp
  · have : freeBelow [0x177f7fff] (2 ^ 5) = 6 := by decide +kernel
    rw [this]; simp
  · have hp : polar 5 (symbolAt [0x177f7fff] [1, 1, 1, 1, 1, 1]) j = 1 := by
      unfold polar
      refine Finset.prod_eq_one fun i _ => ?_
      unfold symbolAt
      split
      · rfl
      · generalize freeBelow [0x177f7fff] i = n
        by_cases hn : n < 6
        · exact (by decide : ∀ n < 6, [1, 1, 1, 1, 1, 1].getD n (1 : Int) = 1) n hn
        · exact List.getD_eq_default _ _ (by simp; omega)
    rw [hp]
    split <;> norm_num

/-- A call of `PolarListDecoder<SIMD<float, L>, 5>` for one codeword of 32 symbols, and its result as plain lists. -/
def fListRun (L frozen K : Nat) (codeword : List Fl) : Option (Option (List Nat) × List (List Fl) × List Fl) := do
  let r ← FlList.listDecode (L := L) binary32 (2 ^ 32) 5 (List.replicate 64 fun _ => .nan) (List.replicate 32 fun _ => .nan) (List.replicate 32 fun _ => 200) (List.replicate L .nan)
    (some (List.replicate L 9)) (List.replicate K fun _ => .fin 5) codeword [frozen] 5
  return (r.1, r.2.1.map List.ofFn, r.2.2)

/-- The call of `quarters_call`: the message 1, 1, 1, 1, 1, 1 comes first. -/
example : fListRun 4 0x177f7fff 7 (quarters.map .fin) = some (some [0, 1, 1, 1],
    [[1, 1, -1, -1], [1, 1, -1, -1], [1, 1, 1, -1], [1, -1, -1, 1], [1, 1, -1, -1], [1, 1, 1, 1], [5, 5, 5, 5]].map (fun l => l.map fun x => Fl.fin x),
    [.fin (11 / 2), .fin (37 / 2), .fin (37 / 2), .fin (37 / 2)]) := by decide +kernel

/-- The soft values have to be finite: with infinities a metric can be a NaN, which no comparison orders. -/
example : (fListRun 2 0x17ffffff 4 ((List.range 32).map fun i => if i = 30 then .inf true else .inf false)).map (fun r => r.2.2) = some [.inf false, .nan] := by decide +kernel

/-- The parity-aided decoder on the same values, with `first = 2` and `stride = 1`: two of the six symbols are parity symbols. -/
example : ∃ rank' message' metric', FlList.parDecode binary32 (2 ^ 32) 5 (List.replicate 64 fun _ => .nan) (List.replicate 32 fun _ => .nan) (List.replicate 32 fun _ => 200) (List.replicate 4 .nan)
    (some (List.replicate 4 9)) (List.replicate 5 fun (_ : Fin 4) => Fl.fin 5) (quarters.map .fin) [0x177f7fff] 5 1 2 = some (rank', message', metric') ∧
    FSclResult 4 (sclF binary32 4 5 (quarters.getD · 0) (Frozen [0x177f7fff]) (parityF binary32 2 1 (Frozen [0x177f7fff]))) (fun w => dataSymbols 2 1 (freeSymbols (Frozen [0x177f7fff]) w)) 4
      (some (List.replicate 4 9)) (List.replicate 5 fun (_ : Fin 4) => Fl.fin 5) rank' message' metric' := by
  have h4 : dataBelow 2 1 (freeBelow [0x177f7fff] (2 ^ 5)) = 4 := by decide +kernel
  have := C62_parity binary32 (2 ^ 32) 5 _ _ _ _ _ (List.replicate 5 fun (_ : Fin 4) => Fl.fin 5) _ [0x177f7fff] 5 1 2 _ 32 quarters_call (by norm_num) (by rw [h4]; simp)
  rw [h4] at this
  exact this

end Verif.Polar
