import Verif.Polar.Ml
/- C57: what the metrics of the list decoders say about codewords, and when the decoders are maximum likelihood decoders. -/
namespace Verif.Polar
open PolarHelper (I8)
variable {L : Nat}

/-! ### Specification -/

/-- The codeword of a message: what `PolarEncoder` writes (C35). -/
noncomputable def codewordOf (frozen : List Nat) (level : Nat) (message : List Int) : Nat → Int := polar level (symbolAt frozen message)

/-- The correlation of a codeword with the received soft values. -/
def correlation (n : Nat) (s x : Nat → Int) : Int := ∑ j ∈ Finset.range n, s j * x j

/-! ### Proofs -/

theorem correlation_eq {n : Nat} {s x : Nat → Int} (hx : ∀ j, j < n → Sym (x j)) :
    correlation n s x = ∑ j ∈ Finset.range n, |s j| - 2 * disagreement n s x := by
  unfold correlation disagreement
  rw [Finset.mul_sum, ← Finset.sum_sub_distrib]
  refine Finset.sum_congr rfl fun j hj => ?_
  have e1 : |s j| = if s j < 0 then -s j else s j := by split; exact abs_of_neg ‹_›; exact abs_of_nonneg (by omega)
  rw [e1]
  unfold penalty
  rcases hx j (Finset.mem_range.1 hj) with h | h <;> rw [h] <;> split <;> omega

theorem freeBelow_succ (frozen : List Nat) (i : Nat) : freeBelow frozen (i + 1) = freeBelow frozen i + if Frozen frozen i then 0 else 1 := by
  rw [← rank_eq, ← rank_eq, rank_succ]; rfl

theorem full_scl (M : Nat) (s : Nat → Int) (fr : Nat → Prop) (cost : List Int → Int → Int → Int → Int) (N : Nat → Nat)
    (hB : ∀ w μ s b, 1000000 ≤ μ → 1000000 ≤ cost w μ s b) (hN1 : 1 ≤ N 0) (hN0 : ∀ p, N p ≤ N (p + 1))
    (hN : ∀ (w : List Int) μ s, ¬ fr w.length → cost w μ s 1 < 1000000 → cost w μ s (-1) < 1000000 → 2 * N w.length ≤ N (w.length + 1)) (hL : N (2 ^ M) ≤ L)
    (v : Nat → Int) (hf : ∀ i, i < 2 ^ M → fr i → v i = 1) (hs : ∀ i, Sym (v i))
    (hu : ∀ i μ s, i < 2 ^ M → ¬ fr i → cost ((List.range i).map v) μ s (v i) = μ + penalty s (v i)) (hlow : pathMetric M fr s v < 1000000) :
    ∃ k, k < (scl L M s fr cost).length ∧ (scl L M s fr cost).getD k ([], 0) = ((List.range (2 ^ M)).map v, pathMetric M fr s v) := by
  set u := (List.range (2 ^ M)).map v with hud
  have hg : ∀ i, i < 2 ^ M → u.getD i 1 = v i := fun i hi => getD_range_map _ _ hi
  have hpm : pathMetric M (fun i => fr (0 * 2 ^ M + i)) (nodeSoft M s (u.getD · 1) 0 0) (fun i => u.getD (0 * 2 ^ M + i) 1) = pathMetric M fr s v := by
    simp only [Nat.zero_mul, Nat.zero_add]
    have : ∀ (d : Nat) (fr : Nat → Prop) (s : Nat → Int) (v w : Nat → Int), (∀ i, i < 2 ^ d → v i = w i) → pathMetric d fr s v = pathMetric d fr s w := by
      intro d
      induction d with
      | zero => intro fr s v w h; rw [pathMetric, pathMetric, h 0 (by norm_num)]
      | succ d ih =>
        intro fr s v w h
        have e := two_pow_succ' d
        rw [pathMetric, pathMetric]
        split
        · rfl
        · have hp : polar d v = polar d w := funext fun i => polar_congr (fun j hj => h j (by omega)) i
          rw [ih _ _ v w fun i hi => h i (by omega), ih _ _ _ _ fun i hi => h (2 ^ d + i) (by omega), hp]
    exact this M fr s _ _ hg
  have hL1 : 1 ≤ L := hN1.trans ((monotone_nat_of_le_succ hN0 (Nat.zero_le _)).trans hL)
  obtain ⟨-, -, h⟩ := full_list (L := L) M s fr cost 1000000 N hB hN0 hN hL u (by simp [hud]) (fun i hi h => by rw [hg i hi]; exact hf i hi h)
    (fun x hx => by obtain ⟨i, -, rfl⟩ := List.mem_map.1 hx; exact hs i)
    (fun i μ s hi h => by
      have : u.take i = (List.range i).map v := by rw [hud, ← List.map_take, List.take_range, Nat.min_eq_left (by omega)]
      rw [this, hg i hi]; exact hu i μ s hi h)
    M 0 0 (by omega) (by simp) (([], 0) :: List.replicate (L - 1) ([], 1000000)) 0 (by
      intro a ha
      rcases List.mem_cons.1 ha with rfl | h
      · simp
      · rw [List.eq_of_mem_replicate h]; simp) (by
      rw [List.filter_cons_of_pos (by simp), List.filter_replicate]
      simpa using hN1) (by simp) (by omega) (by rw [hpm]; omega)
  rw [hpm, Nat.zero_mul, Nat.zero_add, Int.zero_add, List.take_of_length_le (by simp [hud])] at h
  change _ ∈ scl L M s fr cost at h
  obtain ⟨k, hk, e⟩ := List.mem_iff_getElem.1 h
  exact ⟨k, hk, by rw [← getElem_eq_getD hk]; exact e⟩

theorem metric_bounds {frozen : List Nat} {level : Nat} {codeword m : List Int} (hr : ∀ i, i < 2 ^ level → I8 (codeword.getD i 0)) (hm : ∀ x ∈ m, Sym x) :
    let D := disagreement (2 ^ level) (codeword.getD · 0) (codewordOf frozen level m)
    let P := pathMetric level (Frozen frozen) (codeword.getD · 0) (symbolAt frozen m)
    P ≤ D ∧ (P < 127 ∨ D < 127 → P = D) := by
  obtain ⟨h1, h2⟩ := pathMetric_bounds level (Frozen frozen) (codeword.getD · 0) (symbolAt frozen m) hr (symbolAt_sym hm) (fun i _ h => by unfold symbolAt; rw [if_pos h])
  refine ⟨h1, fun h => ?_⟩
  unfold codewordOf at *
  omega

/-- The metric of a lane is at most the disagreement of the codeword of its message with the received values, and equal to it if
one of the two is less than 127.  (Lanes of metric at least 1000000 have come from one of the unused initial lanes.) -/
theorem C57_metric (MAX_M : Nat) (soft hard : List (Reg L)) (maps : List (LMap L)) (metric : List Int) (rank : Option (List Nat))
    (message : List (Reg L)) (codeword : List Int) (frozen : List Nat) (level : Nat)
    (h : ListCall L MAX_M soft hard maps metric rank message codeword frozen level) :
    ∃ rank' message' metric', listDecode MAX_M soft hard maps metric rank message codeword frozen level = some (rank', message', metric') ∧
      ∀ k : Fin L, metric'.getD k 0 < 1000000 →
        let D := disagreement (2 ^ level) (codeword.getD · 0) (codewordOf frozen level ((ln k message').take (freeBelow frozen (2 ^ level))))
        metric'.getD k 0 ≤ D ∧ (metric'.getD k 0 < 127 ∨ D < 127 → metric'.getD k 0 = D) := by
  obtain ⟨rank', message', metric', origin, e, hres⟩ := C38_decode MAX_M soft hard maps metric rank message codeword frozen level h
  refine ⟨rank', message', metric', e, fun k hk => ?_⟩
  have hm := hres.metrics.2 k
  have h0 := pathMetric_nonneg level (Frozen frozen) (codeword.getD · 0) (symbolAt frozen ((ln k message').take (freeBelow frozen (2 ^ level))))
  by_cases ho : (origin k).val = 0
  · rw [if_pos ho, zero_add] at hm
    have := metric_bounds (frozen := frozen) h.codeword_range (hres.symbols k)
    rw [← hm] at this
    exact this
  · rw [if_neg ho] at hm
    omega

/-- If there is a lane for every message, then every message whose codeword disagrees with the received values by less than
1000000 is in the list, with a metric of at most its disagreement. -/
theorem C57_complete (MAX_M : Nat) (soft hard : List (Reg L)) (maps : List (LMap L)) (metric : List Int) (rank : Option (List Nat))
    (message : List (Reg L)) (codeword : List Int) (frozen : List Nat) (level : Nat)
    (h : ListCall L MAX_M soft hard maps metric rank message codeword frozen level) (hfull : 2 ^ freeBelow frozen (2 ^ level) ≤ L) :
    ∃ rank' message' metric', listDecode MAX_M soft hard maps metric rank message codeword frozen level = some (rank', message', metric') ∧
      ∀ m : List Int, m.length = freeBelow frozen (2 ^ level) → (∀ x ∈ m, x = 1 ∨ x = -1) →
        disagreement (2 ^ level) (codeword.getD · 0) (codewordOf frozen level m) < 1000000 →
        ∃ k : Fin L, (ln k message').take (freeBelow frozen (2 ^ level)) = m ∧
          metric'.getD k 0 ≤ disagreement (2 ^ level) (codeword.getD · 0) (codewordOf frozen level m) := by
  obtain ⟨rank', message', metric', e, h1, h2, h3, -, -⟩ := C56_list MAX_M soft hard maps metric rank message codeword frozen level h
  refine ⟨rank', message', metric', e, fun m hm hs hD => ?_⟩
  have hb := (metric_bounds (frozen := frozen) h.codeword_range hs).1
  have hsy := symbolAt_sym (frozen := frozen) hs
  obtain ⟨k, hk, hp⟩ := full_scl (L := L) level (codeword.getD · 0) (Frozen frozen) addPenalty (fun p => 2 ^ freeBelow frozen p)
    (fun w μ s b hμ => by unfold addPenalty; have := penalty_nonneg s b; omega) Nat.one_le_two_pow (fun p => Nat.pow_le_pow_right (by omega) (by rw [freeBelow_succ]; exact Nat.le_add_right _ _))
    (fun w μ s hf _ _ => by rw [freeBelow_succ, if_neg hf, pow_succ]; omega) hfull (symbolAt frozen m) (fun i _ hf => by unfold symbolAt; rw [if_pos hf]) hsy
    (fun _ _ _ _ _ => rfl) (by omega)
  rw [h1] at hk
  refine ⟨⟨k, hk⟩, ?_, ?_⟩
  · rw [h3 ⟨k, hk⟩, hp]
    dsimp only
    rw [← info_free (fun _ => Iff.rfl) (N := 2 ^ level) _ (by simp), List.length_map, List.length_range, List.take_of_length_le (by simp [fbits]), fbits_zero, info_range, ← complete_eq,
      filter_range_map _ _ _ _ (by rw [rank_eq, hm]), rank_eq, ← hm, List.take_length]
  · have : metric'.getD k 0 = pathMetric level (Frozen frozen) (codeword.getD · 0) (symbolAt frozen m) := by
      rw [h2, ← getElem_eq_getD (by rw [List.length_map, h1]; exact hk), List.getElem_map, getElem_eq_getD _ ([], 0), hp]
    dsimp only
    rw [this]
    exact hb

/-- If there is a lane for every message, the last position is not frozen, and some codeword disagrees with the received values by
less than 127, then lane 0 holds a maximum likelihood decision: no codeword has a greater correlation with the received
values. -/
theorem C57_max_likelihood (MAX_M : Nat) (soft hard : List (Reg L)) (maps : List (LMap L)) (metric : List Int) (rank : Option (List Nat))
    (message : List (Reg L)) (codeword : List Int) (frozen : List Nat) (level : Nat)
    (h : ListCall L MAX_M soft hard maps metric rank message codeword frozen level) (hfull : 2 ^ freeBelow frozen (2 ^ level) ≤ L)
    (hlast : ¬ Frozen frozen (2 ^ level - 1))
    (near : List Int) (hn : near.length = freeBelow frozen (2 ^ level)) (hns : ∀ x ∈ near, x = 1 ∨ x = -1)
    (hnear : disagreement (2 ^ level) (codeword.getD · 0) (codewordOf frozen level near) < 127) :
    ∃ rank' message' metric', listDecode MAX_M soft hard maps metric rank message codeword frozen level = some (rank', message', metric') ∧
      ∀ k : Fin L, k.val = 0 → ∀ m : List Int, m.length = freeBelow frozen (2 ^ level) → (∀ x ∈ m, x = 1 ∨ x = -1) →
        correlation (2 ^ level) (codeword.getD · 0) (codewordOf frozen level m) ≤
          correlation (2 ^ level) (codeword.getD · 0) (codewordOf frozen level ((ln k message').take (freeBelow frozen (2 ^ level)))) := by
  obtain ⟨rank', message', metric', e, hc⟩ := C57_complete MAX_M soft hard maps metric rank message codeword frozen level h hfull
  obtain ⟨_, _, _, e', hb⟩ := C57_metric MAX_M soft hard maps metric rank message codeword frozen level h
  rw [e] at e'; cases e'
  obtain ⟨_, _, _, origin, e', hres⟩ := C38_decode MAX_M soft hard maps metric rank message codeword frozen level h
  rw [e] at e'; cases e'
  refine ⟨rank', message', metric', e, fun k hk m hm hs => ?_⟩
  have hsort : ∀ k' : Fin L, metric'.getD k 0 ≤ metric'.getD k' 0 := fun k' => hres.sorted hlast k k' (by rw [Fin.le_def, hk]; omega)
  rw [correlation_eq (x := codewordOf frozen level m) fun j hj => polar_sym (symbolAt_sym hs) hj,
    correlation_eq (x := codewordOf frozen level ((ln k message').take (freeBelow frozen (2 ^ level)))) fun j hj => polar_sym (symbolAt_sym (hres.symbols k)) hj]
  obtain ⟨k1, -, q1⟩ := hc near hn hns (by omega)
  have s1 := hsort k1
  obtain ⟨b1, b2⟩ := hb k (by omega)
  have b3 := b2 (Or.inl (by omega))
  by_cases hD : disagreement (2 ^ level) (codeword.getD · 0) (codewordOf frozen level m) < 1000000
  · obtain ⟨k2, -, q2⟩ := hc m hm hs hD
    have s2 := hsort k2
    unfold codewordOf at *
    omega
  · unfold codewordOf at *
    omega

/-! ### The parity-aided decoder -/

theorem C57_parity_metric (MAX_M : Nat) (soft hard : List (Reg L)) (maps : List (LMap L)) (metric : List Int) (rank : Option (List Nat))
    (message : List (Reg L)) (codeword : List Int) (frozen : List Nat) (level stride first : Nat)
    (h : ParCall L MAX_M soft hard maps metric rank message codeword frozen level stride first) :
    ∃ rank' message' metric', parDecode MAX_M soft hard maps metric rank message codeword frozen level stride first = some (rank', message', metric') ∧
      ∀ k : Fin L, metric'.getD k 0 < 1000000 →
        let D := disagreement (2 ^ level) (codeword.getD · 0) (codewordOf frozen level
          (withParity first stride ((ln k message').take (parK frozen level stride first)) (freeBelow frozen (2 ^ level))))
        metric'.getD k 0 ≤ D ∧ (metric'.getD k 0 < 127 ∨ D < 127 → metric'.getD k 0 = D) := by
  obtain ⟨rank', message', metric', e, hres⟩ := C39_decode MAX_M soft hard maps metric rank message codeword frozen level stride first h
  refine ⟨rank', message', metric', e, fun k hk => ?_⟩
  have hm := (hres.metrics.2 k).2 hk
  have := metric_bounds (frozen := frozen) h.codeword_range (withParity_sym first stride (hres.symbols k) (freeBelow frozen (2 ^ level)))
  rw [← hm] at this
  exact this

theorem coded_data (first stride : Nat) {m : List Int} (hm : ∀ x ∈ m, Sym x) (r : Nat) (hr : dataBelow first stride r ≤ m.length) :
    dataSymbols first stride (withParity first stride m r) = m.take (dataBelow first stride r) ∧
    ((withParity first stride m r).drop ((withParity first stride m r).length - since first stride (withParity first stride m r).length)).prod = par first stride m r := by
  have h1 := parI (L := 1) first stride [] 0 (withParity first stride m r) (withParity_sym _ _ hm _)
  have hc0 : ((0, first) : Nat × Nat) = (dataBelow first stride 0, cAt first stride 0) := by rw [cAt, if_pos (by omega)]; rfl
  have h2 := (coded_path (L := 1) first stride [] 0 hm r 0 (by rw [Nat.zero_add]; exact hr)).2
  rw [← hc0, dataBelow_zero, List.take_zero, par_zero, Nat.zero_add] at h2
  have e : (List.range r).map (fun i => coded first stride m (0 + i)) = withParity first stride m r := by unfold withParity; simp only [Nat.zero_add]
  rw [e, h1] at h2
  exact ⟨congrArg Prod.fst h2, congrArg Prod.snd h2⟩

theorem C57_parity_complete (MAX_M : Nat) (soft hard : List (Reg L)) (maps : List (LMap L)) (metric : List Int) (rank : Option (List Nat))
    (message : List (Reg L)) (codeword : List Int) (frozen : List Nat) (level stride first : Nat)
    (h : ParCall L MAX_M soft hard maps metric rank message codeword frozen level stride first) (hfull : 2 ^ parK frozen level stride first ≤ L) :
    ∃ rank' message' metric', parDecode MAX_M soft hard maps metric rank message codeword frozen level stride first = some (rank', message', metric') ∧
      ∀ m : List Int, m.length = parK frozen level stride first → (∀ x ∈ m, x = 1 ∨ x = -1) →
        disagreement (2 ^ level) (codeword.getD · 0) (codewordOf frozen level (withParity first stride m (freeBelow frozen (2 ^ level)))) < 1000000 →
        ∃ k : Fin L, (ln k message').take (parK frozen level stride first) = m ∧
          metric'.getD k 0 ≤ disagreement (2 ^ level) (codeword.getD · 0) (codewordOf frozen level (withParity first stride m (freeBelow frozen (2 ^ level)))) := by
  obtain ⟨rank', message', metric', e, h1, h2, h3, -, -⟩ := C56_parity MAX_M soft hard maps metric rank message codeword frozen level stride first h
  refine ⟨rank', message', metric', e, fun m hm hs hD => ?_⟩
  set F := freeBelow frozen (2 ^ level) with hF
  have hK : parK frozen level stride first = dataBelow first stride F := rfl
  set W := withParity first stride m F with hW
  have hWs : ∀ x ∈ W, Sym x := withParity_sym first stride hs _
  have hWl : W.length = F := withParity_length _ _ _ _
  have hb := (metric_bounds (frozen := frozen) h.codeword_range hWs).1
  have hsy := symbolAt_sym (frozen := frozen) hWs
  have hmonoF : ∀ i j, i ≤ j → freeBelow frozen i ≤ freeBelow frozen j := fun i j hij => by rw [← rank_eq, ← rank_eq]; exact rank_mono _ hij
  have hfree : ∀ i, i ≤ 2 ^ level → freeSymbols (Frozen frozen) ((List.range i).map (symbolAt frozen W)) = withParity first stride m (freeBelow frozen i) := by
    intro i hi
    rw [← info_free (fun _ => Iff.rfl) (N := i) _ (by simp), List.length_map, List.length_range, List.take_of_length_le (by simp [fbits]), fbits_zero, info_range, ← complete_eq,
      filter_range_map _ _ _ _ (by rw [rank_eq, hWl]; exact hmonoF _ _ hi), rank_eq, hW]
    unfold withParity
    rw [← List.map_take, List.take_range, Nat.min_eq_left (hmonoF _ _ hi)]
  have hfl : ∀ w : List Int, (freeSymbols (Frozen frozen) w).length = freeBelow frozen w.length := by
    intro w
    rw [← info_free (fun _ => Iff.rfl) (N := w.length) w le_rfl, info_length (by simp [fbits]), List.take_of_length_le (by simp [fbits]), filter_count, rank_eq]
  obtain ⟨k, hk, hp⟩ := full_scl (L := L) level (codeword.getD · 0) (Frozen frozen) (parityCost first stride (Frozen frozen)) (fun p => 2 ^ dataBelow first stride (freeBelow frozen p))
    (fun w μ s b hμ => by unfold parityCost; have := penalty_nonneg s b; dsimp only; split <;> omega) (Nat.one_le_two_pow)
    (fun p => Nat.pow_le_pow_right (by omega) (dataBelow_mono _ _ (by rw [freeBelow_succ]; omega)))
    (fun w μ s hf c1 c2 => by
      have hnp : ¬ isParity first stride (freeBelow frozen w.length) := by
        intro hpar
        unfold parityCost at c1 c2
        simp only [hfl] at c1 c2
        by_cases hb : (1 : Int) ≠ ((freeSymbols (Frozen frozen) w).drop (freeBelow frozen w.length - span first stride (freeBelow frozen w.length))).prod
        · rw [if_pos ⟨hpar, hb⟩] at c1; omega
        · rw [if_pos ⟨hpar, by omega⟩] at c2; omega
      rw [freeBelow_succ, if_neg hf, dataBelow_succ, if_pos (fun h => hnp ((isParity_iff first stride _).2 h)), pow_succ]
      omega) hfull (symbolAt frozen W) (fun i _ hf => by unfold symbolAt; rw [if_pos hf]) hsy
    (fun i μ s hi hf => by
      unfold parityCost
      rw [hfree i (by omega)]
      simp only
      rw [withParity_length]
      refine if_neg ?_
      rintro ⟨q1, q2⟩
      refine q2 ?_
      have hr : freeBelow frozen i < F := by
        have := freeBelow_succ frozen i
        rw [if_neg hf] at this
        have := hmonoF (i + 1) (2 ^ level) (by omega)
        omega
      have hc := (isParity_iff first stride _).1 q1
      have hd := (coded_data first stride hs (freeBelow frozen i) (by rw [hm, hK]; exact dataBelow_mono _ _ (by omega))).2
      rw [withParity_length, since_span first stride hc] at hd
      rw [hd]
      unfold symbolAt
      rw [if_neg hf, hW]
      unfold withParity
      rw [getD_range_map _ _ hr, coded_eq, if_neg (by omega)]) (by omega)
  rw [h1] at hk
  refine ⟨⟨k, hk⟩, ?_, ?_⟩
  · show (ln ⟨k, hk⟩ message').take (dataBelow first stride F) = m
    rw [h3 ⟨k, hk⟩, hp]
    dsimp only
    rw [hfree _ le_rfl, (coded_data first stride hs _ (by rw [hm, hK])).1, ← hF, ← hK, ← hm, List.take_length]
  · have : metric'.getD k 0 = pathMetric level (Frozen frozen) (codeword.getD · 0) (symbolAt frozen W) := by
      rw [h2, ← getElem_eq_getD (by rw [List.length_map, h1]; exact hk), List.getElem_map, getElem_eq_getD _ ([], 0), hp]
    dsimp only
    rw [this]
    exact hb

/-- The parity-aided decoder: no message has a codeword (with its parity symbols) of greater correlation. -/
theorem C57_parity_max_likelihood (MAX_M : Nat) (soft hard : List (Reg L)) (maps : List (LMap L)) (metric : List Int) (rank : Option (List Nat))
    (message : List (Reg L)) (codeword : List Int) (frozen : List Nat) (level stride first : Nat)
    (h : ParCall L MAX_M soft hard maps metric rank message codeword frozen level stride first) (hfull : 2 ^ parK frozen level stride first ≤ L)
    (hlast : ¬ Frozen frozen (2 ^ level - 1))
    (near : List Int) (hn : near.length = parK frozen level stride first) (hns : ∀ x ∈ near, x = 1 ∨ x = -1)
    (hnear : disagreement (2 ^ level) (codeword.getD · 0) (codewordOf frozen level (withParity first stride near (freeBelow frozen (2 ^ level)))) < 127) :
    ∃ rank' message' metric', parDecode MAX_M soft hard maps metric rank message codeword frozen level stride first = some (rank', message', metric') ∧
      ∀ k : Fin L, k.val = 0 → ∀ m : List Int, m.length = parK frozen level stride first → (∀ x ∈ m, x = 1 ∨ x = -1) →
        correlation (2 ^ level) (codeword.getD · 0) (codewordOf frozen level (withParity first stride m (freeBelow frozen (2 ^ level)))) ≤
          correlation (2 ^ level) (codeword.getD · 0) (codewordOf frozen level
            (withParity first stride ((ln k message').take (parK frozen level stride first)) (freeBelow frozen (2 ^ level)))) := by
  obtain ⟨rank', message', metric', e, hc⟩ := C57_parity_complete MAX_M soft hard maps metric rank message codeword frozen level stride first h hfull
  obtain ⟨_, _, _, e', hb⟩ := C57_parity_metric MAX_M soft hard maps metric rank message codeword frozen level stride first h
  rw [e] at e'; cases e'
  obtain ⟨_, _, _, e', hres⟩ := C39_decode MAX_M soft hard maps metric rank message codeword frozen level stride first h
  rw [e] at e'; cases e'
  refine ⟨rank', message', metric', e, fun k hk m hm hs => ?_⟩
  have hsort : ∀ k' : Fin L, metric'.getD k 0 ≤ metric'.getD k' 0 := fun k' => hres.sorted hlast k k' (by rw [Fin.le_def, hk]; omega)
  rw [correlation_eq (x := codewordOf frozen level (withParity first stride m (freeBelow frozen (2 ^ level)))) fun j hj => polar_sym (symbolAt_sym (withParity_sym _ _ hs _)) hj,
    correlation_eq (x := codewordOf frozen level (withParity first stride ((ln k message').take (parK frozen level stride first)) (freeBelow frozen (2 ^ level)))) fun j hj => polar_sym (symbolAt_sym (withParity_sym _ _ (hres.symbols k) _)) hj]
  obtain ⟨k1, -, q1⟩ := hc near hn hns (by omega)
  have s1 := hsort k1
  obtain ⟨b1, b2⟩ := hb k (by omega)
  have b3 := b2 (Or.inl (by omega))
  by_cases hD : disagreement (2 ^ level) (codeword.getD · 0) (codewordOf frozen level (withParity first stride m (freeBelow frozen (2 ^ level)))) < 1000000
  · obtain ⟨k2, -, q2⟩ := hc m hm hs hD
    have s2 := hsort k2
    unfold codewordOf at *
    omega
  · unfold codewordOf at *
    omega

/-! ### Cases -/

/-- Four lanes and two positions that are not frozen, 30 and 31: the list has room for all four messages.  The soft values are those of
the codeword of (1, 1), with one sign wrong: its disagreement is 5. -/
def nearOnes : List Int := List.replicate 31 3 ++ [-5]

example : 2 ^ freeBelow [0x3fffffff] (2 ^ 5) ≤ 4 ∧ ¬ Frozen [0x3fffffff] (2 ^ 5 - 1) ∧ [1, 1].length = freeBelow [0x3fffffff] (2 ^ 5) ∧
    disagreement (2 ^ 5) (nearOnes.getD · 0) (codewordOf [0x3fffffff] 5 [1, 1]) = 5 := by decide +kernel

example : ListCall 4 5 (List.replicate 64 fun _ => 99) (List.replicate 32 fun _ => 77) (List.replicate 32 fun _ => 200) (List.replicate 4 5)
    (some (List.replicate 4 9)) (List.replicate 2 fun _ => 5) nearOnes [0x3fffffff] 5 where
  lanes := by omega
  max_le := by omega
  level_ge := by omega
  level_le := by omega
  soft_len := by simp
  hard_len := by simp
  maps_len := by simp
  metric_len := by simp
  rank_len := by rintro r ⟨⟩; simp
  codeword_len := by simp [nearOnes]
  codeword_range := by unfold PolarHelper.I8; decide +kernel
  frozen_len := by simp
  frozen_words := by simp
  free := by rw [← rank_eq]; decide +kernel
  message_len := by rw [← rank_eq]; decide +kernel

example : listRun 4 0x3fffffff 2 nearOnes = some (some [0, 1, 2, 3], [[1, -1, -1, 1], [1, -1, 1, -1]], [5, 45, 53, 93]) := by decide +kernel

/-- With saturation the metric is only a lower bound: the second message disagrees with soft values of 3200 in all. -/
example : listRun 2 0x7fffffff 1 (List.replicate 32 100) = some (some [0, 1], [[1, -1]], [0, 127]) := by decide +kernel
example : disagreement (2 ^ 5) ((List.replicate 32 (100 : Int)).getD · 0) (codewordOf [0x7fffffff] 5 [-1]) = 3200 := by decide +kernel

/-- Four lanes; of the positions 29, 30 and 31 that are not frozen the last is the parity of the other two. -/
example : 2 ^ parK [0x1fffffff] 5 1 2 ≤ 4 ∧ ¬ Frozen [0x1fffffff] (2 ^ 5 - 1) ∧ [1, 1].length = parK [0x1fffffff] 5 1 2 ∧
    disagreement (2 ^ 5) (nearOnes.getD · 0) (codewordOf [0x1fffffff] 5 (withParity 2 1 [1, 1] (freeBelow [0x1fffffff] (2 ^ 5)))) = 5 := by decide +kernel

end Verif.Polar
