import Verif.Polar.SclExact
/- The list decoder on soft values for which floating point arithmetic is exact. -/
namespace Verif.Polar
variable {L : Nat}

/-- Numbers of the format `F` that can be added without rounding as long as the sum is at most `C` in magnitude. -/
structure Grid (F : Rounding) (Gr : ℚ → Prop) (C : ℚ) : Prop where
  zero : Gr 0
  neg : ∀ q, Gr q → Gr (-q)
  add : ∀ p q, Gr p → Gr q → Gr (p + q)
  rep : ∀ q, Gr q → |q| ≤ C → F.rep q
  cap : C < F.huge

section
variable {F : Rounding} {Gr : ℚ → Prop} {C : ℚ}

theorem Grid.minF (g : Grid F Gr C) {a b : ℚ} (ha : Gr a) (hb : Gr b) : Gr ((qsign a : ℚ) * qsign b * min |a| |b|) := by
  obtain ⟨c, hc, h⟩ := minF_cases a b
  have : Gr c := by rcases hc with rfl | rfl | rfl <;> first | assumption | exact g.zero
  rcases h with h | h <;> rw [h]
  · exact this
  · exact g.neg _ this

theorem Grid.sym_mul (g : Grid F Gr C) {x : Int} (hx : Sym x) {a : ℚ} (ha : Gr a) : Gr ((x : ℚ) * a) := by
  rcases hx with rfl | rfl
  · simpa using ha
  · simpa using g.neg _ ha

theorem Grid.pen (g : Grid F Gr C) {x : Int} (hx : Sym x) {a : ℚ} (ha : Gr a) : Gr (penaltyQ a x) := by
  unfold penaltyQ
  rcases max_choice (0 : ℚ) (-(x * a)) with h | h <;> rw [h]
  · exact g.zero
  · exact g.neg _ (g.sym_mul hx ha)

/-- The soft values of every node are exact. -/
theorem soft_exact (g : Grid F Gr C) {M : Nat} {s : Nat → ℚ} (hs : ∀ j, j < 2 ^ M → Gr (s j)) (hC : ∑ j ∈ Finset.range (2 ^ M), |s j| ≤ C) {u : Nat → Int} (hu : ∀ i, Sym (u i)) :
    ∀ t n, t ≤ M → (∀ i, i < 2 ^ (M - t) → softAt (minSum F.rnd) M s u t n i = softAt (minSum id) M s u t n i ∧ Gr (softAt (minSum id) M s u t n i)) ∧
      ∑ i ∈ Finset.range (2 ^ (M - t)), |softAt (minSum id) M s u t n i| ≤ ∑ j ∈ Finset.range (2 ^ M), |s j| := by
  intro t
  induction t with
  | zero => intro n _; exact ⟨fun i hi => ⟨rfl, hs i hi⟩, le_rfl⟩
  | succ t ih =>
    intro n ht
    obtain ⟨ih1, ih2⟩ := ih (n / 2) (by omega)
    obtain ⟨d, hd⟩ : ∃ d, M = t + 1 + d := ⟨M - (t + 1), by omega⟩
    have e1 : M - (t + 1) = d := by omega
    have e2 : M - t = d + 1 := by omega
    rw [e2] at ih1 ih2
    have e := two_pow_succ' d
    rw [e1]
    set A := softAt (minSum id) M s u t (n / 2) with hA
    rw [e, Finset.sum_range_add] at ih2
    have hAB : ∀ i, i < 2 ^ d → |A i| + |A (2 ^ d + i)| ≤ C := by
      intro i hi
      refine le_trans ?_ (ih2.trans hC)
      exact add_le_add (Finset.single_le_sum (f := fun i => |A i|) (fun i _ => abs_nonneg _) (Finset.mem_range.2 hi))
        (Finset.single_le_sum (f := fun i => |A (2 ^ d + i)|) (fun i _ => abs_nonneg _) (Finset.mem_range.2 hi))
    by_cases hn : n % 2 = 0
    · have eF : ∀ r : ℚ → ℚ, ∀ i, softAt (minSum r) M s u (t + 1) n i = (minSum r).F (softAt (minSum r) M s u t (n / 2) i) (softAt (minSum r) M s u t (n / 2) (2 ^ d + i)) := by
        intro r i
        rw [softAt]
        simp only [e1]
        rw [if_pos hn]
      refine ⟨fun i hi => ?_, le_trans (Finset.sum_le_sum fun i hi => ?_) (le_of_eq_of_le Finset.sum_add_distrib ih2)⟩
      · obtain ⟨a1, a2⟩ := ih1 i (by omega)
        obtain ⟨b1, b2⟩ := ih1 (2 ^ d + i) (by omega)
        rw [eF, eF, a1, b1]
        exact ⟨rfl, g.minF a2 b2⟩
      · rw [eF]
        exact (pair_abs _ _ (Or.inl rfl)).1
    · have eG : ∀ r : ℚ → ℚ, ∀ i, softAt (minSum r) M s u (t + 1) n i = (minSum r).G (polar d (fun j => u ((n - 1) * 2 ^ d + j)) i) (softAt (minSum r) M s u t (n / 2) i) (softAt (minSum r) M s u t (n / 2) (2 ^ d + i)) := by
        intro r i
        rw [softAt]
        simp only [e1]
        rw [if_neg hn]
      have sy : ∀ i, i < 2 ^ d → Sym (polar d (fun j => u ((n - 1) * 2 ^ d + j)) i) := fun i hi => polar_sym (fun _ => hu _) hi
      refine ⟨fun i hi => ?_, le_trans (Finset.sum_le_sum fun i hi => ?_) (le_of_eq_of_le Finset.sum_add_distrib ih2)⟩
      · obtain ⟨a1, a2⟩ := ih1 i (by omega)
        obtain ⟨b1, b2⟩ := ih1 (2 ^ d + i) (by omega)
        rw [eG, eG, a1, b1]
        have hG := g.add _ _ (g.sym_mul (sy i hi) a2) b2
        exact ⟨F.exact _ (g.rep _ hG ((pair_abs _ _ (sy i hi)).2.trans (hAB i hi))), hG⟩
      · rw [eG]
        exact (pair_abs _ _ (sy i (Finset.mem_range.1 hi))).2

theorem fadd_exact (g : Grid F Gr C) {q p : ℚ} (hq : Gr q) (hp : Gr p) (h0 : 0 ≤ q) (h1 : 0 ≤ p) (hC : q + p ≤ C) : fadd F (q : WithTop ℚ) p = ((q + p : ℚ) : WithTop ℚ) := by
  have e := F.exact (q + p) (g.rep _ (g.add _ _ hq hp) (by rw [abs_of_nonneg (by linarith)]; exact hC))
  rw [fadd_coe, e, if_pos (lt_of_le_of_lt hC g.cap)]

theorem pays_exact (g : Grid F Gr C) : ∀ (l : List ℚ) (q : ℚ), Gr q → 0 ≤ q → (∀ s ∈ l, Gr s) → q + (l.map fun s => penaltyQ s 1).sum ≤ C →
    l.foldl (fun μ s => fadd F μ (penaltyQ s 1)) (q : WithTop ℚ) = ((q + (l.map fun s => penaltyQ s 1).sum : ℚ) : WithTop ℚ) ∧ Gr (q + (l.map fun s => penaltyQ s 1).sum) := by
  intro l
  induction l with
  | nil => intro q hq _ _ _; simpa using hq
  | cons s l ih =>
    intro q hq h0 hl hC
    rw [List.map_cons, List.sum_cons] at hC ⊢
    have hs : Gr (penaltyQ s 1) := g.pen (Or.inl rfl) (hl s List.mem_cons_self)
    have hn := penaltyQ_nonneg s 1
    have hn' : 0 ≤ (l.map fun s => penaltyQ s 1).sum := List.sum_nonneg (by
      intro x hx
      obtain ⟨y, -, rfl⟩ := List.mem_map.1 hx
      exact penaltyQ_nonneg _ _)
    rw [List.foldl_cons, fadd_exact g hq hs h0 hn (by linarith), ← add_assoc]
    exact ih (q + penaltyQ s 1) (g.add _ _ hq hs) (by linarith) (fun x hx => hl x (List.mem_cons_of_mem _ hx)) (by linarith)

end

/-! ### The metrics of the paths -/

/-- `cost` charges the penalty if the path may be continued with the symbol and is 1000000 if it may not. -/
def Charges (F : Rounding) (Al : List Int → Int → Prop) (cost : List Int → WithTop ℚ → ℚ → Int → WithTop ℚ) : Prop :=
  ∀ w μ s b, (Al w b → cost w μ s b = fadd F μ (penaltyQ s b)) ∧ (¬ Al w b → cost w μ s b = 1000000)

/-- A path of the list after `p` positions. -/
structure Fit (Gr : ℚ → Prop) (M : Nat) (s : Nat → ℚ) (fr : Nat → Prop) (Al : List Int → Int → Prop) (p : Nat) (a : List Int × WithTop ℚ) (q : ℚ) : Prop where
  len : a.1.length = p
  sym : ∀ x ∈ a.1, Sym x
  ones : ∀ i, i < p → fr i → a.1.getD i 1 = 1
  met : a.2 = (q : WithTop ℚ)
  grid : Gr q
  nonneg : 0 ≤ q
  upper : q ≤ 1000000 + pathQ M s (a.1.getD · 1) p
  low : q < 1000000 → q = pathQ M s (a.1.getD · 1) p ∧ ∀ i, i < p → ¬ fr i → Al (a.1.take i) (a.1.getD i 1)

theorem getD_ones (w : List Int) (k : Nat) : ((w ++ List.replicate k 1).getD · 1) = (w.getD · 1) := by
  funext i
  by_cases h : i < w.length
  · rw [List.getD_append _ _ _ _ h]
  · rw [List.getD_append_right _ _ _ _ (by omega), List.getD_eq_default w _ (by omega), List.getD_eq_getElem?_getD, List.getElem?_replicate]
    split <;> rfl

theorem getD_snoc (w : List Int) (b : Int) : (w ++ [b]).getD w.length 1 = b := by simp

theorem getD_snoc_lt {w : List Int} {b : Int} {i : Nat} (h : i < w.length) : (w ++ [b]).getD i 1 = w.getD i 1 := List.getD_append _ _ _ _ h

theorem pathQ_succ (M : Nat) (s : Nat → ℚ) (u : Nat → Int) (p : Nat) : pathQ M s u (p + 1) = pathQ M s u p + leaf M s u p := Finset.sum_range_succ _ _

section
variable {F : Rounding} {Gr : ℚ → Prop} {C : ℚ} {M : Nat} {s : Nat → ℚ} {fr : Nat → Prop} {Al : List Int → Int → Prop} {cost : List Int → WithTop ℚ → ℚ → Int → WithTop ℚ}

/-- A node of frozen positions. -/
theorem fit_frozen (g : Grid F Gr C) (hs : ∀ j, j < 2 ^ M → Gr (s j)) (hC : 1000000 + ∑ j ∈ Finset.range (2 ^ M), |s j| ≤ C) {d n : Nat} (hd : d ≤ M) (hn : n < 2 ^ (M - d))
    (hf : ∀ i, i < 2 ^ d → fr (n * 2 ^ d + i)) {a : List Int × WithTop ℚ} {q : ℚ} (h : Fit Gr M s fr Al (n * 2 ^ d) a q) :
    ∃ q', Fit Gr M s fr Al ((n + 1) * 2 ^ d) (a.1 ++ List.replicate (2 ^ d) 1, ((List.range (2 ^ d)).map fun i => softAt (minSum F.rnd) M s (a.1.getD · 1) (M - d) n i).foldl (fun μ s => fadd F μ (penaltyQ s 1)) a.2) q' ∧
      q' = q + (pathQ M s (a.1.getD · 1) ((n + 1) * 2 ^ d) - pathQ M s (a.1.getD · 1) (n * 2 ^ d)) := by
  have hu : ∀ i, Sym (a.1.getD i 1) := fun i => getD_Sym h.sym i
  have hle := node_le hd hn
  have hC' : ∑ j ∈ Finset.range (2 ^ M), |s j| ≤ C := by linarith
  have hMd : M - (M - d) = d := by omega
  have se := (soft_exact g hs hC' hu (M - d) n (by omega)).1
  rw [hMd] at se
  have hp1 : ∀ i, polar d (fun j => a.1.getD (n * 2 ^ d + j) 1) i = 1 := by
    intro i
    unfold polar
    refine Finset.prod_eq_one fun j _ => List.getD_eq_default _ _ ?_
    rw [h.len]; omega
  have hb := pathQ_block (s := s) hu (d := d) (n := n) hd
  simp only [hp1] at hb
  have el : (List.range (2 ^ d)).map (fun i => softAt (minSum F.rnd) M s (a.1.getD · 1) (M - d) n i) = (List.range (2 ^ d)).map (fun i => softAt (minSum id) M s (a.1.getD · 1) (M - d) n i) :=
    List.map_congr_left fun i hi => (se i (List.mem_range.1 hi)).1
  have es : (((List.range (2 ^ d)).map fun i => softAt (minSum id) M s (a.1.getD · 1) (M - d) n i).map fun s => penaltyQ s 1).sum =
      ∑ i ∈ Finset.range (2 ^ d), penaltyQ (softAt (minSum id) M s (a.1.getD · 1) (M - d) n i) 1 := by
    rw [List.map_map, Finset.sum_range]
    rw [← List.sum_ofFn, List.ofFn_eq_map, ← List.map_coe_finRange_eq_range, List.map_map]
    rfl
  have hpl := pathQ_le (s := s) hu hle
  have hup := h.upper
  obtain ⟨f1, f2⟩ := pays_exact g ((List.range (2 ^ d)).map fun i => softAt (minSum id) M s (a.1.getD · 1) (M - d) n i) q h.grid h.nonneg
    (fun x hx => by obtain ⟨i, hi, rfl⟩ := List.mem_map.1 hx; exact (se i (List.mem_range.1 hi)).2) (by rw [es]; linarith)
  rw [es] at f1 f2
  refine ⟨_, ⟨by simp [h.len]; ring, ?_, ?_, by dsimp only; rw [el, h.met]; exact f1, f2, ?_, ?_, ?_⟩, by rw [hb]; ring⟩
  · intro x hx
    rcases List.mem_append.1 hx with hx | hx
    · exact h.sym x hx
    · exact Or.inl (List.eq_of_mem_replicate hx)
  · intro i hi hfr
    have := congrFun (getD_ones a.1 (2 ^ d)) i
    dsimp only at this ⊢
    rw [this]
    by_cases hlt : i < n * 2 ^ d
    · exact h.ones i hlt hfr
    · exact List.getD_eq_default _ _ (by rw [h.len]; omega)
  · exact add_nonneg h.nonneg (Finset.sum_nonneg fun _ _ => penaltyQ_nonneg _ _)
  · dsimp only; rw [getD_ones, hb]; linarith
  · intro hlow
    have hpn : 0 ≤ ∑ i ∈ Finset.range (2 ^ d), penaltyQ (softAt (minSum id) M s (a.1.getD · 1) (M - d) n i) 1 := Finset.sum_nonneg fun _ _ => penaltyQ_nonneg _ _
    obtain ⟨l1, l2⟩ := h.low (by linarith)
    refine ⟨by dsimp only; rw [getD_ones, hb, l1], fun i hi hfr => ?_⟩
    have hlt : i < n * 2 ^ d := by
      by_contra hc
      refine hfr ?_
      have := hf (i - n * 2 ^ d) (by rw [Nat.add_mul] at hi; omega)
      rwa [show n * 2 ^ d + (i - n * 2 ^ d) = i by omega] at this
    have e := congrFun (getD_ones a.1 (2 ^ d)) i
    dsimp only at e ⊢
    rw [e, List.take_append_of_le_length (by rw [h.len]; omega)]
    exact l2 i hlt hfr

theorem leaf_snoc {w : List Int} {b : Int} : leaf M s ((w ++ [b]).getD · 1) w.length = penaltyQ (softAt (minSum id) M s (w.getD · 1) M w.length 0) b := by
  unfold leaf
  dsimp only
  rw [getD_snoc]
  congr 1
  exact softAt_congr _ M s M _ le_rfl (fun j hj => getD_snoc_lt (by rw [Nat.sub_self, pow_zero, Nat.mul_one] at hj; exact hj)) 0

/-- A position that is not frozen. -/
theorem fit_fork (g : Grid F Gr C) (h6 : Gr 1000000) (hs : ∀ j, j < 2 ^ M → Gr (s j)) (hC : 1000000 + ∑ j ∈ Finset.range (2 ^ M), |s j| ≤ C) (hc : Charges F Al cost) {p : Nat} (hp : p < 2 ^ M) (hf : ¬ fr p)
    {a : List Int × WithTop ℚ} {q : ℚ} (h : Fit Gr M s fr Al p a q) {b : Int} (hb : Sym b) :
    ∃ q', Fit Gr M s fr Al (p + 1) (a.1 ++ [b], cost a.1 a.2 (softAt (minSum F.rnd) M s (a.1.getD · 1) M p 0) b) q' ∧ (Al a.1 b → q' = q + leaf M s ((a.1 ++ [b]).getD · 1) p) ∧ (¬ Al a.1 b → q' = 1000000) := by
  classical
  have hu : ∀ i, Sym (a.1.getD i 1) := fun i => getD_Sym h.sym i
  have hsy : ∀ x ∈ a.1 ++ [b], Sym x := by
    intro x hx
    rcases List.mem_append.1 hx with hx | hx
    · exact h.sym x hx
    · rw [List.mem_singleton.1 hx]; exact hb
  have hu' : ∀ i, Sym ((a.1 ++ [b]).getD i 1) := fun i => getD_Sym hsy i
  have hC' : ∑ j ∈ Finset.range (2 ^ M), |s j| ≤ C := by linarith
  obtain ⟨se, sg⟩ := (soft_exact g hs hC' hu M p le_rfl).1 0 (by rw [Nat.sub_self]; norm_num)
  have elf : leaf M s ((a.1 ++ [b]).getD · 1) p = penaltyQ (softAt (minSum id) M s (a.1.getD · 1) M p 0) b := by
    have := leaf_snoc (M := M) (s := s) (w := a.1) (b := b)
    rwa [h.len] at this
  have epq : pathQ M s ((a.1 ++ [b]).getD · 1) (p + 1) = pathQ M s (a.1.getD · 1) p + leaf M s ((a.1 ++ [b]).getD · 1) p := by
    rw [pathQ_succ]
    congr 1
    exact pathQ_congr fun j hj => getD_snoc_lt (by rw [h.len]; exact hj)
  have hln := leaf_nonneg M s ((a.1 ++ [b]).getD · 1) p
  have hpl := pathQ_le (s := s) hu' hp
  rw [epq] at hpl
  have hup := h.upper
  have hones : ∀ i, i < p + 1 → fr i → (a.1 ++ [b]).getD i 1 = 1 := by
    intro i hi hfr
    rcases Nat.lt_succ_iff_lt_or_eq.1 hi with hi | rfl
    · rw [getD_snoc_lt (by rw [h.len]; exact hi)]; exact h.ones i hi hfr
    · exact absurd hfr hf
  by_cases hal : Al a.1 b
  · have e := (hc a.1 a.2 (softAt (minSum F.rnd) M s (a.1.getD · 1) M p 0) b).1 hal
    rw [e, se, h.met, ← elf, fadd_exact g h.grid (by rw [elf]; exact g.pen hb sg) h.nonneg hln (by linarith)]
    refine ⟨q + leaf M s ((a.1 ++ [b]).getD · 1) p, ⟨by simp [h.len], hsy, hones, rfl, g.add _ _ h.grid (by rw [elf]; exact g.pen hb sg), by linarith [h.nonneg], by dsimp only; rw [epq]; linarith, fun hlow => ?_⟩,
      fun _ => rfl, fun hn => absurd hal hn⟩
    obtain ⟨l1, l2⟩ := h.low (by linarith)
    refine ⟨by dsimp only; rw [epq, ← l1], fun i hi hfr => ?_⟩
    dsimp only
    rcases Nat.lt_succ_iff_lt_or_eq.1 hi with hi | rfl
    · rw [getD_snoc_lt (by rw [h.len]; exact hi), List.take_append_of_le_length (by rw [h.len]; omega)]
      exact l2 i hi hfr
    · rw [← h.len, getD_snoc, List.take_left']
      · exact hal
      · rfl
  · rw [(hc a.1 a.2 (softAt (minSum F.rnd) M s (a.1.getD · 1) M p 0) b).2 hal]
    refine ⟨1000000, ⟨by simp [h.len], hsy, hones, rfl, h6, by norm_num, ?_, fun hlow => absurd hlow (lt_irrefl _)⟩, fun hn => absurd hn hal, fun _ => rfl⟩
    dsimp only
    linarith [pathQ_nonneg M s ((a.1 ++ [b]).getD · 1) (p + 1)]

/-- All paths of the list. -/
theorem fit_steps (g : Grid F Gr C) (h6 : Gr 1000000) (hs : ∀ j, j < 2 ^ M → Gr (s j)) (hC : 1000000 + ∑ j ∈ Finset.range (2 ^ M), |s j| ≤ C) (hc : Charges F Al cost) :
    ∀ a ∈ sclOf (minSum F.rnd) L M s fr 0 1000000 (fun μ s => fadd F μ (penaltyQ s 1)) cost, ∃ q, Fit Gr M s fr Al (2 ^ M) a q := by
  classical
  have := steps_induct (fr := fr) (S := sclStepOf (minSum F.rnd) L M s fr (fun μ s => fadd F μ (penaltyQ s 1)) cost) (M := M) (fun p ps => ∀ a ∈ ps, ∃ q, Fit Gr M s fr Al p a q) (by
    intro d n ps hd hn h1 h2 hps a ha
    unfold sclStepOf at ha
    dsimp only at ha
    by_cases hf : fr (n * 2 ^ d)
    · rw [if_pos hf] at ha
      obtain ⟨c, hc', rfl⟩ := List.mem_map.1 ha
      obtain ⟨q, hq⟩ := hps c hc'
      obtain ⟨q', h, -⟩ := fit_frozen g hs hC hd hn (h1 hf) hq
      exact ⟨q', h⟩
    · rw [if_neg hf] at ha
      have hd0 := h2 hf
      subst hd0
      have hlt := node_le hd hn
      simp only [pow_zero, Nat.mul_one] at hf hps hlt ⊢
      have ha := (List.mergeSort_perm _ _).mem_iff.1 (List.mem_of_mem_take ha)
      obtain ⟨c, hc', h⟩ := List.mem_flatMap.1 ha
      obtain ⟨q, hq⟩ := hps c hc'
      rcases List.mem_cons.1 h with rfl | h
      · obtain ⟨q', h, -⟩ := fit_fork g h6 hs hC hc (by omega) hf hq (b := 1) (Or.inl rfl)
        exact ⟨q', h⟩
      · rw [List.mem_singleton.1 h]
        obtain ⟨q', h, -⟩ := fit_fork g h6 hs hC hc (by omega) hf hq (b := -1) (Or.inr rfl)
        exact ⟨q', h⟩) M 0 (([], 0) :: List.replicate (L - 1) ([], 1000000)) le_rfl (by simp) (by
    intro a ha
    have e0 : pathQ M s (([] : List Int).getD · 1) 0 = 0 := rfl
    rw [Nat.zero_mul]
    rcases List.mem_cons.1 ha with rfl | h
    · exact ⟨0, rfl, by simp, by simp, rfl, g.zero, le_rfl, by dsimp only; rw [e0]; norm_num, fun _ => ⟨rfl, fun i hi => absurd hi (Nat.not_lt_zero i)⟩⟩
    · rw [List.eq_of_mem_replicate h]
      exact ⟨1000000, rfl, by simp, by simp, rfl, h6, by norm_num, by dsimp only; rw [e0]; norm_num, fun h => absurd h (lt_irrefl _)⟩)
  rw [Nat.zero_add, Nat.one_mul] at this
  exact this

end

/-! ### Nothing is lost -/

section
variable {P : Type} [LinearOrder P]

theorem mem_bestOf {n : Nat} {l : List (List Int × P)} {x : List Int × P} {B : P} (hx : x ∈ l) (hB : x.2 < B) (hn : (l.filter fun a => decide (a.2 < B)).length ≤ n) : x ∈ bestOf n l := by
  unfold bestOf
  set m := l.mergeSort fun a b => decide (a.2 ≤ b.2) with hm
  have hp : m.Perm l := List.mergeSort_perm _ _
  have hs : m.Pairwise fun a b => decide (a.2 ≤ b.2) = true := List.pairwise_mergeSort (fun a b c h1 h2 => by simp at *; exact h1.trans h2) (fun a b => by simp; exact le_total _ _) l
  have hxm : x ∈ m := hp.mem_iff.2 hx
  rw [← List.take_append_drop n m] at hxm
  rcases List.mem_append.1 hxm with h | h
  · exact h
  · exfalso
    have hlen : n < m.length := by
      by_contra hc
      rw [List.drop_of_length_le (by omega)] at h
      simp at h
    have hle : ∀ a ∈ m.take n, a.2 < B := by
      rw [← List.take_append_drop n m, List.pairwise_append] at hs
      intro a ha
      have := hs.2.2 a ha x h
      simp only [decide_eq_true_eq] at this
      exact lt_of_le_of_lt this hB
    have hc : (m.filter fun a => decide (a.2 < B)).length = (l.filter fun a => decide (a.2 < B)).length := (hp.filter _).length_eq
    rw [← List.take_append_drop n m, List.filter_append, List.length_append, List.filter_eq_self.2 (by simpa using hle), List.length_take] at hc
    have : 1 ≤ ((m.drop n).filter fun a => decide (a.2 < B)).length := List.length_pos_of_mem (List.mem_filter.2 ⟨h, by simpa using hB⟩)
    omega

theorem bestOf_count {n : Nat} (l : List (List Int × P)) (B : P) : ((bestOf n l).filter fun a => decide (a.2 < B)).length ≤ (l.filter fun a => decide (a.2 < B)).length := by
  unfold bestOf
  have hp := (List.mergeSort_perm l fun a b => decide (a.2 ≤ b.2)).filter fun a => decide (a.2 < B)
  rw [← hp.length_eq]
  exact ((List.take_sublist _ _).filter _).length_le

theorem bestOf_sorted (n : Nat) (l : List (List Int × P)) : (bestOf n l).Pairwise fun a b => a.2 ≤ b.2 := by
  unfold bestOf
  have hs : (l.mergeSort fun a b => decide (a.2 ≤ b.2)).Pairwise fun a b => decide (a.2 ≤ b.2) = true :=
    List.pairwise_mergeSort (fun a b c h1 h2 => by simp at *; exact h1.trans h2) (fun a b => by simp; exact le_total _ _) l
  exact (hs.imp fun h => of_decide_eq_true h).sublist (List.take_sublist _ _)

theorem forks_count {V : Type} (B : P) (cost : List Int → P → V → Int → P) (sf : List Int → V) (K : Nat) : ∀ l : List (List Int × P),
    (∀ a ∈ l, B ≤ a.2 → B ≤ cost a.1 a.2 (sf a.1) 1 ∧ B ≤ cost a.1 a.2 (sf a.1) (-1)) →
    (∀ a ∈ l, a.2 < B → 1 ≤ K ∧ (cost a.1 a.2 (sf a.1) 1 < B → cost a.1 a.2 (sf a.1) (-1) < B → 2 ≤ K)) →
    ((forks cost sf l).filter fun a => decide (a.2 < B)).length ≤ K * (l.filter fun a => decide (a.2 < B)).length := by
  intro l
  unfold forks
  induction l with
  | nil => intro _ _; simp
  | cons a l ih =>
    intro hB h
    have ih := ih (fun x hx => hB x (by simp [hx])) fun x hx => h x (by simp [hx])
    rw [List.flatMap_cons, List.filter_append, List.length_append]
    by_cases ha : a.2 < B
    · obtain ⟨h1, h2⟩ := h a (by simp) ha
      rw [List.filter_cons_of_pos (a := a) (by simpa using ha), List.length_cons, Nat.mul_add, Nat.mul_one]
      have : (List.filter (fun a => decide (a.2 < B)) [(a.1 ++ [1], cost a.1 a.2 (sf a.1) 1), (a.1 ++ [-1], cost a.1 a.2 (sf a.1) (-1))]).length ≤ K := by
        by_cases q1 : cost a.1 a.2 (sf a.1) 1 < B <;> by_cases q2 : cost a.1 a.2 (sf a.1) (-1) < B <;> simp [List.filter_cons, q1, q2] <;> [exact h2 q1 q2; exact h1; exact h1]
      omega
    · rw [List.filter_cons_of_neg (a := a) (by simpa using ha)]
      obtain ⟨q1, q2⟩ := hB a (by simp) (not_lt.1 ha)
      have : (List.filter (fun a => decide (a.2 < B)) [(a.1 ++ [1], cost a.1 a.2 (sf a.1) 1), (a.1 ++ [-1], cost a.1 a.2 (sf a.1) (-1))]).length = 0 := by
        simp [List.filter_cons, not_lt.2 q1, not_lt.2 q2]
      omega

end

section
variable {F : Rounding} {Gr : ℚ → Prop} {C : ℚ} {M : Nat} {s : Nat → ℚ} {fr : Nat → Prop} {Al : List Int → Int → Prop} {cost : List Int → WithTop ℚ → ℚ → Int → WithTop ℚ}

/-- A list that ends with a position that is not frozen is sorted. -/
theorem scl_sorted {V P : Type} [LinearOrder P] {A : Arith V} {s : Nat → V} {z ph : P} {pay : P → V → P} {cost : List Int → P → V → Int → P} (hlast : ¬ fr (2 ^ M - 1)) :
    (sclOf A L M s fr z ph pay cost).Pairwise fun a b => a.2 ≤ b.2 := by
  classical
  have := steps_induct (fr := fr) (S := sclStepOf A L M s fr pay cost) (M := M) (fun p ps => 0 < p → ¬ fr (p - 1) → ps.Pairwise fun a b => a.2 ≤ b.2) (by
    intro d n ps hd hn h1 h2 _ _ hlast
    unfold sclStepOf
    dsimp only
    by_cases hf : fr (n * 2 ^ d)
    · refine absurd (h1 hf (2 ^ d - 1) (by have := Nat.two_pow_pos d; omega)) ?_
      have := Nat.two_pow_pos d
      rwa [show n * 2 ^ d + (2 ^ d - 1) = (n + 1) * 2 ^ d - 1 by rw [Nat.add_mul]; omega]
    · rw [if_neg hf]; exact bestOf_sorted _ _) M 0 (([], z) :: List.replicate (L - 1) ([], ph)) le_rfl (by simp) (by simp)
  rw [Nat.zero_add, Nat.one_mul] at this
  exact this (Nat.two_pow_pos M) hlast

theorem coe_lt_million {q : ℚ} : (q : WithTop ℚ) < 1000000 ↔ q < 1000000 := by
  rw [show (1000000 : WithTop ℚ) = ((1000000 : ℚ) : WithTop ℚ) from rfl, WithTop.coe_lt_coe]

/-- A path of metric less than 1000000 stays in the list if there is room for all of these: `N p` bounds their number after `p` positions. -/
theorem full_steps (g : Grid F Gr C) (h6 : Gr 1000000) (hs : ∀ j, j < 2 ^ M → Gr (s j)) (hC : 1000000 + ∑ j ∈ Finset.range (2 ^ M), |s j| ≤ C) (hc : Charges F Al cost) (N : Nat → Nat) (hN1 : 1 ≤ N 0)
    (hN0 : ∀ p, N p ≤ N (p + 1)) (hN : ∀ w : List Int, (∀ x ∈ w, Sym x) → ¬ fr w.length → Al w 1 → Al w (-1) → 2 * N w.length ≤ N (w.length + 1)) (hL : N (2 ^ M) ≤ L)
    {v : Nat → Int} (hv : ∀ i, Sym (v i)) (hf : ∀ i, i < 2 ^ M → fr i → v i = 1) (hal : ∀ i, i < 2 ^ M → ¬ fr i → Al (pre v i) (v i)) (hlow : pathQ M s v (2 ^ M) < 1000000) :
    (pre v (2 ^ M), ((pathQ M s v (2 ^ M) : ℚ) : WithTop ℚ)) ∈ sclOf (minSum F.rnd) L M s fr 0 1000000 (fun μ s => fadd F μ (penaltyQ s 1)) cost := by
  classical
  have hmono : ∀ p q, p ≤ q → N p ≤ N q := fun p q h => monotone_nat_of_le_succ hN0 h
  have hpre : ∀ p j, j < p → (pre v p).getD j 1 = v j := fun p j hj => pre_getD v hj
  have := steps_induct (fr := fr) (S := sclStepOf (minSum F.rnd) L M s fr (fun μ s => fadd F μ (penaltyQ s 1)) cost) (M := M)
    (fun p ps => (∀ a ∈ ps, ∃ q, Fit Gr M s fr Al p a q) ∧ (ps.filter fun a => decide (a.2 < 1000000)).length ≤ N p ∧ (pre v p, ((pathQ M s v p : ℚ) : WithTop ℚ)) ∈ ps) (by
    rintro d n ps hd hn h1 h2 ⟨i1, i2, i3⟩
    have hle := node_le hd hn
    unfold sclStepOf
    dsimp only
    by_cases hfr : fr (n * 2 ^ d)
    · rw [if_pos hfr]
      refine ⟨?_, ?_, ?_⟩
      · intro a ha
        obtain ⟨c, hc', rfl⟩ := List.mem_map.1 ha
        obtain ⟨q, hq⟩ := i1 c hc'
        obtain ⟨q', h, -⟩ := fit_frozen g hs hC hd hn (h1 hfr) hq
        exact ⟨q', h⟩
      · rw [List.filter_map, List.length_map]
        refine le_trans ?_ (i2.trans (hmono _ _ (Nat.mul_le_mul_right _ (Nat.le_succ n))))
        rw [← List.countP_eq_length_filter, ← List.countP_eq_length_filter]
        refine List.countP_mono_left fun a ha hlt => ?_
        obtain ⟨q, hq⟩ := i1 a ha
        obtain ⟨q', h, e⟩ := fit_frozen g hs hC hd hn (h1 hfr) hq
        have hm := h.met
        simp only [Function.comp, decide_eq_true_eq] at hlt ⊢
        dsimp only at hm
        rw [hm, coe_lt_million] at hlt
        rw [hq.met, coe_lt_million]
        have := pathQ_mono (M := M) (s := s) (u := (a.1.getD · 1)) (Nat.mul_le_mul_right (2 ^ d) (Nat.le_succ n))
        linarith
      · obtain ⟨q, hq⟩ := i1 _ i3
        obtain ⟨q', h, e⟩ := fit_frozen g hs hC hd hn (h1 hfr) hq
        have hqe : pathQ M s v (n * 2 ^ d) = q := WithTop.coe_inj.1 hq.met
        have ep : pre v ((n + 1) * 2 ^ d) = pre v (n * 2 ^ d) ++ List.replicate (2 ^ d) 1 := by
          rw [Nat.add_mul, Nat.one_mul, pre_ones v _ _ fun i hi => hf _ (by rw [Nat.add_mul] at hle; omega) (h1 hfr i hi)]
        have eg : ∀ p, p ≤ (n + 1) * 2 ^ d → pathQ M s ((pre v (n * 2 ^ d)).getD · 1) p = pathQ M s v p := by
          intro p hp
          refine pathQ_congr fun j hj => ?_
          have := congrFun (getD_ones (pre v (n * 2 ^ d)) (2 ^ d)) j
          rw [← ep] at this
          rw [← this]
          exact hpre _ j (by omega)
        refine List.mem_map.2 ⟨_, i3, ?_⟩
        refine Prod.ext ep.symm ?_
        have hm := h.met
        dsimp only at hm e ⊢
        rw [hm, e, eg _ le_rfl, eg _ (Nat.mul_le_mul_right _ (Nat.le_succ n)), hqe]
        congr 1
        ring
    · rw [if_neg hfr]
      have hd0 := h2 hfr
      subst hd0
      simp only [pow_zero, Nat.mul_one] at hfr i1 i2 i3 hle ⊢
      set sf := fun w : List Int => softAt (minSum F.rnd) M s (w.getD · 1) M n 0 with hsf
      have key : ∀ a ∈ ps, ∀ b, Sym b → ∃ q', Fit Gr M s fr Al (n + 1) (a.1 ++ [b], cost a.1 a.2 (sf a.1) b) q' ∧ ∀ q, Fit Gr M s fr Al n a q → (Al a.1 b → q' = q + leaf M s ((a.1 ++ [b]).getD · 1) n) ∧ (¬ Al a.1 b → q' = 1000000) := by
        intro a ha b hb
        obtain ⟨q, hq⟩ := i1 a ha
        obtain ⟨q', h, e1, e2⟩ := fit_fork g h6 hs hC hc (by omega) hfr hq hb
        refine ⟨q', h, fun r hr => ?_⟩
        have : q = r := WithTop.coe_inj.1 (hq.met.symm.trans hr.met)
        subst this
        exact ⟨e1, e2⟩
      have hcount : ((forks cost sf ps).filter fun a => decide (a.2 < 1000000)).length ≤ N (n + 1) := by
        have hup : ∀ a ∈ ps, (1000000 : WithTop ℚ) ≤ a.2 → ∀ b, Sym b → (1000000 : WithTop ℚ) ≤ cost a.1 a.2 (sf a.1) b := by
          intro a ha hge b hb
          obtain ⟨q', h, e⟩ := key a ha b hb
          obtain ⟨q, hq⟩ := i1 a ha
          have hm := h.met
          dsimp only at hm
          rw [hq.met] at hge
          rw [hm]
          rw [← not_lt, coe_lt_million, not_lt] at hge ⊢
          by_cases hal' : Al a.1 b
          · rw [(e q hq).1 hal']
            linarith [leaf_nonneg M s ((a.1 ++ [b]).getD · 1) n]
          · rw [(e q hq).2 hal']
        have hallow : ∀ a ∈ ps, ∀ b, Sym b → cost a.1 a.2 (sf a.1) b < 1000000 → Al a.1 b := by
          intro a ha b hb hlt
          by_contra hn'
          rw [(hc a.1 a.2 (sf a.1) b).2 hn'] at hlt
          exact lt_irrefl _ hlt
        by_cases hboth : 2 * N n ≤ N (n + 1)
        · refine (forks_count 1000000 cost sf 2 ps (fun a ha h => ⟨hup a ha h _ (Or.inl rfl), hup a ha h _ (Or.inr rfl)⟩) fun a _ _ => ⟨by omega, fun _ _ => le_rfl⟩).trans ?_
          omega
        · refine (forks_count 1000000 cost sf 1 ps (fun a ha h => ⟨hup a ha h _ (Or.inl rfl), hup a ha h _ (Or.inr rfl)⟩) fun a ha _ => ⟨le_rfl, fun q1 q2 => ?_⟩).trans ?_
          · obtain ⟨q, hq⟩ := i1 a ha
            have := hN a.1 hq.sym (by rw [hq.len]; exact hfr) (hallow a ha 1 (Or.inl rfl) q1) (hallow a ha (-1) (Or.inr rfl) q2)
            rw [hq.len] at this
            exact absurd this hboth
          · have := hN0 n
            omega
      refine ⟨?_, (bestOf_count _ _).trans hcount, ?_⟩
      · intro a ha
        have ha := (List.mergeSort_perm _ _).mem_iff.1 (List.mem_of_mem_take ha)
        obtain ⟨c, hc', h⟩ := List.mem_flatMap.1 ha
        rcases List.mem_cons.1 h with rfl | h
        · obtain ⟨q', h, -⟩ := key c hc' 1 (Or.inl rfl)
          exact ⟨q', h⟩
        · rw [List.mem_singleton.1 h]
          obtain ⟨q', h, -⟩ := key c hc' (-1) (Or.inr rfl)
          exact ⟨q', h⟩
      · have hlt : pathQ M s v (n + 1) < 1000000 := (pathQ_mono hle).trans_lt hlow
        refine mem_bestOf ?_ (coe_lt_million.2 hlt) (hcount.trans ((hmono _ _ hle).trans hL))
        obtain ⟨q', h, e⟩ := key _ i3 (v n) (hv n)
        obtain ⟨q, hq⟩ := i1 _ i3
        have hqe : pathQ M s v n = q := WithTop.coe_inj.1 hq.met
        have e' := (e q hq).1 (hal n (by omega) hfr)
        have hm := h.met
        dsimp only at hm e'
        rw [← pre_succ] at e'
        have elf : leaf M s ((pre v (n + 1)).getD · 1) n = leaf M s v n := leaf_congr fun j hj => hpre _ j (by omega)
        rw [elf, ← hqe, ← pathQ_succ] at e'
        rw [e'] at hm
        refine List.mem_flatMap.2 ⟨_, i3, ?_⟩
        dsimp only
        rw [← hm, pre_succ]
        rcases hv n with h | h <;> rw [h]
        · exact List.mem_cons_self
        · exact List.mem_cons_of_mem _ (List.mem_singleton.2 rfl)) M 0 (([], 0) :: List.replicate (L - 1) ([], 1000000)) le_rfl (by simp) (by
    have e0 : pathQ M s (([] : List Int).getD · 1) 0 = 0 := rfl
    rw [Nat.zero_mul]
    refine ⟨fun a ha => ?_, ?_, List.mem_cons_self⟩
    · rcases List.mem_cons.1 ha with rfl | h
      · exact ⟨0, rfl, by simp, by simp, rfl, g.zero, le_rfl, by dsimp only; rw [e0]; norm_num, fun _ => ⟨rfl, fun i hi => absurd hi (Nat.not_lt_zero i)⟩⟩
      · rw [List.eq_of_mem_replicate h]
        exact ⟨1000000, rfl, by simp, by simp, rfl, h6, by norm_num, by dsimp only; rw [e0]; norm_num, fun h => absurd h (lt_irrefl _)⟩
    · rw [List.filter_cons_of_pos (by simpa using million_pos), List.filter_replicate]
      simpa using hN1)
  rw [Nat.zero_add, Nat.one_mul] at this
  exact this.2.2

end

end Verif.Polar
