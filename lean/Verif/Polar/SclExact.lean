import Verif.Polar.FloatClean
/- Min-sum list decoding with exact arithmetic: the metric of a path is the disagreement of its codeword. -/
namespace Verif.Polar
variable {L : Nat}

/-- What the symbols `x` cost on the `n` soft values `s`: the magnitudes of those that point to the other symbol. -/
def disagreeQ (n : Nat) (s : Nat → ℚ) (x : Nat → Int) : ℚ := ∑ j ∈ Finset.range n, penaltyQ (s j) (x j)

/-! ### Pairs -/

theorem qsign_negate (a : ℚ) : qsign (-a) = -qsign a := by
  rcases qsign_cases a with ⟨h, e⟩ | ⟨h, e⟩ | ⟨h, e⟩ <;> rw [e]
  · exact qsign_neg (by linarith)
  · subst h; rw [neg_zero, e]; rfl
  · rw [qsign_pos (by linarith)]; rfl

theorem pair_one (a b : ℚ) : max 0 (-((qsign a : ℚ) * qsign b * (min |a| |b|))) + max 0 (-(a + b)) = max 0 (-a) + max 0 (-b) := by
  rcases qsign_cases a with ⟨h, e⟩ | ⟨h, e⟩ | ⟨h, e⟩ <;> rcases qsign_cases b with ⟨h', e'⟩ | ⟨h', e'⟩ | ⟨h', e'⟩ <;> rw [e, e'] <;>
    push_cast
  · rw [abs_of_pos h, abs_of_pos h', max_eq_left (a := (0 : ℚ)) (b := -_) (by have := le_min h.le h'.le; linarith),
      max_eq_left (by linarith), max_eq_left (by linarith : -a ≤ (0 : ℚ)), max_eq_left (by linarith : -b ≤ (0 : ℚ))]
  · subst h'; simp
  · rw [abs_of_pos h, abs_of_neg h', max_eq_left (by linarith : -a ≤ (0 : ℚ)), max_eq_right (by linarith : (0 : ℚ) ≤ -b)]
    rcases le_total a (-b) with q | q
    · rw [min_eq_left q, max_eq_right (by linarith), max_eq_right (by linarith)]; ring
    · rw [min_eq_right q, max_eq_right (by linarith), max_eq_left (by linarith)]; ring
  · subst h; simp
  · subst h; simp
  · subst h; simp
  · rw [abs_of_neg h, abs_of_pos h', max_eq_right (by linarith : (0 : ℚ) ≤ -a), max_eq_left (by linarith : -b ≤ (0 : ℚ))]
    rcases le_total (-a) b with q | q
    · rw [min_eq_left q, max_eq_right (by linarith), max_eq_left (by linarith)]; ring
    · rw [min_eq_right q, max_eq_right (by linarith), max_eq_right (by linarith)]; ring
  · subst h'; simp
  · rw [abs_of_neg h, abs_of_neg h', max_eq_left (a := (0 : ℚ)) (b := -_) (by have := le_min (neg_nonneg.2 h.le) (neg_nonneg.2 h'.le); linarith),
      max_eq_right (by linarith), max_eq_right (by linarith : (0 : ℚ) ≤ -a), max_eq_right (by linarith : (0 : ℚ) ≤ -b)]; ring

theorem pair_costQ (a b : ℚ) {x y : Int} (hx : Sym x) (hy : Sym y) :
    penaltyQ ((qsign a : ℚ) * qsign b * (min |a| |b|)) x + penaltyQ (x * a + b) y = penaltyQ a (x * y) + penaltyQ b y := by
  unfold penaltyQ
  have h := pair_one (x * y * a) (y * b)
  rcases hx with rfl | rfl <;> rcases hy with rfl | rfl <;> simp only [Int.cast_one, Int.cast_neg, one_mul, mul_one, neg_mul, mul_neg, neg_neg, qsign_negate, abs_neg] at h ⊢
  · exact h
  · rw [show -(-a + -b) = a + b by ring] at h; exact h
  · rw [show -(-a + b) = -(-a + b) from rfl] at h; exact h
  · rw [show -(a + -b) = -a + b by ring] at h; exact h

theorem pair_abs (a b : ℚ) {x : Int} (hx : Sym x) : (|(qsign a : ℚ) * qsign b * (min |a| |b|)| : ℚ) ≤ |a| + |b| ∧ (|(x : ℚ) * a + b| : ℚ) ≤ |a| + |b| :=
  ⟨(minF_abs a b).trans (by have := abs_nonneg b; linarith), abs_sym_mul_add hx a b⟩

/-! ### The cost of a path, leaf by leaf -/

/-- What position `i` costs the path `u`. -/
noncomputable def leaf (M : Nat) (s : Nat → ℚ) (u : Nat → Int) (i : Nat) : ℚ := penaltyQ (softAt (minSum id) M s u M i 0) (u i)

noncomputable def pathQ (M : Nat) (s : Nat → ℚ) (u : Nat → Int) (p : Nat) : ℚ := ∑ i ∈ Finset.range p, leaf M s u i

theorem leaf_nonneg (M : Nat) (s : Nat → ℚ) (u : Nat → Int) (i : Nat) : 0 ≤ leaf M s u i := penaltyQ_nonneg _ _

theorem leaf_congr {M : Nat} {s : Nat → ℚ} {u v : Nat → Int} {i : Nat} (h : ∀ j, j ≤ i → u j = v j) : leaf M s u i = leaf M s v i := by
  unfold leaf
  rw [softAt_congr (minSum id) M s M i le_rfl (fun j hj => h j (by rw [Nat.sub_self, pow_zero, Nat.mul_one] at hj; omega)), h i le_rfl]

theorem pathQ_congr {M : Nat} {s : Nat → ℚ} {u v : Nat → Int} {p : Nat} (h : ∀ j, j < p → u j = v j) : pathQ M s u p = pathQ M s v p :=
  Finset.sum_congr rfl fun i hi => leaf_congr fun j hj => h j (by have := Finset.mem_range.1 hi; omega)

theorem pathQ_mono {M : Nat} {s : Nat → ℚ} {u : Nat → Int} {p q : Nat} (h : p ≤ q) : pathQ M s u p ≤ pathQ M s u q :=
  Finset.sum_le_sum_of_subset_of_nonneg (Finset.range_mono h) fun i _ _ => leaf_nonneg _ _ _ _

theorem pathQ_nonneg (M : Nat) (s : Nat → ℚ) (u : Nat → Int) (p : Nat) : 0 ≤ pathQ M s u p := Finset.sum_nonneg fun i _ => leaf_nonneg _ _ _ _

/-- A block costs what its soft values tell. -/
theorem block_cost {M : Nat} {s : Nat → ℚ} {u : Nat → Int} (hu : ∀ i, Sym (u i)) : ∀ d t n, t + d = M →
    ∑ i ∈ Finset.range (2 ^ d), leaf M s u (n * 2 ^ d + i) = ∑ i ∈ Finset.range (2 ^ d), penaltyQ (softAt (minSum id) M s u t n i) (polar d (fun j => u (n * 2 ^ d + j)) i) := by
  intro d
  induction d with
  | zero =>
    intro t n hM
    have : t = M := by omega
    subst this
    have hp : polar 0 (fun j => u (n + j)) 0 = u n := by have := P_prod 0 (fun j => u (n + j)) 0 (by norm_num); unfold polar; rw [← this]; rfl
    simp only [pow_zero, Finset.sum_range_one, Nat.mul_one, Nat.add_zero]
    rw [hp]; rfl
  | succ d ih =>
    intro t n hM
    have p1 : n * 2 ^ (d + 1) = 2 * n * 2 ^ d := by rw [pow_succ]; ring
    have p2 : ∀ j, n * 2 ^ (d + 1) + (2 ^ d + j) = (2 * n + 1) * 2 ^ d + j := by intro j; rw [pow_succ]; ring
    have hL := ih (t + 1) (2 * n) (by omega)
    have hR := ih (t + 1) (2 * n + 1) (by omega)
    have ht : M - (t + 1) = d := by omega
    rw [two_pow_succ', Finset.sum_range_add, Finset.sum_range_add]
    have q1 : ∑ i ∈ Finset.range (2 ^ d), leaf M s u (n * 2 ^ (d + 1) + i) = ∑ i ∈ Finset.range (2 ^ d), leaf M s u (2 * n * 2 ^ d + i) := by rw [p1]
    have q2 : ∑ i ∈ Finset.range (2 ^ d), leaf M s u (n * 2 ^ (d + 1) + (2 ^ d + i)) = ∑ i ∈ Finset.range (2 ^ d), leaf M s u ((2 * n + 1) * 2 ^ d + i) := by simp only [p2]
    rw [← two_pow_succ', q1, q2, p1, hL, hR, ← Finset.sum_add_distrib, ← Finset.sum_add_distrib]
    refine Finset.sum_congr rfl fun i hi => ?_
    have hi := Finset.mem_range.1 hi
    have eF : softAt (minSum id) M s u (t + 1) (2 * n) i = (qsign (softAt (minSum id) M s u t n i) : ℚ) * qsign (softAt (minSum id) M s u t n (2 ^ d + i)) * min |softAt (minSum id) M s u t n i| |softAt (minSum id) M s u t n (2 ^ d + i)| := by
      rw [softAt]
      simp only [ht]
      rw [if_pos (by omega), show 2 * n / 2 = n by omega]
      rfl
    have eG : softAt (minSum id) M s u (t + 1) (2 * n + 1) i = (polar d (fun j => u (2 * n * 2 ^ d + j)) i : ℚ) * softAt (minSum id) M s u t n i + softAt (minSum id) M s u t n (2 ^ d + i) := by
      rw [softAt]
      simp only [ht]
      rw [if_neg (by omega), show (2 * n + 1) / 2 = n by omega, show 2 * n + 1 - 1 = 2 * n by omega]
      rfl
    rw [eF, eG, polar_low hi, polar_high hi]
    have p3 : ∀ j, 2 * n * 2 ^ d + (2 ^ d + j) = (2 * n + 1) * 2 ^ d + j := by intro j; ring
    simp only [p3]
    exact pair_costQ _ _ (polar_sym (fun _ => hu _) hi) (polar_sym (fun _ => hu _) hi)

theorem pathQ_block {M : Nat} {s : Nat → ℚ} {u : Nat → Int} (hu : ∀ i, Sym (u i)) {d n : Nat} (hd : d ≤ M) :
    pathQ M s u ((n + 1) * 2 ^ d) = pathQ M s u (n * 2 ^ d) + ∑ i ∈ Finset.range (2 ^ d), penaltyQ (softAt (minSum id) M s u (M - d) n i) (polar d (fun j => u (n * 2 ^ d + j)) i) := by
  rw [← block_cost hu d (M - d) n (by omega)]
  unfold pathQ
  rw [Nat.add_mul, Nat.one_mul, Finset.sum_range_add]

theorem pathQ_all {M : Nat} {s : Nat → ℚ} {u : Nat → Int} (hu : ∀ i, Sym (u i)) : pathQ M s u (2 ^ M) = disagreeQ (2 ^ M) s (polar M u) := by
  have := pathQ_block (s := s) hu (d := M) (n := 0) le_rfl
  simp only [Nat.zero_add, Nat.one_mul, Nat.zero_mul, Nat.sub_self] at this
  rw [this]
  simp only [pathQ, Finset.range_zero, Finset.sum_empty, zero_add]
  rfl

theorem penaltyQ_le (s : ℚ) {x : Int} (hx : Sym x) : penaltyQ s x ≤ |s| := by
  unfold penaltyQ
  refine max_le (abs_nonneg _) ?_
  rcases hx with rfl | rfl <;> push_cast
  · rw [one_mul]; exact neg_le_abs s
  · linarith [le_abs_self s]

theorem pathQ_le {M : Nat} {s : Nat → ℚ} {u : Nat → Int} (hu : ∀ i, Sym (u i)) {p : Nat} (hp : p ≤ 2 ^ M) : pathQ M s u p ≤ ∑ j ∈ Finset.range (2 ^ M), |s j| := by
  refine (pathQ_mono hp).trans ?_
  rw [pathQ_all hu]
  exact Finset.sum_le_sum fun j hj => penaltyQ_le _ (polar_sym hu (Finset.mem_range.1 hj))

/-! ### Induction over the steps -/

theorem steps_induct {β : Type} {fr : Nat → Prop} {S : β → Nat × Nat → β} {M : Nat} (Inv : Nat → β → Prop)
    (node : ∀ d n x, d ≤ M → n < 2 ^ (M - d) → (fr (n * 2 ^ d) → ∀ i, i < 2 ^ d → fr (n * 2 ^ d + i)) → (¬ fr (n * 2 ^ d) → d = 0) → Inv (n * 2 ^ d) x → Inv ((n + 1) * 2 ^ d) (S x (d, n))) :
    ∀ d n x, d ≤ M → n < 2 ^ (M - d) → Inv (n * 2 ^ d) x → Inv ((n + 1) * 2 ^ d) ((steps fr d n).foldl S x) := by
  classical
  intro d
  induction d with
  | zero =>
    intro n x hd hn hx
    exact node 0 n x hd hn (fun h i hi => by
      have : i = 0 := by simpa using hi
      subst this; exact h) (fun _ => rfl) hx
  | succ d ih =>
    intro n x hd hn hx
    rw [steps]
    split
    · rename_i h
      exact node (d + 1) n x hd hn (fun _ => h.2) (fun hf => absurd (h.2 0 (by positivity)) (by rwa [Nat.add_zero])) hx
    · rw [List.foldl_append]
      have e : 2 ^ (M - d) = 2 * 2 ^ (M - (d + 1)) := by rw [show M - d = M - (d + 1) + 1 by omega, pow_succ]; ring
      have a := ih (2 * n) x (by omega) (by omega) (by rw [show 2 * n * 2 ^ d = n * 2 ^ (d + 1) by rw [pow_succ]; ring]; exact hx)
      have b := ih (2 * n + 1) _ (by omega) (by omega) a
      rw [show (2 * n + 1 + 1) * 2 ^ d = (n + 1) * 2 ^ (d + 1) by rw [pow_succ]; ring] at b
      exact b

theorem node_le {M d n : Nat} (hd : d ≤ M) (hn : n < 2 ^ (M - d)) : (n + 1) * 2 ^ d ≤ 2 ^ M := by
  have : (n + 1) * 2 ^ d ≤ 2 ^ (M - d) * 2 ^ d := Nat.mul_le_mul_right _ hn
  rwa [← pow_add, Nat.sub_add_cancel hd] at this

end Verif.Polar
