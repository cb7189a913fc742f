import Verif.RS.BM
import Mathlib.Algebra.Polynomial.BigOperators
import Mathlib.Algebra.Polynomial.Roots
import Mathlib.Algebra.Polynomial.Derivative
import Mathlib.Algebra.Ring.GeomSum
import Mathlib.Algebra.Polynomial.Eval.SMul
/- Locator and evaluator polynomials. -/
namespace Verif.RS
open Polynomial Finset

variable {F : Type} [Field F]

/-- MDS: a combination of few distinct points with vanishing power sums is trivial. -/
theorem mds {S : Finset Nat} {x c : Nat → F} {NR : Nat} (hx : Set.InjOn x S) (hc : S.card ≤ NR)
    (h : ∀ i, i < NR → ∑ k ∈ S, c k * x k ^ i = 0) : ∀ k ∈ S, c k = 0 := by
  intro k hk
  have key : ∀ p : F[X], p.natDegree < NR → ∑ k ∈ S, c k * p.eval (x k) = 0 := by
    intro p hp
    have : ∀ k, c k * p.eval (x k) = ∑ i ∈ range NR, p.coeff i * (c k * x k ^ i) := by
      intro k
      rw [eval_eq_sum_range' hp, Finset.mul_sum]
      exact Finset.sum_congr rfl fun i _ => by ring
    simp only [this]
    rw [Finset.sum_comm]
    apply Finset.sum_eq_zero
    intro i hi
    rw [← Finset.mul_sum, h i (by simpa using hi), mul_zero]
  have h1 := key (∏ l ∈ S.erase k, (X - C (x l))) (by
    rw [natDegree_prod_of_monic _ _ (fun l _ => monic_X_sub_C _)]
    simp only [natDegree_X_sub_C, Finset.sum_const, smul_eq_mul, mul_one]
    rw [Finset.card_erase_of_mem hk]
    have := Finset.card_pos.2 ⟨k, hk⟩
    omega)
  rw [Finset.sum_eq_single k] at h1
  · rcases mul_eq_zero.1 h1 with h2 | h2
    · exact h2
    · exfalso
      rw [eval_prod, Finset.prod_eq_zero_iff] at h2
      obtain ⟨l, hl, h3⟩ := h2
      simp only [eval_sub, eval_X, eval_C, sub_eq_zero] at h3
      rw [Finset.mem_erase] at hl
      exact hl.1 (hx hl.2 hk h3.symm)
  · intro l hl hne
    rw [eval_prod, Finset.prod_eq_zero (i := l) (Finset.mem_erase.2 ⟨hne, hl⟩) (by simp), mul_zero]
  · intro h; exact absurd hk h

/-- The locator of a set of positions. -/
noncomputable def sigma (x : Nat → F) (A : Finset Nat) : F[X] := ∏ p ∈ A, (1 - C (x p) * X)

/-- The evaluator of a set of positions with weights. -/
noncomputable def omega (x z : Nat → F) (A : Finset Nat) : F[X] :=
  ∑ p ∈ A, C (z p) * sigma x (A.erase p)

variable {x z : Nat → F} {A B : Finset Nat}

theorem factor_natDegree {a : F} (h : a ≠ 0) : (1 - C a * X : F[X]).natDegree = 1 := by
  rw [show (1 - C a * X : F[X]) = C (-a) * X + C 1 by simp; ring]
  exact natDegree_linear (neg_ne_zero.2 h)

theorem factor_ne {a : F} : (1 - C a * X : F[X]) ≠ 0 := by
  intro h
  have := congrArg (coeff · 0) h
  simp at this

theorem sigma_ne : sigma x A ≠ 0 := by
  unfold sigma
  exact Finset.prod_ne_zero_iff.2 fun p _ => factor_ne

theorem sigma_natDegree (hx : ∀ p, x p ≠ 0) : (sigma x A).natDegree = A.card := by
  unfold sigma
  rw [natDegree_prod _ _ (fun p _ => factor_ne)]
  simp [factor_natDegree (hx _)]

theorem sigma_coeff_zero : (sigma x A).coeff 0 = 1 := by
  unfold sigma
  rw [coeff_zero_eq_eval_zero, eval_prod]
  simp

theorem sigma_erase {p : Nat} (hp : p ∈ A) : sigma x A = (1 - C (x p) * X) * sigma x (A.erase p) := by
  unfold sigma
  rw [Finset.mul_prod_erase A (fun p => (1 - C (x p) * X : F[X])) hp]

theorem sigma_insert {p : Nat} (hp : p ∉ A) : sigma x (insert p A) = (1 - C (x p) * X) * sigma x A := by
  unfold sigma; rw [Finset.prod_insert hp]

theorem sigma_union (h : Disjoint A B) : sigma x (A ∪ B) = sigma x A * sigma x B := by
  unfold sigma; rw [Finset.prod_union h]

theorem omega_natDegree_lt (hx : ∀ p, x p ≠ 0) {n : Nat} (h : A.card ≤ n) (hn : 0 < n) :
    (omega x z A).natDegree < n := by
  unfold omega
  rw [Nat.lt_iff_le_pred hn]
  refine natDegree_sum_le_of_forall_le _ _ fun p hp => (natDegree_C_mul_le _ _).trans ?_
  rw [sigma_natDegree hx, Finset.card_erase_of_mem hp]
  omega

/-- The syndrome polynomial. -/
noncomputable def synPoly (s : Nat → F) (NR : Nat) : F[X] := ∑ i ∈ range NR, monomial i (s i)

theorem synPoly_geom {NR : Nat} {s : Nat → F} (hs : ∀ i, i < NR → s i = ∑ p ∈ A, z p * x p ^ i) :
    synPoly s NR = ∑ p ∈ A, C (z p) * ∑ i ∈ range NR, (C (x p) * X) ^ i := by
  unfold synPoly
  simp only [Finset.mul_sum]
  rw [Finset.sum_comm]
  refine Finset.sum_congr rfl fun i hi => ?_
  rw [hs i (by simpa using hi), ← C_mul_X_pow_eq_monomial]
  simp only [map_sum, Finset.sum_mul]
  refine Finset.sum_congr rfl fun p _ => ?_
  rw [mul_pow, C_mul, C_pow]; ring

/-- The key equation. -/
theorem key_eq {NR : Nat} {s : Nat → F} (hs : ∀ i, i < NR → s i = ∑ p ∈ A, z p * x p ^ i) :
    ∃ q : F[X], sigma x A * synPoly s NR = omega x z A + X ^ NR * q := by
  rw [synPoly_geom hs]
  refine ⟨- ∑ p ∈ A, C (z p * x p ^ NR) * sigma x (A.erase p), ?_⟩
  unfold omega
  rw [Finset.mul_sum, mul_neg, ← sub_eq_add_neg, Finset.mul_sum, ← Finset.sum_sub_distrib]
  refine Finset.sum_congr rfl fun p hp => ?_
  have h1 : (1 - C (x p) * X) * ∑ i ∈ range NR, (C (x p) * X) ^ i = 1 - (C (x p) * X) ^ NR := by
    rw [mul_comm]; exact geom_sum_mul_neg _ _
  rw [sigma_erase hp, C_mul, C_pow]
  rw [mul_pow] at h1
  linear_combination (C (z p) * sigma x (A.erase p)) * h1

theorem coeff_of_key {a b q : F[X]} {NR j : Nat} (h : a = b + X ^ NR * q) (hj : j < NR) :
    a.coeff j = b.coeff j := by
  rw [h, coeff_add, coeff_X_pow_mul', if_neg (by omega), add_zero]

theorem eval_omega {p : Nat} (hx : ∀ p, x p ≠ 0) (hp : p ∈ A) :
    (omega x z A).eval (x p)⁻¹ = z p * (sigma x (A.erase p)).eval (x p)⁻¹ := by
  unfold omega
  rw [eval_finsetSum, Finset.sum_eq_single p]
  · simp
  · intro q _ hqp
    have : (sigma x (A.erase q)).eval (x p)⁻¹ = 0 := by
      unfold sigma
      rw [eval_prod]
      refine Finset.prod_eq_zero (i := p) (Finset.mem_erase.2 ⟨fun h => hqp h.symm, hp⟩) ?_
      simp [hx p]
    simp [this]
  · intro h; exact absurd hp h

theorem eval_sigma_ne {p : Nat} (hx : ∀ p, x p ≠ 0) (hinj : Set.InjOn x A) (hp : p ∈ A) :
    (sigma x (A.erase p)).eval (x p)⁻¹ ≠ 0 := by
  unfold sigma
  rw [eval_prod, Finset.prod_ne_zero_iff]
  intro l hl
  rw [Finset.mem_erase] at hl
  simp only [eval_sub, eval_one, eval_mul, eval_C, eval_X]
  intro h
  rw [sub_eq_zero, eq_comm, mul_inv_eq_one₀ (hx p)] at h
  exact hl.1 (hinj hl.2 hp h)

theorem eval_sigma {p : Nat} (hx : ∀ p, x p ≠ 0) (hp : p ∈ A) : (sigma x A).eval (x p)⁻¹ = 0 := by
  rw [sigma_erase hp]; simp [hx p]

theorem eval_deriv_sigma {p : Nat} (hx : ∀ p, x p ≠ 0) (hp : p ∈ A) :
    (derivative (sigma x A)).eval (x p)⁻¹ = -(x p) * (sigma x (A.erase p)).eval (x p)⁻¹ := by
  rw [sigma_erase hp, derivative_mul]
  simp [hx p]

/-- A polynomial vanishing at all inverse locators is divisible by the locator. -/
theorem sigma_dvd {c : F[X]} (hx : ∀ p, x p ≠ 0) (hinj : Set.InjOn x A)
    (h : ∀ p ∈ A, c.eval (x p)⁻¹ = 0) : sigma x A ∣ c := by
  unfold sigma
  refine Finset.prod_dvd_of_coprime ?_ ?_
  · intro p hp q hq hne
    have h1 : (1 - C (x p) * X : F[X]) = C (-(x p)) * (X - C (x p)⁻¹) := by
      rw [mul_sub, ← C_mul, neg_mul, mul_inv_cancel₀ (hx p)]; simp; ring
    have h2 : (1 - C (x q) * X : F[X]) = C (-(x q)) * (X - C (x q)⁻¹) := by
      rw [mul_sub, ← C_mul, neg_mul, mul_inv_cancel₀ (hx q)]; simp; ring
    have h3 : IsCoprime (X - C (x p)⁻¹ : F[X]) (X - C (x q)⁻¹) := by
      apply isCoprime_X_sub_C_of_isUnit_sub
      rw [isUnit_iff_ne_zero, sub_ne_zero]
      intro h4
      exact hne (hinj hp hq (inv_injective h4))
    have hu : ∀ r, IsUnit (C (-(x r)) : F[X]) := fun r => isUnit_C.2 (isUnit_iff_ne_zero.2 (neg_ne_zero.2 (hx r)))
    show IsCoprime (1 - C (x p) * X : F[X]) (1 - C (x q) * X)
    rw [h1, h2]
    exact (isCoprime_mul_unit_left_left (hu p) _ _).2 ((isCoprime_mul_unit_left_right (hu q) _ _).2 h3)
  · intro p hp
    have h1 : (1 - C (x p) * X : F[X]) = C (-(x p)) * (X - C (x p)⁻¹) := by
      rw [mul_sub, ← C_mul, neg_mul, mul_inv_cancel₀ (hx p)]; simp; ring
    rw [h1]
    have hu : IsUnit (C (-(x p)) : F[X]) := isUnit_C.2 (isUnit_iff_ne_zero.2 (neg_ne_zero.2 (hx p)))
    rw [hu.mul_left_dvd]
    exact dvd_iff_isRoot.2 (h p hp)

/-- A polynomial with constant term one, of degree at most the number of its known roots, is the
locator of these roots. -/
theorem eq_sigma {c : F[X]} (hx : ∀ p, x p ≠ 0) (hinj : Set.InjOn x A)
    (h : ∀ p ∈ A, c.eval (x p)⁻¹ = 0) (h0 : c.coeff 0 = 1) (hd : c.natDegree ≤ A.card) :
    c = sigma x A := by
  obtain ⟨q, hq⟩ := sigma_dvd hx hinj h
  have hc : c ≠ 0 := by rintro rfl; simp at h0
  have hq0 : q ≠ 0 := by rintro rfl; rw [mul_zero] at hq; exact hc hq
  have hdq : q.natDegree = 0 := by
    rw [hq, natDegree_mul sigma_ne hq0, sigma_natDegree hx] at hd; omega
  rw [eq_C_of_natDegree_eq_zero hdq] at hq
  have : q.coeff 0 = 1 := by
    rw [hq, mul_coeff_zero, sigma_coeff_zero, coeff_C_zero, one_mul] at h0
    exact h0
  rw [hq, this, C_1, mul_one]

/-- The decoding radius argument: the algorithm's result is the true locator. -/
theorem good_unique {R E : Finset Nat} {NR L : Nat} {s : Nat → F} {c : F[X]} (hx : ∀ p, x p ≠ 0)
    (hinj : Set.InjOn x (R ∪ E : Finset Nat)) (hdisj : Disjoint R E)
    (hs : ∀ i, i < NR → s i = ∑ p ∈ R ∪ E, z p * x p ^ i) (hz : ∀ p ∈ E, z p ≠ 0)
    (hcap : 2 * E.card + R.card ≤ NR)
    (g : Good (sigma x R) (synPoly s NR) R.card NR c L)
    (hmin : Minimal (sigma x R) (synPoly s NR) NR L) :
    c = sigma x (R ∪ E) ∧ L = R.card + E.card := by
  obtain ⟨q, hq⟩ := key_eq (x := x) (z := z) (A := R ∪ E) hs
  have hcard : (R ∪ E).card = R.card + E.card := Finset.card_union_of_disjoint hdisj
  have hu : sigma x (R ∪ E) = sigma x R * sigma x E := sigma_union hdisj
  have hω0 : ∀ j, R.card + E.card ≤ j → (omega x z (R ∪ E)).coeff j = 0 := by
    intro j hj
    by_cases h0 : R.card + E.card = 0
    · have : R ∪ E = ∅ := by rw [← Finset.card_eq_zero]; omega
      rw [this]; simp [omega]
    · exact coeff_eq_zero_of_natDegree_lt (lt_of_lt_of_le
        (omega_natDegree_lt hx (n := R.card + E.card) (by omega) (by omega)) hj)
  have hL : L ≤ R.card + E.card := by
    refine hmin (sigma x E) _ ?_ ?_ ?_ ?_
    · rw [← hu, sigma_natDegree hx, hcard]
    · rw [sigma_coeff_zero]; exact one_ne_zero
    · intro j h1 h2
      rw [← hu, coeff_of_key hq h2, hω0 j h1]
    · rw [sigma_natDegree hx]; omega
  obtain ⟨c', hc'⟩ := g.dvd
  have hc0 : c ≠ 0 := by intro h; have := g.c0; rw [h] at this; simp at this
  have hc'0 : c' ≠ 0 := by rintro rfl; rw [mul_zero] at hc'; exact hc0 hc'
  have hdc : c'.natDegree + R.card ≤ L := by
    have := g.deg; rw [hc', natDegree_mul sigma_ne hc'0, sigma_natDegree hx] at this; omega
  -- cross multiplication
  have hcross : ∀ j, j < NR → (c' * omega x z (R ∪ E)).coeff j = (sigma x E * (c * synPoly s NR)).coeff j := by
    intro j hj
    have e : sigma x E * (c * synPoly s NR) = c' * omega x z (R ∪ E) + X ^ NR * (c' * q) := by
      rw [hc', ← mul_assoc, ← mul_assoc, mul_comm (sigma x E), ← hu]
      linear_combination c' * hq
    exact (coeff_of_key e hj).symm
  -- at a root of the error locator
  have hroot : ∀ p ∈ E, c'.eval (x p)⁻¹ = 0 := by
    intro p hp
    -- truncate c * S
    let w : F[X] := ∑ i ∈ range L, monomial i ((c * synPoly s NR).coeff i)
    have hw : ∀ j, w.coeff j = if j < L then (c * synPoly s NR).coeff j else 0 := by
      intro j
      simp only [w, finsetSum_coeff, coeff_monomial, Finset.sum_ite_eq', mem_range]
    have hwd : ∀ j, L ≤ j → w.coeff j = 0 := fun j hj => by rw [hw, if_neg (by omega)]
    have heq : c' * omega x z (R ∪ E) = sigma x E * w := by
      ext j
      by_cases hj : j < NR
      · rw [hcross j hj, coeff_mul, coeff_mul]
        refine Finset.sum_congr rfl ?_
        rintro ⟨i, k⟩ hik
        rw [mem_antidiagonal] at hik
        dsimp only at hik ⊢
        congr 1
        rw [hw]
        split
        · rfl
        · exact g.van k (by omega) (by omega)
      · rw [coeff_mul, coeff_mul, Finset.sum_eq_zero, Finset.sum_eq_zero]
        · rintro ⟨i, k⟩ hik
          rw [mem_antidiagonal] at hik
          dsimp only at hik ⊢
          by_cases hi : i ≤ E.card
          · rw [hwd k (by omega), mul_zero]
          · rw [coeff_eq_zero_of_natDegree_lt (by rw [sigma_natDegree hx]; omega), zero_mul]
        · rintro ⟨i, k⟩ hik
          rw [mem_antidiagonal] at hik
          dsimp only at hik ⊢
          by_cases hi : i ≤ c'.natDegree
          · rw [hω0 k (by omega), mul_zero]
          · rw [coeff_eq_zero_of_natDegree_lt (by omega), zero_mul]
    have h1 := congrArg (eval (x p)⁻¹) heq
    rw [eval_mul, eval_mul, eval_sigma hx hp, zero_mul] at h1
    rcases mul_eq_zero.1 h1 with h2 | h2
    · exact h2
    · exfalso
      have hpA : p ∈ R ∪ E := Finset.mem_union_right _ hp
      rw [eval_omega hx hpA] at h2
      exact (mul_ne_zero (hz p hp) (eval_sigma_ne hx hinj hpA)) h2
  have hc'c : c'.coeff 0 = 1 := by
    have := g.c0
    rw [hc', mul_coeff_zero, sigma_coeff_zero, one_mul] at this
    exact this
  have : c' = sigma x E := eq_sigma hx (hinj.mono (by simp)) hroot hc'c (by omega)
  have hc : c = sigma x (R ∪ E) := by rw [hc', this, hu]
  refine ⟨hc, ?_⟩
  have := g.deg
  rw [hc, sigma_natDegree hx, hcard] at this
  omega

/-- Converse direction: if the locator found has as many roots as the register length then the
magnitudes explain all the syndromes. -/
theorem explain {NR L : Nat} {s : Nat → F} {c : F[X]} (hx : ∀ p, x p ≠ 0) (hinj : Set.InjOn x A)
    (hc : c = sigma x A) (hL : L = A.card) (hLN : L ≤ NR)
    (hv : ∀ j, L ≤ j → j < NR → (c * synPoly s NR).coeff j = 0)
    (hz : ∀ p ∈ A, z p * (sigma x (A.erase p)).eval (x p)⁻¹ =
      ∑ i ∈ range L, (c * synPoly s NR).coeff i * (x p)⁻¹ ^ i) :
    ∀ i, i < NR → s i = ∑ p ∈ A, z p * x p ^ i := by
  let s' : Nat → F := fun i => ∑ p ∈ A, z p * x p ^ i
  obtain ⟨q, hq⟩ := key_eq (NR := NR) (s := s') (x := x) (z := z) (A := A) (fun i _ => rfl)
  let w : F[X] := ∑ i ∈ range L, monomial i ((c * synPoly s NR).coeff i)
  have hw : ∀ j, w.coeff j = if j < L then (c * synPoly s NR).coeff j else 0 := by
    intro j
    simp only [w, finsetSum_coeff, coeff_monomial, Finset.sum_ite_eq', mem_range]
  have heq : omega x z A = w := by
    by_cases h0 : L = 0
    · have : A = ∅ := by rw [← Finset.card_eq_zero]; omega
      subst h0
      simp [w, this, omega]
    rw [← sub_eq_zero]
    have hdvd := sigma_dvd (c := omega x z A - w) hx hinj (by
      intro p hp
      rw [eval_sub, eval_omega hx hp, hz p hp, sub_eq_zero]
      simp only [w, eval_finsetSum, eval_monomial])
    by_contra hne
    have h1 := natDegree_le_of_dvd hdvd hne
    rw [sigma_natDegree hx] at h1
    have h2 : (omega x z A - w).natDegree < L := by
      refine lt_of_le_of_lt (natDegree_sub_le _ _) (max_lt (omega_natDegree_lt hx (by omega) (by omega)) ?_)
      rw [Nat.lt_iff_le_pred (by omega), natDegree_le_iff_coeff_eq_zero]
      intro N hN
      rw [hw, if_neg (by omega)]
    omega
  -- c * (S - S') vanishes below NR
  have hz2 : ∀ j, j < NR → (c * (synPoly s NR - synPoly s' NR)).coeff j = 0 := by
    intro j hj
    rw [mul_sub, coeff_sub, sub_eq_zero]
    have : (c * synPoly s' NR).coeff j = (omega x z A).coeff j := by
      rw [hc]; exact coeff_of_key hq hj
    rw [this, heq, hw]
    split
    · rfl
    · exact hv j (by omega) hj
  have hsyn : ∀ (t : Nat → F) j, (synPoly t NR).coeff j = if j < NR then t j else 0 := by
    intro t j
    simp only [synPoly, finsetSum_coeff, coeff_monomial, Finset.sum_ite_eq', mem_range]
  intro i
  induction i using Nat.strong_induction_on with
  | _ i ih =>
    intro hi
    have h1 := hz2 i hi
    rw [coeff_mul, Finset.sum_eq_single (0, i)] at h1
    · dsimp only at h1
      rw [hc, sigma_coeff_zero, one_mul, coeff_sub, hsyn, hsyn, if_pos hi, if_pos hi, sub_eq_zero] at h1
      exact h1
    · rintro ⟨a, b⟩ hab hne
      rw [mem_antidiagonal] at hab
      dsimp only at hab ⊢
      have ha : a ≠ 0 := by rintro rfl; apply hne; simp at hab; rw [hab]
      rw [coeff_sub, hsyn, hsyn, if_pos (by omega), if_pos (by omega), ih b (by omega) (by omega)]
      simp [s']
    · intro h; simp at h

end Verif.RS
