import Mathlib.LinearAlgebra.Lagrange
import Mathlib.Tactic.FieldSimp
import Mathlib.Tactic.Ring
import Mathlib.Tactic.LinearCombination
/- The inverse of a Cauchy matrix over a field. -/
namespace Verif.Cauchy
open Finset Polynomial

variable {F : Type*} [Field F]

/-- The formula in the comment of `inverse_cauchy_matrix`. -/
noncomputable def binv (n : Nat) (x y : Nat → F) (i j : Nat) : F :=
  ((∏ k ∈ range n, (x j + y k)) * ∏ k ∈ range n, (x k + y i)) /
    ((x j + y i) * (∏ k ∈ (range n).erase j, (x j - x k)) * ∏ k ∈ (range n).erase i, (y i - y k))

theorem binv_eq (n : Nat) (x y : Nat → F) (i j : Nat) : binv n x y i j =
    ((∏ k ∈ range n, (x k + y i)) * ∏ k ∈ range n, (x j + y k)) /
    ((x j + y i) * ((∏ k ∈ (range n).erase i, (y i - y k)) * ∏ k ∈ (range n).erase j, (x j - x k))) := by
  unfold binv
  congr 1 <;> ring

theorem prod_ne {s : Finset Nat} {f : Nat → F} (h : ∀ k ∈ s, f k ≠ 0) : ∏ k ∈ s, f k ≠ 0 := prod_ne_zero_iff.2 h

theorem cauchy_inv {n : Nat} {x y : Nat → F} (hx : Set.InjOn x (range n)) (hy : Set.InjOn y (range n))
    (hxy : ∀ j < n, ∀ k < n, x j + y k ≠ 0) {i l : Nat} (hi : i < n) (hl : l < n) :
    ∑ j ∈ range n, binv n x y i j * (x j + y l)⁻¹ = if i = l then 1 else 0 := by
  have hi' := mem_range.2 hi
  have hl' := mem_range.2 hl
  have hn : (range n).Nonempty := ⟨i, hi'⟩
  have hPy : ∏ k ∈ (range n).erase i, (y i - y k) ≠ 0 := prod_ne fun k hk => by
    rw [mem_erase] at hk
    exact sub_ne_zero.2 fun h => hk.1 (hy hk.2 hi' h.symm)
  have hPx : ∀ j ∈ range n, ∏ k ∈ (range n).erase j, (x j - x k) ≠ 0 := fun j hj => prod_ne fun k hk => by
    rw [mem_erase] at hk
    exact sub_ne_zero.2 fun h => hk.1 (hx hk.2 hj h.symm)
  by_cases hil : i = l
  · subst hil
    rw [if_pos rfl]
    -- interpolation of `∏_{k ≠ i} (X + y k)` at `- y i`
    set q : F[X] := ∏ k ∈ (range n).erase i, (X + C (y k)) with hq
    have hqd : q.degree < (range n).card := by
      rw [hq, degree_prod]
      simp only [degree_X_add_C, sum_const, nsmul_eq_mul, mul_one, card_erase_of_mem hi', card_range]
      exact_mod_cast (by omega : n - 1 < n)
    have hne : ∀ j ∈ range n, -(y i) ≠ x j := fun j hj h => by
      apply hxy j (mem_range.1 hj) i hi
      rw [← h]; ring
    have h1 := Lagrange.eval_interpolate_not_at_node (s := range n) (v := x) (fun j => q.eval (x j)) hne
    rw [← Lagrange.eq_interpolate hx hqd, Lagrange.eval_nodal] at h1
    have hq1 : q.eval (-(y i)) = ∏ k ∈ (range n).erase i, (-1 : F) * (y i - y k) := by
      rw [hq, eval_prod]
      refine prod_congr rfl fun k _ => ?_
      rw [eval_add, eval_X, eval_C]; ring
    have hN1 : ∏ j ∈ range n, (-(y i) - x j) = ∏ j ∈ range n, (-1 : F) * (x j + y i) :=
      prod_congr rfl fun k _ => by ring
    rw [hq1, hN1, prod_mul_distrib, prod_mul_distrib, prod_const, prod_const, card_erase_of_mem hi', card_range] at h1
    have hpow : ((-1 : F)) ^ n = -((-1 : F) ^ (n - 1)) := by
      conv_lhs => rw [show n = (n - 1) + 1 by omega]
      rw [pow_succ]; ring
    have hp1 : ((-1 : F)) ^ (n - 1) ≠ 0 := pow_ne_zero _ (by simp)
    rw [hpow] at h1
    have h2 : ∏ k ∈ (range n).erase i, (y i - y k) = (∏ k ∈ range n, (x k + y i)) *
        ∑ j ∈ range n, (∏ k ∈ (range n).erase i, (x j + y k)) / ((x j + y i) * ∏ k ∈ (range n).erase j, (x j - x k)) := by
      have : ∑ j ∈ range n, Lagrange.nodalWeight (range n) x j * (-(y i) - x j)⁻¹ * q.eval (x j) =
          - ∑ j ∈ range n, (∏ k ∈ (range n).erase i, (x j + y k)) / ((x j + y i) * ∏ k ∈ (range n).erase j, (x j - x k)) := by
        rw [← sum_neg_distrib]
        refine sum_congr rfl fun j hj => ?_
        have e1 : q.eval (x j) = ∏ k ∈ (range n).erase i, (x j + y k) := by
          rw [hq, eval_prod]
          exact prod_congr rfl fun k _ => by rw [eval_add, eval_X, eval_C]
        rw [e1, Lagrange.nodalWeight, prod_inv_distrib]
        have h3 := hxy j (mem_range.1 hj) i hi
        have h4 : -(y i) - x j ≠ 0 := fun h => h3 (by linear_combination -h)
        have h5 := hPx j hj
        rw [show -(y i) - x j = -(x j + y i) by ring, inv_neg]
        field_simp
      rw [this] at h1
      apply mul_left_cancel₀ hp1
      linear_combination h1
    calc ∑ j ∈ range n, binv n x y i j * (x j + y i)⁻¹
        = ((∏ k ∈ range n, (x k + y i)) * ∑ j ∈ range n, (∏ k ∈ (range n).erase i, (x j + y k)) /
            ((x j + y i) * ∏ k ∈ (range n).erase j, (x j - x k))) / ∏ k ∈ (range n).erase i, (y i - y k) := by
          rw [mul_sum, div_eq_mul_inv, sum_mul]
          refine sum_congr rfl fun j hj => ?_
          have h3 := hxy j (mem_range.1 hj) i hi
          have h5 := hPx j hj
          unfold binv
          rw [← mul_prod_erase (range n) (fun k => x j + y k) hi']
          field_simp
      _ = 1 := by rw [← h2, div_self hPy]
  · rw [if_neg hil]
    set q : F[X] := ∏ k ∈ ((range n).erase i).erase l, (X + C (y k)) with hq
    have hl2 : l ∈ (range n).erase i := mem_erase.2 ⟨fun h => hil h.symm, hl'⟩
    have hqn : q.natDegree = n - 1 - 1 := by
      rw [hq, natDegree_prod _ _ fun k _ => X_add_C_ne_zero _]
      simp only [natDegree_X_add_C, sum_const, smul_eq_mul, mul_one, card_erase_of_mem hl2, card_erase_of_mem hi', card_range]
    have hn2 : 1 < n := by omega
    have hqd : q.degree < (range n).card := by
      refine lt_of_le_of_lt degree_le_natDegree ?_
      rw [hqn, card_range]
      exact_mod_cast (by omega : n - 1 - 1 < n)
    have h1 := Lagrange.coeff_eq_sum (s := range n) (v := x) hx hqd
    rw [card_range, coeff_eq_zero_of_natDegree_lt (by omega)] at h1
    calc ∑ j ∈ range n, binv n x y i j * (x j + y l)⁻¹
        = ((∏ k ∈ range n, (x k + y i)) / ∏ k ∈ (range n).erase i, (y i - y k)) *
            ∑ j ∈ range n, q.eval (x j) / ∏ k ∈ (range n).erase j, (x j - x k) := by
          rw [mul_sum]
          refine sum_congr rfl fun j hj => ?_
          have h3 := hxy j (mem_range.1 hj) i hi
          have h4 := hxy j (mem_range.1 hj) l hl
          have h5 := hPx j hj
          have e1 : q.eval (x j) = ∏ k ∈ ((range n).erase i).erase l, (x j + y k) := by
            rw [hq, eval_prod]
            exact prod_congr rfl fun k _ => by rw [eval_add, eval_X, eval_C]
          unfold binv
          rw [e1, ← mul_prod_erase (range n) (fun k => x j + y k) hi', ← mul_prod_erase ((range n).erase i) (fun k => x j + y k) hl2]
          field_simp
      _ = 0 := by rw [← h1, mul_zero]

/-- Decoding a linear combination: the weights of row `i` give back the `i`-th unknown. -/
theorem cauchy_solve {n : Nat} {x y : Nat → F} (hx : Set.InjOn x (range n)) (hy : Set.InjOn y (range n))
    (hxy : ∀ j < n, ∀ k < n, x j + y k ≠ 0) {i : Nat} (hi : i < n) (d : Nat → F) :
    ∑ j ∈ range n, binv n x y i j * ∑ k ∈ range n, (x j + y k)⁻¹ * d k = d i := by
  calc ∑ j ∈ range n, binv n x y i j * ∑ k ∈ range n, (x j + y k)⁻¹ * d k
      = ∑ k ∈ range n, (∑ j ∈ range n, binv n x y i j * (x j + y k)⁻¹) * d k := by
        simp only [mul_sum, sum_mul]
        rw [sum_comm]
        exact sum_congr rfl fun k _ => sum_congr rfl fun j _ => by ring
    _ = ∑ k ∈ range n, (if i = k then 1 else 0) * d k :=
        sum_congr rfl fun k hk => by rw [cauchy_inv hx hy hxy hi (mem_range.1 hk)]
    _ = d i := by
        simp only [ite_mul, one_mul, zero_mul]
        rw [sum_ite_eq, if_pos (mem_range.2 hi)]

end Verif.Cauchy
