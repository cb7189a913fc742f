import Mathlib.Algebra.Polynomial.Eval.Coeff
import Mathlib.Algebra.Polynomial.AlgebraMap
import Mathlib.Algebra.Field.ZMod
import Mathlib.Data.Nat.Bitwise
import Mathlib.Data.Nat.Size
import Mathlib.Algebra.CharP.Two
/-
Binary polynomials as natural numbers: bit `i` of `a` is the coefficient of `X^i`.
This file is specification and proof infrastructure, not a model of code.
-/
namespace Verif.GF2
open Polynomial

/-- The binary polynomial whose coefficient at `X^i` is bit `i` of `a`. -/
noncomputable def natPoly (a : Nat) : (ZMod 2)[X] :=
  ∑ i ∈ Finset.range a.size, if a.testBit i then X ^ i else 0

theorem coeff_natPoly (a i : Nat) : (natPoly a).coeff i = if a.testBit i then 1 else 0 := by
  unfold natPoly
  rw [finset_sum_coeff]
  have : ∀ j ∈ Finset.range a.size, (if a.testBit j then (X : (ZMod 2)[X]) ^ j else 0).coeff i =
      if j = i then (if a.testBit i then 1 else 0) else 0 := by
    intro j _
    by_cases h : j = i
    · subst h; split <;> simp
    · rw [if_neg h]
      split
      · rw [coeff_X_pow, if_neg (Ne.symm h)]
      · simp
  rw [Finset.sum_congr rfl this, Finset.sum_ite_eq']
  by_cases h : i < a.size
  · simp [h]
  · have : a.testBit i = false := by
      apply Nat.testBit_eq_false_of_lt
      exact lt_of_lt_of_le (Nat.lt_size_self a) (Nat.pow_le_pow_right (by norm_num) (by omega))
    simp [this]

theorem natPoly_xor (a b : Nat) : natPoly (a ^^^ b) = natPoly a + natPoly b := by
  ext i
  rw [coeff_add, coeff_natPoly, coeff_natPoly, coeff_natPoly, Nat.testBit_xor]
  cases a.testBit i <;> cases b.testBit i <;> simp
  exact (CharTwo.add_self_eq_zero (R := ZMod 2) 1).symm

theorem natPoly_zero : natPoly 0 = 0 := by ext i; simp [coeff_natPoly]

theorem natPoly_one : natPoly 1 = 1 := by
  ext i
  rw [coeff_natPoly, coeff_one]
  by_cases h : i = 0
  · subst h; simp
  · rw [if_neg h, if_neg]; simp [Nat.testBit_one_eq_true_iff_self_eq_zero]; exact h

theorem natPoly_shiftLeft (a n : Nat) : natPoly (a <<< n) = X ^ n * natPoly a := by
  ext i
  rw [coeff_natPoly, coeff_X_pow_mul', coeff_natPoly, Nat.testBit_shiftLeft]
  by_cases h : n ≤ i
  · simp [h]
  · simp [h]

theorem natPoly_two_mul (a : Nat) : natPoly (2 * a) = X * natPoly a := by
  have := natPoly_shiftLeft a 1
  rw [Nat.shiftLeft_eq, pow_one, pow_one, Nat.mul_comm] at this
  exact this

theorem natPoly_two_pow (n : Nat) : natPoly (2 ^ n) = X ^ n := by
  have := natPoly_shiftLeft 1 n
  rw [Nat.shiftLeft_eq, one_mul, natPoly_one, mul_one] at this
  exact this

theorem natPoly_injective : Function.Injective natPoly := by
  intro a b h
  apply Nat.eq_of_testBit_eq
  intro i
  have := congrArg (fun p => p.coeff i) h
  simp only [coeff_natPoly] at this
  cases ha : a.testBit i <;> cases hb : b.testBit i <;> simp_all

theorem natPoly_eq_zero {a : Nat} : natPoly a = 0 ↔ a = 0 := by
  rw [← natPoly_zero, natPoly_injective.eq_iff]

theorem degree_natPoly_lt {a n : Nat} (h : a < 2 ^ n) : (natPoly a).degree < n := by
  rw [degree_lt_iff_coeff_zero]
  intro m hm
  rw [coeff_natPoly, Nat.testBit_eq_false_of_lt]
  · simp
  · exact lt_of_lt_of_le h (Nat.pow_le_pow_right (by norm_num) hm)

theorem lt_of_degree_natPoly_lt {a n : Nat} (h : (natPoly a).degree < n) : a < 2 ^ n := by
  rw [degree_lt_iff_coeff_zero] at h
  apply Nat.lt_pow_two_of_testBit
  intro i hi
  have := h i hi
  rw [coeff_natPoly] at this
  by_contra hc
  simp at hc; simp [hc] at this

theorem natDegree_natPoly {a n : Nat} (h1 : 2 ^ n ≤ a) (h2 : a < 2 ^ (n + 1)) :
    (natPoly a).natDegree = n := by
  apply le_antisymm
  · have := degree_natPoly_lt h2
    by_contra hc
    have hne : natPoly a ≠ 0 := by intro h; rw [h] at hc; simp at hc
    rw [degree_eq_natDegree hne] at this
    have : (natPoly a).natDegree < n + 1 := by exact_mod_cast this
    omega
  · apply le_natDegree_of_ne_zero
    rw [coeff_natPoly]
    have : a.testBit n = true := by
      by_contra hc
      have : a < 2 ^ n := by
        apply Nat.lt_pow_two_of_testBit
        intro i hi
        by_cases hin : i = n
        · subst hin; simpa using hc
        · apply Nat.testBit_eq_false_of_lt
          exact lt_of_lt_of_le h2 (Nat.pow_le_pow_right (by norm_num) (by omega))
      omega
    simp [this]

/-- Every binary polynomial is a `natPoly`. -/
theorem exists_natPoly (p : (ZMod 2)[X]) : ∃ a, natPoly a = p := by
  induction p using Polynomial.induction_on' with
  | add p q hp hq =>
    obtain ⟨a, rfl⟩ := hp; obtain ⟨b, rfl⟩ := hq
    exact ⟨a ^^^ b, natPoly_xor a b⟩
  | monomial n c =>
    have : c = 0 ∨ c = 1 := by revert c; decide
    rcases this with rfl | rfl
    · exact ⟨0, by simp [natPoly_zero]⟩
    · exact ⟨2 ^ n, by rw [natPoly_two_pow, ← monomial_one_right_eq_X_pow]⟩

theorem natPoly_half (a : Nat) :
    natPoly a = X * natPoly (a / 2) + if a.testBit 0 then 1 else 0 := by
  have h : a = (2 * (a / 2)) ^^^ (a % 2) := by
    apply Nat.eq_of_testBit_eq
    intro i
    cases i with
    | zero => simp
    | succ i =>
      rw [Nat.testBit_xor, Nat.testBit_succ, Nat.testBit_succ,
        Nat.testBit_succ, Nat.mul_div_cancel_left _ (by norm_num)]
      have : a % 2 / 2 = 0 := by omega
      simp [this]
  conv => lhs; rw [h]
  rw [natPoly_xor, natPoly_two_mul]
  congr 1
  rcases Nat.mod_two_eq_zero_or_one a with h | h
  · rw [h, natPoly_zero]; simp [h]
  · rw [h, natPoly_one]; simp [h]

end Verif.GF2
