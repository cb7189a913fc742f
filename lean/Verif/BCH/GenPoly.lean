import Verif.BCH.Model
import Verif.BCH.Spec
import Mathlib.Tactic.LinearCombination
/- The multiplication of the generator in place, as polynomials over GF(2). -/
namespace Verif.BCH
open Polynomial Finset Verif.GF2 Verif.Bits

theorem b2_xor (a b : Bool) : b2 (a ^^ b) = b2 a + b2 b := by
  cases a <;> cases b <;> decide

theorem b2_true : b2 true = 1 := rfl
theorem b2_false : b2 false = 0 := rfl
theorem z2 (a : ZMod 2) : a + a = 0 := by revert a; decide

theorem p2 (p : (ZMod 2)[X]) : p + p = 0 := by
  ext k; rw [coeff_add, coeff_zero]; exact z2 _

/-- The polynomial with coefficients `c 0 .. c (n-1)`. -/
noncomputable def poly (c : Nat → Bool) (n : Nat) : (ZMod 2)[X] := ∑ k ∈ range n, C (b2 (c k)) * X ^ k

theorem coeff_poly (c : Nat → Bool) (n k : Nat) : (poly c n).coeff k = if k < n then b2 (c k) else 0 := by
  unfold poly
  rw [finsetSum_coeff]
  simp only [coeff_C_mul, coeff_X_pow, mul_ite, mul_one, mul_zero]
  rw [Finset.sum_ite_eq]
  simp only [mem_range]

theorem poly_succ (c : Nat → Bool) (n : Nat) : poly c (n + 1) = poly c n + C (b2 (c n)) * X ^ n := by
  unfold poly; rw [Finset.sum_range_succ]

theorem natPoly_coeff (m k : Nat) : (natPoly m).coeff k = b2 (m.testBit k) := by
  rw [coeff_natPoly]; rfl

variable {σ : Type}

/-- A store whose valid states hold coefficients `0 .. NP`. -/
structure Lawful (S : Store σ) (NP : Nat) (Valid : σ → Prop) (coef : σ → Nat → Bool) : Prop where
  get : ∀ s i, Valid s → i ≤ NP → S.get s i = some (coef s i)
  set : ∀ s i v, Valid s → i ≤ NP → ∃ s', S.set s i v = some s' ∧ Valid s' ∧
    ∀ k, k ≤ NP → coef s' k = if k = i then v else coef s k
  xor : ∀ s i v, Valid s → i ≤ NP → ∃ s', S.xor s i v = some s' ∧ Valid s' ∧
    ∀ k, k ≤ NP → coef s' k = if k = i then (coef s i ^^ v) else coef s k

/-- The part of a polynomial from `X^n` upwards. -/
noncomputable def upper (c : Nat → Bool) (n N : Nat) : (ZMod 2)[X] := ∑ k ∈ Ico n N, C (b2 (c k)) * X ^ k

theorem upper_step (c : Nat → Bool) {n N : Nat} (h : n < N) : upper c n N = C (b2 (c n)) * X ^ n + upper c (n + 1) N := by
  unfold upper; rw [Finset.sum_eq_sum_Ico_succ_bot h]

theorem upper_mul_coeff (c : Nat → Bool) (n N : Nat) (q : (ZMod 2)[X]) {j : Nat} (h : j < n) :
    (upper c n N * q).coeff j = 0 := by
  unfold upper
  rw [Finset.sum_mul, finsetSum_coeff]
  refine Finset.sum_eq_zero fun k hk => ?_
  rw [Finset.mem_Ico] at hk
  rw [mul_assoc, coeff_C_mul, coeff_X_pow_mul', if_neg (by omega), mul_zero]

theorem poly_upper (c : Nat → Bool) (N : Nat) : poly c N = upper c 0 N := by
  unfold poly upper; rw [Finset.range_eq_Ico]

variable {S : Store σ} {NP : Nat} {Valid : σ → Prop} {coef : σ → Nat → Bool}

/-- Adding `X^j * m` and removing `X^j`. -/
theorem mulStep_ok (L : Lawful S NP Valid coef) {m md j : Nat} {s : σ} (hv : Valid s) (hm : m < 2 ^ (md + 1))
    (hj : j + md ≤ NP) (hc : coef s j = true) :
    Ok (do
      let g ← S.set s j (m.testBit 0)
      forUp 1 (md + 1) g fun t g => S.xor g (j + t) (m.testBit t)) (fun s' => Valid s' ∧
      poly (coef s') (NP + 1) = poly (coef s) (NP + 1) + X ^ j * natPoly m + X ^ j) := by
  have hbit : ∀ t, md < t → m.testBit t = false := fun t ht =>
    Nat.testBit_lt_two_pow (lt_of_lt_of_le hm (Nat.pow_le_pow_right (by norm_num) (by omega)))
  obtain ⟨s1, h1, hv1, hc1⟩ := L.set s j (m.testBit 0) hv (by omega)
  rw [h1]
  refine Ok.mono (forUp_inv (fun t g => Valid g ∧ ∀ k, k ≤ NP → coef g k =
    if k = j then m.testBit 0 else if j < k ∧ k < j + t then (coef s k ^^ m.testBit (k - j)) else coef s k)
    (by omega) ⟨hv1, ?_⟩ ?_) ?_
  · intro k hk
    rw [hc1 k hk]
    by_cases h : k = j
    · simp [h]
    · rw [if_neg h, if_neg h, if_neg (by omega)]
  · rintro t g ht1 ht2 ⟨hvg, hcg⟩
    obtain ⟨g', hg', hvg', hcg'⟩ := L.xor g (j + t) (m.testBit t) hvg (by omega)
    refine ⟨g', hg', hvg', ?_⟩
    intro k hk
    rw [hcg' k hk]
    by_cases h : k = j + t
    · subst h
      rw [if_pos rfl, hcg _ hk, if_neg (by omega), if_neg (by omega), if_neg (by omega), if_pos (by omega),
        Nat.add_sub_cancel_left]
    · rw [if_neg h, hcg k hk]
      by_cases h2 : k = j
      · rw [if_pos h2, if_pos h2]
      · rw [if_neg h2, if_neg h2]
        by_cases h3 : j < k ∧ k < j + t
        · rw [if_pos h3, if_pos (by omega)]
        · rw [if_neg h3, if_neg (by omega)]
  · rintro g ⟨hvg, hcg⟩
    refine ⟨hvg, ?_⟩
    ext k
    rw [coeff_add, coeff_add, coeff_poly, coeff_poly, coeff_X_pow_mul', coeff_X_pow, natPoly_coeff]
    by_cases hk : k < NP + 1
    · rw [if_pos hk, if_pos hk, hcg k (by omega)]
      by_cases h : k = j
      · subst h
        rw [if_pos rfl, if_pos rfl, if_pos le_rfl, hc, Nat.sub_self, b2_true]
        have := z2 1
        linear_combination -this
      · rw [if_neg h, if_neg h, add_zero]
        by_cases h3 : j < k
        · rw [if_pos (show j ≤ k by omega)]
          by_cases h4 : k < j + (md + 1)
          · rw [if_pos ⟨h3, h4⟩, b2_xor]
          · rw [if_neg (by omega), hbit _ (by omega), b2_false, add_zero]
        · rw [if_neg (by omega), if_neg (by omega), add_zero]
    · rw [if_neg hk, if_neg hk, if_pos (by omega), if_neg (by omega), hbit _ (by omega), b2_false, add_zero, add_zero]

theorem mulGen_ok (L : Lawful S NP Valid coef)
    {m gd md : Nat} {s : σ} (hv : Valid s) (hm : m < 2 ^ (md + 1)) (hgd : gd + md ≤ NP + 1)
    (hz : ∀ k, gd ≤ k → k ≤ NP → coef s k = false)
    (htop : gd ≤ NP ∨ ∀ s, Valid s → S.get s (NP + 1) = some false) :
    Ok (mulGen S m gd md s) (fun s' => Valid s' ∧ poly (coef s') (NP + 1) = poly (coef s) (NP + 1) * natPoly m) := by
  unfold mulGen
  have htop' : S.get s gd = some false := by
    by_cases h : gd ≤ NP
    · rw [L.get s gd hv h, hz gd le_rfl h]
    · rw [show gd = NP + 1 by omega]
      exact htop.resolve_left h s hv
  unfold forDown
  rw [Nat.zero_add]
  dsimp only
  rw [htop']
  dsimp only [Option.bind_eq_bind, Option.bind_some, if_true, Option.pure_def]
  rw [if_pos rfl, Option.bind_some]
  set g := coef s with hg
  refine Ok.mono (forDown_inv (lo := 0) (fun n s' => Valid s' ∧
    poly (coef s') (NP + 1) = upper g n (NP + 1) * natPoly m + poly g n) gd s ⟨hv, ?_⟩ ?_) ?_
  · have : upper g gd (NP + 1) = 0 := by
      unfold upper
      refine Finset.sum_eq_zero fun k hk => ?_
      rw [Finset.mem_Ico] at hk
      rw [hz k hk.1 (by omega), b2_false, C_0, zero_mul]
    rw [this, zero_mul, zero_add]
    ext k
    rw [coeff_poly, coeff_poly]
    by_cases h1 : k < gd
    · rw [if_pos h1, if_pos (by omega)]
    · rw [if_neg h1]
      split
      · rw [← hg, hz k (by omega) (by omega), b2_false]
      · rfl
  · rintro j s' hj ⟨hv', hp⟩
    rw [Nat.zero_add]
    have hcj : coef s' j = g j := by
      have := congrArg (fun p => p.coeff j) hp
      rw [coeff_add, coeff_poly, upper_mul_coeff _ _ _ _ (by omega), zero_add, coeff_poly, if_pos (by omega),
        if_pos (by omega)] at this
      cases h1 : coef s' j <;> cases h2 : g j <;> rw [h1, h2] at this <;> first | rfl | exact absurd this (by decide)
    rw [L.get s' j hv' (by omega), Option.bind_some, hcj]
    rw [upper_step g (show j < NP + 1 by omega)]
    rw [poly_succ g j] at hp
    cases hgj : g j with
    | false =>
      rw [if_pos rfl]
      refine Ok.some ⟨hv', ?_⟩
      rw [hp, hgj, b2_false, C_0, zero_mul, zero_add, add_zero]
    | true =>
      rw [if_neg (by simp)]
      refine (mulStep_ok L hv' hm (by omega) (by rw [hcj, hgj])).mono ?_
      rintro s'' ⟨hv'', hp''⟩
      refine ⟨hv'', ?_⟩
      rw [hp'', hp, hgj, b2_true, C_1, one_mul]
      have := p2 (X ^ j : (ZMod 2)[X])
      linear_combination this
  · rintro s' ⟨hv', hp⟩
    refine ⟨hv', ?_⟩
    rw [hp, poly_upper g (NP + 1)]
    simp [poly]

end Verif.BCH
