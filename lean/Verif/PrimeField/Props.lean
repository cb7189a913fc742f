import Verif.PrimeField.Model
import Mathlib.FieldTheory.Finite.Basic
import Mathlib.Data.ZMod.Basic
import Mathlib.Algebra.Field.ZMod
import Mathlib.Tactic.NormNum.Prime
/- C21: the operators of PrimeField are the operations of `ZMod P`. -/
namespace Verif.PrimeField

/-- The template parameters are usable: `P` is a prime that fits in TYPE and so does the
product of two reduced values. -/
structure Fits (w P : Nat) : Prop where
  prime : P.Prime
  fits : P < 2 ^ w
  prod : (P - 1) * (P - 1) < 2 ^ w

variable {w P : Nat}

theorem mul_lt (h : Fits w P) {a b : Nat} (ha : a < P) (hb : b < P) : a * b < 2 ^ w :=
  lt_of_le_of_lt (Nat.mul_le_mul (by omega) (by omega)) h.prod

theorem add_lt (h : Fits w P) {a b : Nat} (ha : a < P) (hb : b < P) : a + b < 2 ^ w := by
  have h2 := h.prime.two_le
  by_cases h3 : P = 2
  · subst h3
    have hw : 2 ≤ w := by
      by_contra hc
      have : (2 : Nat) ^ w ≤ 2 ^ 1 := Nat.pow_le_pow_right (by norm_num) (by omega)
      have := h.fits; omega
    have : (2 : Nat) ^ 2 ≤ 2 ^ w := Nat.pow_le_pow_right (by norm_num) hw
    omega
  · have : 2 * (P - 1) ≤ (P - 1) * (P - 1) := Nat.mul_le_mul_right _ (by omega)
    have := h.prod; omega

/-- Results are reduced and correct: addition. -/
theorem C21_add (h : Fits w P) {a b : Nat} (ha : a < P) (hb : b < P) :
    opAdd w P a b < P ∧ (opAdd w P a b : ZMod P) = (a : ZMod P) + (b : ZMod P) := by
  unfold opAdd reduce add
  refine ⟨Nat.mod_lt _ h.prime.pos, ?_⟩
  rw [ZMod.natCast_mod, Nat.mod_eq_of_lt (add_lt h ha hb)]
  push_cast; rfl

theorem C21_sub (h : Fits w P) {a b : Nat} (ha : a < P) (hb : b < P) :
    opSub w P a b < P ∧ (opSub w P a b : ZMod P) = (a : ZMod P) - (b : ZMod P) := by
  have hf := h.fits
  unfold opSub reduce sub
  refine ⟨Nat.mod_lt _ h.prime.pos, ?_⟩
  rw [ZMod.natCast_mod, eq_sub_iff_add_eq]
  by_cases hab : a < b
  · rw [if_pos hab, show a + 2 ^ w - b + P = (a + P - b) + 2 ^ w by omega, Nat.add_mod_right,
      Nat.mod_eq_of_lt (by omega), ← Nat.cast_add, show a + P - b + b = a + P by omega]
    simp
  · rw [if_neg hab, show a + 2 ^ w - b + 0 = (a - b) + 2 ^ w by omega, Nat.add_mod_right,
      Nat.mod_eq_of_lt (by omega), ← Nat.cast_add, show a - b + b = a by omega]

theorem C21_neg (h : Fits w P) {a : Nat} (ha : a < P) :
    opNeg w P a < P ∧ (opNeg w P a : ZMod P) = -(a : ZMod P) := by
  have hf := h.fits
  unfold opNeg reduce neg
  refine ⟨Nat.mod_lt _ h.prime.pos, ?_⟩
  rw [ZMod.natCast_mod, eq_neg_iff_add_eq_zero, show P + 2 ^ w - a = (P - a) + 2 ^ w by omega,
    Nat.add_mod_right, Nat.mod_eq_of_lt (by omega), ← Nat.cast_add, show P - a + a = P by omega]
  simp

theorem C21_mul (h : Fits w P) {a b : Nat} (ha : a < P) (hb : b < P) :
    opMul w P a b < P ∧ (opMul w P a b : ZMod P) = (a : ZMod P) * (b : ZMod P) := by
  unfold opMul reduce mul
  refine ⟨Nat.mod_lt _ h.prime.pos, ?_⟩
  rw [ZMod.natCast_mod, Nat.mod_eq_of_lt (mul_lt h ha hb)]
  push_cast; rfl

theorem powLoop_spec (h : Fits w P) (m : Nat) : ∀ t a, t < P → a < P →
    powLoop w P t a m < P ∧ (powLoop w P t a m : ZMod P) = (t : ZMod P) * (a : ZMod P) ^ m := by
  induction m using Nat.strongRecOn with
  | _ m ih =>
    intro t a ht ha
    rw [powLoop]
    by_cases h0 : m = 0
    · subst h0; simp [ht]
    · rw [dif_neg h0]
      have haa := C21_mul h ha ha
      by_cases h1 : m % 2 = 1
      · rw [if_pos h1]
        have hta := C21_mul h ht ha
        obtain ⟨g1, g2⟩ := ih (m / 2) (by omega) _ _ hta.1 haa.1
        refine ⟨g1, ?_⟩
        rw [g2, hta.2, haa.2]
        conv => rhs; rw [show m = 2 * (m / 2) + 1 by omega]
        rw [pow_succ, pow_mul]; ring
      · rw [if_neg h1]
        obtain ⟨g1, g2⟩ := ih (m / 2) (by omega) _ _ ht haa.1
        refine ⟨g1, ?_⟩
        rw [g2, haa.2]
        conv => rhs; rw [show m = 2 * (m / 2) by omega]
        rw [pow_mul, pow_two]

theorem C21_pow (h : Fits w P) {a : Nat} (ha : a < P) (m : Nat) :
    pow w P a m < P ∧ (pow w P a m : ZMod P) = (a : ZMod P) ^ m := by
  have h2 := h.prime.two_le
  have hf := h.fits
  obtain ⟨g1, g2⟩ := powLoop_spec h m (1 % 2 ^ w) a (by rw [Nat.mod_eq_of_lt (by omega)]; omega) ha
  refine ⟨g1, ?_⟩
  unfold pow
  rw [g2, Nat.mod_eq_of_lt (show 1 < 2 ^ w by omega)]; simp

theorem C21_rcp (h : Fits w P) {a : Nat} (ha : a < P) (ha0 : a ≠ 0) :
    rcp w P a < P ∧ (a : ZMod P) * (rcp w P a : ZMod P) = 1 ∧ opMul w P a (rcp w P a) = 1 := by
  haveI : Fact P.Prime := ⟨h.prime⟩
  have h2 := h.prime.two_le
  have hf := h.fits
  have hm : (P + 2 ^ w - 2) % 2 ^ w = P - 2 := by
    rw [show P + 2 ^ w - 2 = (P - 2) + 2 ^ w by omega, Nat.add_mod_right, Nat.mod_eq_of_lt (by omega)]
  obtain ⟨g1, g2⟩ := C21_pow h ha (P - 2)
  have hne : (a : ZMod P) ≠ 0 := by
    rw [Ne, ZMod.natCast_eq_zero_iff]
    exact fun hd => ha0 (Nat.eq_zero_of_dvd_of_lt hd ha)
  have key : (a : ZMod P) * (rcp w P a : ZMod P) = 1 := by
    unfold rcp
    rw [hm, g2, ← pow_succ', show P - 2 + 1 = P - 1 by omega]
    exact ZMod.pow_card_sub_one_eq_one hne
  have hr : rcp w P a < P := by unfold rcp; rw [hm]; exact g1
  refine ⟨hr, key, ?_⟩
  obtain ⟨m1, m2⟩ := C21_mul h ha hr
  rw [key, ← Nat.cast_one (R := ZMod P), ZMod.natCast_eq_natCast_iff] at m2
  rw [← Nat.mod_eq_of_lt m1, m2, Nat.mod_eq_of_lt (by omega)]

/-- Division: field division of `ZMod P` for a non-zero divisor. -/
theorem C21_div (h : Fits w P) [Fact P.Prime] {a b : Nat} (ha : a < P) (hb : b < P) (hb0 : b ≠ 0) :
    opDiv w P a b < P ∧ (opDiv w P a b : ZMod P) = (a : ZMod P) / (b : ZMod P) := by
  obtain ⟨r1, r2, _⟩ := C21_rcp h hb hb0
  unfold opDiv reduce div mul
  refine ⟨Nat.mod_lt _ h.prime.pos, ?_⟩
  rw [ZMod.natCast_mod, Nat.mod_eq_of_lt (mul_lt h ha r1), Nat.cast_mul, div_eq_mul_inv,
    eq_inv_of_mul_eq_one_right r2]

/-- `==` on reduced values is equality in the field. -/
theorem C21_eq (h : Fits w P) {a b : Nat} (ha : a < P) (hb : b < P) :
    a = b ↔ (a : ZMod P) = (b : ZMod P) := by
  rw [ZMod.natCast_eq_natCast_iff, Nat.ModEq, Nat.mod_eq_of_lt ha, Nat.mod_eq_of_lt hb]

/-- The parameters used by the erasure code meet the hypotheses, and so do others. -/
example : Fits 32 257 := ⟨by norm_num, by norm_num, by norm_num⟩
example : Fits 8 13 := ⟨by norm_num, by norm_num, by norm_num⟩
example : Fits 2 2 := ⟨by norm_num, by norm_num, by norm_num⟩

/-- The width condition is needed: with 4 bits and `P = 13`, `12 * 12` wraps. -/
theorem C21_width_needed : opMul 4 13 12 12 ≠ (12 * 12) % 13 := by decide

end Verif.PrimeField
