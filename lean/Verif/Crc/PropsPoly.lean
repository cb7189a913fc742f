import Verif.Crc.Props
import Verif.GF2.Period
import Mathlib.RingTheory.AdjoinRoot
import Mathlib.Algebra.Polynomial.Div
import Mathlib.GroupTheory.OrderOfElement
import Mathlib.Tactic.Ring
import Mathlib.Tactic.NormNum.Prime
import Mathlib.Tactic.LinearCombination
/-
Property C64 (crc.hh): the register is the remainder of a polynomial division, and what follows
for error patterns that are no bursts.
-/
namespace Verif.Crc
open Polynomial
variable {w : Nat}

/-! ### Specification -/

/-- The generator polynomial: `X^w` and, in bit `i` of the (reflected) constant, `X^(w-1-i)`. -/
noncomputable def genPoly (poly : BitVec w) : (ZMod 2)[X] :=
  X ^ w + ∑ i ∈ Finset.range w, if poly.getLsbD i then X ^ (w - 1 - i) else 0

/-- A register as a polynomial: bit `i` is the coefficient of `X^(w-1-i)`. -/
noncomputable def regPoly (s : BitVec w) : (ZMod 2)[X] :=
  ∑ i ∈ Finset.range w, if s.getLsbD i then X ^ (w - 1 - i) else 0

/-- A string of bits as a polynomial: the first bit is the coefficient of the highest power. -/
noncomputable def msgPoly (bits : List Bool) : (ZMod 2)[X] :=
  ∑ j ∈ Finset.range bits.length, if bits.getD j false then X ^ (bits.length - 1 - j) else 0

/-- The data a call feeds. -/
def Op.bits : Op w → List Bool
  | .reset _ => []
  | .get => []
  | .bit d => [d]
  | .byte d => bitsLE d
  | .word16 d => bitsLE d
  | .word32 d => bitsLE d
  | .word64 d => bitsLE d

/-- The call is no `reset`. -/
def Op.noReset : Op w → Bool
  | .reset _ => false
  | _ => true

/-! ### Proof -/

theorem coeff_regPoly (s : BitVec w) (k : Nat) :
    (regPoly s).coeff k = if k < w ∧ s.getLsbD (w - 1 - k) = true then 1 else 0 := by
  unfold regPoly
  rw [finset_sum_coeff]
  by_cases hk : k < w
  · rw [Finset.sum_eq_single (w - 1 - k)]
    · have : w - 1 - (w - 1 - k) = k := by omega
      by_cases hb : s.getLsbD (w - 1 - k) = true
      · simp [hb, hk, this]
      · simp [hb]
    · intro j hj hne
      rw [Finset.mem_range] at hj
      split
      · rw [coeff_X_pow, if_neg (by omega)]
      · simp
    · intro h; exact absurd (Finset.mem_range.2 (by omega)) h
  · rw [if_neg (fun h => hk h.1)]
    apply Finset.sum_eq_zero
    intro j hj
    rw [Finset.mem_range] at hj
    split
    · rw [coeff_X_pow, if_neg (by omega)]
    · simp

theorem genPoly_eq (p : BitVec w) : genPoly p = X ^ w + regPoly p := rfl

theorem degree_regPoly (s : BitVec w) : (regPoly s).degree < w := by
  rw [degree_lt_iff_coeff_zero]
  intro k hk
  rw [coeff_regPoly, if_neg (by omega)]

theorem monic_genPoly (p : BitVec w) : (genPoly p).Monic := by
  rw [genPoly_eq]; exact monic_X_pow_add (degree_regPoly p)

theorem degree_genPoly (p : BitVec w) : (genPoly p).degree = w := by
  rw [genPoly_eq, degree_add_eq_left_of_degree_lt] <;> rw [degree_X_pow]
  exact degree_regPoly p

theorem two_eq_zero : (2 : ZMod 2) = 0 := by decide

theorem getLsbD_specBit (p s : BitVec w) (d : Bool) (i : Nat) :
    (specBit p s d).getLsbD i = (s.getLsbD (i + 1) ^^ ((s.getLsbD 0 ^^ d) && p.getLsbD i)) := by
  unfold specBit
  cases h0 : s.getLsbD 0 <;> cases d <;> simp [Nat.add_comm]

/-- The arithmetic of one step. -/
theorem regPoly_specBit (hw : 0 < w) (p s : BitVec w) (d : Bool) :
    regPoly (specBit p s d) = X * regPoly s + (if d then X ^ w else 0) +
      (if s.getLsbD 0 ≠ d then genPoly p else 0) := by
  ext k
  rw [coeff_regPoly, coeff_add, coeff_add]
  have hg : (if s.getLsbD 0 ≠ d then genPoly p else 0).coeff k =
      if (s.getLsbD 0 ^^ d) = true then (if k = w then 1 else 0) + (regPoly p).coeff k else 0 := by
    cases h0 : s.getLsbD 0 <;> cases d <;> simp [genPoly_eq, coeff_X_pow]
  have hd : (if d then X ^ w else (0 : (ZMod 2)[X])).coeff k = if d = true ∧ k = w then 1 else 0 := by
    cases d <;> simp [coeff_X_pow]
  rw [hg, hd, coeff_regPoly, getLsbD_specBit]
  cases k with
  | zero =>
    rw [coeff_X_mul_zero, BitVec.getLsbD_of_ge s _ (by omega)]
    have e1 : ¬ (0 = w) := by omega
    simp only [e1, and_false, if_false, zero_add, hw, true_and, Bool.false_xor]
    cases (s.getLsbD 0 ^^ d) <;> simp
  | succ k =>
    rw [coeff_X_mul, coeff_regPoly]
    rcases Nat.lt_trichotomy (k + 1) w with h | h | h
    · have e1 : w - 1 - (k + 1) + 1 = w - 1 - k := by omega
      have e2 : ¬ (k + 1 = w) := by omega
      have e3 : k < w := by omega
      simp only [e1, e2, e3, h, and_false, if_false, zero_add, add_zero, true_and]
      cases s.getLsbD (w - 1 - k) <;> cases (s.getLsbD 0 ^^ d) <;> cases p.getLsbD (w - 1 - (k + 1)) <;> decide
    · have e1 : w - 1 - k = 0 := by omega
      have e3 : k < w := by omega
      have e5 : ¬ (w < w) := lt_irrefl w
      simp only [e1, e3, e5, h, false_and, if_false, true_and, if_true, and_true, add_zero]
      cases s.getLsbD 0 <;> cases d <;> decide
    · have e2 : ¬ (k + 1 = w) := by omega
      have e3 : ¬ (k < w) := by omega
      have e4 : ¬ (k + 1 < w) := by omega
      simp [e2, e3, e4]

theorem msgPoly_cons (b : Bool) (l : List Bool) :
    msgPoly (b :: l) = (if b then X ^ l.length else 0) + msgPoly l := by
  unfold msgPoly
  rw [List.length_cons, Finset.sum_range_succ', add_comm]
  congr 1
  apply Finset.sum_congr rfl
  intro j hj
  rw [Finset.mem_range] at hj
  have : l.length + 1 - 1 - (j + 1) = l.length - 1 - j := by omega
  rw [this, List.getD_cons_succ]

theorem regPoly_dvd (hw : 0 < w) (p : BitVec w) : ∀ (l : List Bool) (s : BitVec w),
    genPoly p ∣ (regPoly s * X ^ l.length + msgPoly l * X ^ w) - regPoly (specBits p s l)
  | [], s => by simp [specBits, msgPoly]
  | b :: l, s => by
    have ih := regPoly_dvd hw p l (specBit p s b)
    have hs := regPoly_specBit hw p s b
    have e : specBits p s (b :: l) = specBits p (specBit p s b) l := rfl
    rw [e, msgPoly_cons, List.length_cons]
    obtain ⟨q, hq⟩ := ih
    refine ⟨q - (if s.getLsbD 0 ≠ b then X ^ l.length else 0), ?_⟩
    rw [mul_sub, ← hq, hs]
    by_cases hb : s.getLsbD 0 ≠ b
    · rw [if_pos hb, if_pos hb]
      cases b
      · simp; ring
      · simp; ring
    · rw [if_neg hb, if_neg hb]
      cases b
      · simp; ring
      · simp; ring

/-- **C64.** The register after any string of bits, from any start value, is the remainder of the
message, shifted by the register's width, plus the start value in front of it, divided by the
generator polynomial. -/
theorem C64_remainder (hw : 0 < w) (poly init : BitVec w) (bits : List Bool) :
    regPoly (specBits poly init bits) =
      (msgPoly bits * X ^ w + regPoly init * X ^ bits.length) %ₘ genPoly poly := by
  obtain ⟨q, hq⟩ := regPoly_dvd hw poly bits init
  refine ((div_modByMonic_unique q (regPoly (specBits poly init bits)) (monic_genPoly poly) ⟨?_, ?_⟩).2).symm
  · rw [← hq]; ring
  · rw [degree_genPoly]; exact degree_regPoly _

theorem specRun_noReset (p : BitVec w) : ∀ (ops : List (Op w)) (s : BitVec w), (∀ o ∈ ops, o.noReset = true) →
    (specRun p s ops).1 = specBits p s (ops.flatMap Op.bits)
  | [], s, _ => rfl
  | o :: os, s, h => by
    have ih := specRun_noReset p os (specCall p s o).1 fun x hx => h x (List.mem_cons_of_mem _ hx)
    rw [List.flatMap_cons, specBits_append]
    have ho := h o List.mem_cons_self
    rw [show (specRun p s (o :: os)).1 = (specRun p (specCall p s o).1 os).1 from rfl, ih]
    cases o <;> first | rfl | simp [Op.noReset] at ho

/-- **C64** on the model: bits, bytes and words in any mixture. -/
theorem C64_object (hw : 8 ≤ w) (poly init : BitVec w) (ops : List (Op w)) (hops : ∀ o ∈ ops, o.noReset = true) :
    ∃ c c' outs, CRC.new poly init = some c ∧ c.run ops = some (c', outs) ∧
      regPoly c'.value = (msgPoly (ops.flatMap Op.bits) * X ^ w +
        regPoly init * X ^ (ops.flatMap Op.bits).length) %ₘ genPoly poly := by
  obtain ⟨c, hc, c', outs, hr, hv, _⟩ := C01_crc_calls_are_bit_serial hw poly init ops
  refine ⟨c, c', outs, hc, hr, ?_⟩
  rw [hv, specRun_noReset _ _ _ hops, C64_remainder (by omega)]

theorem regPoly_injective : Function.Injective (regPoly (w := w)) := by
  intro a b h
  apply BitVec.eq_of_getLsbD_eq
  intro i hi
  have := congrArg (fun q => q.coeff (w - 1 - i)) h
  simp only [coeff_regPoly] at this
  have e1 : w - 1 - i < w := by omega
  have e2 : w - 1 - (w - 1 - i) = i := by omega
  simp only [e1, e2, true_and] at this
  cases ha : a.getLsbD i <;> cases hb : b.getLsbD i <;> simp [ha, hb] at this ⊢

theorem genPoly_coeff_zero (hw : 0 < w) (p : BitVec w) (hp : p.msb = true) : (genPoly p).coeff 0 = 1 := by
  rw [genPoly_eq, coeff_add, coeff_X_pow, if_neg (by omega), coeff_regPoly, zero_add]
  rw [BitVec.msb_eq_getLsbD_last] at hp
  simp [hw, hp]

theorem coprime_X (hw : 0 < w) (p : BitVec w) (hp : p.msb = true) : IsCoprime (genPoly p) (X : (ZMod 2)[X]) := by
  have h := genPoly_coeff_zero hw p hp
  refine ⟨1, -(genPoly p).divX, ?_⟩
  have := divX_mul_X_add (genPoly p)
  rw [h, C_1] at this
  linear_combination -this

/-- **C64**, which errors are detected: two strings of the same length end in the same register
exactly when their difference is a multiple of the generator polynomial. -/
theorem C64_undetected_iff (hw : 0 < w) (poly init : BitVec w) (hp : poly.msb = true) (a b : List Bool)
    (hlen : a.length = b.length) :
    specBits poly init a = specBits poly init b ↔ genPoly poly ∣ msgPoly a - msgPoly b := by
  have ha := regPoly_dvd hw poly a init
  have hb := regPoly_dvd hw poly b init
  have hab := dvd_sub ha hb
  have e : regPoly init * X ^ a.length + msgPoly a * X ^ w - regPoly (specBits poly init a) -
      (regPoly init * X ^ b.length + msgPoly b * X ^ w - regPoly (specBits poly init b)) =
      (msgPoly a - msgPoly b) * X ^ w - (regPoly (specBits poly init a) - regPoly (specBits poly init b)) := by
    rw [hlen]; ring
  rw [e] at hab
  constructor
  · intro h
    rw [h, sub_self, sub_zero] at hab
    exact (IsCoprime.pow_right (coprime_X hw poly hp)).dvd_of_dvd_mul_right hab
  · intro h
    have h2 := (dvd_sub_right (h.mul_right (X ^ w))).1 hab
    apply regPoly_injective
    rw [← sub_eq_zero]
    by_contra hne
    have h3 := degree_le_of_dvd h2 hne
    rw [degree_genPoly] at h3
    have h4 := degree_sub_le (regPoly (specBits poly init a)) (regPoly (specBits poly init b))
    have h5 := max_lt (degree_regPoly (specBits poly init a)) (degree_regPoly (specBits poly init b))
    exact absurd (lt_of_le_of_lt (h3.trans h4) h5) (lt_irrefl _)

theorem msgPoly_diff : ∀ (a b : List Bool), a.length = b.length →
    msgPoly a - msgPoly b = msgPoly (List.zipWith xor a b)
  | [], [], _ => by simp [msgPoly]
  | x :: a, y :: b, h => by
    have h' : a.length = b.length := by simpa using h
    have ih := msgPoly_diff a b h'
    rw [List.zipWith_cons_cons, msgPoly_cons, msgPoly_cons, msgPoly_cons, ← ih, List.length_zipWith, h', min_self]
    have e2 : (2 : (ZMod 2)[X]) = 0 := by rw [← C_ofNat, show (OfNat.ofNat 2 : ZMod 2) = 0 from by decide, C_0]
    cases x <;> cases y <;> simp
    · linear_combination -(X ^ b.length) * e2
    · ring
  | [], _ :: _, h => by simp at h
  | _ :: _, [], h => by simp at h

/-- The positions where two strings differ. -/
def diffs (a b : List Bool) : Finset Nat :=
  (Finset.range a.length).filter fun i => a.getD i false ≠ b.getD i false

theorem msgPoly_zip (a b : List Bool) (h : a.length = b.length) :
    msgPoly (List.zipWith xor a b) = ∑ i ∈ diffs a b, X ^ (a.length - 1 - i) := by
  unfold msgPoly diffs
  rw [List.length_zipWith, ← h, min_self, Finset.sum_filter]
  apply Finset.sum_congr rfl
  intro j hj
  rw [Finset.mem_range] at hj
  have e : (List.zipWith xor a b).getD j false = (a.getD j false ^^ b.getD j false) := by
    rw [List.getD_eq_getElem _ _ (by simp; omega), List.getD_eq_getElem _ _ hj, List.getD_eq_getElem _ _ (by omega)]
    simp
  rw [e]
  cases a.getD j false <;> cases b.getD j false <;> simp

/-- **C64**, odd numbers of errors: if the generator polynomial has an even number of terms (an odd
number of ones in the constant), strings that differ in an odd number of positions end in different
registers. -/
theorem C64_odd (hw : 0 < w) (poly init : BitVec w) (hp : poly.msb = true)
    (heven : Odd ((Finset.range w).filter fun i => poly.getLsbD i = true).card)
    (a b : List Bool) (hlen : a.length = b.length) (hodd : Odd (diffs a b).card) :
    specBits poly init a ≠ specBits poly init b := by
  rw [ne_eq, C64_undetected_iff hw poly init hp a b hlen, msgPoly_diff a b hlen, msgPoly_zip a b hlen]
  rintro ⟨q, hq⟩
  have h1 := congrArg (eval 1) hq
  rw [eval_mul, eval_finsetSum] at h1
  simp only [eval_pow, eval_X, one_pow, Finset.sum_const, nsmul_eq_mul, mul_one] at h1
  have hg : eval 1 (genPoly poly) = 0 := by
    unfold genPoly
    rw [eval_add, eval_finsetSum]
    have hs : ∀ i ∈ Finset.range w, eval 1 (if poly.getLsbD i then X ^ (w - 1 - i) else (0 : (ZMod 2)[X])) =
        if poly.getLsbD i = true then 1 else 0 := by
      intro i _; split <;> simp
    rw [Finset.sum_congr rfl hs, eval_pow, eval_X, one_pow, ← Finset.sum_filter, Finset.sum_const, nsmul_eq_mul, mul_one]
    obtain ⟨k, hk⟩ := heven
    rw [hk]
    push_cast
    rw [two_eq_zero, zero_mul, zero_add]; decide
  rw [hg, zero_mul] at h1
  obtain ⟨k, hk⟩ := hodd
  rw [hk] at h1
  push_cast at h1
  rw [two_eq_zero] at h1
  revert h1
  simp

/-- **C64**, two errors: strings that differ in exactly the positions `i < j` end in different
registers unless `j - i` is a multiple of the order of `X` modulo the generator polynomial. -/
theorem C64_two (hw : 0 < w) (poly init : BitVec w) (hp : poly.msb = true)
    (a b : List Bool) (hlen : a.length = b.length) (i j : Nat) (hij : i < j) (hd : diffs a b = {i, j}) :
    specBits poly init a = specBits poly init b ↔ orderOf (AdjoinRoot.root (genPoly poly)) ∣ j - i := by
  rw [C64_undetected_iff hw poly init hp a b hlen, msgPoly_diff a b hlen, msgPoly_zip a b hlen, hd,
    Finset.sum_pair hij.ne]
  have hj : j < a.length := by
    have : j ∈ diffs a b := by rw [hd]; simp
    rw [diffs, Finset.mem_filter, Finset.mem_range] at this
    exact this.1
  have e : a.length - 1 - i = (a.length - 1 - j) + (j - i) := by omega
  have e2 : (2 : (ZMod 2)[X]) = 0 := by rw [← C_ofNat, show (OfNat.ofNat 2 : ZMod 2) = 0 from by decide, C_0]
  have e3 : X ^ (a.length - 1 - i) + X ^ (a.length - 1 - j) =
      X ^ (a.length - 1 - j) * (X ^ (j - i) - 1 : (ZMod 2)[X]) := by
    rw [e, pow_add]
    linear_combination (X ^ (a.length - 1 - j)) * e2
  rw [e3, orderOf_dvd_iff_pow_eq_one]
  constructor
  · intro h
    have := (IsCoprime.pow_right (coprime_X hw poly hp)).dvd_of_dvd_mul_left h
    rw [← AdjoinRoot.mk_eq_zero, map_sub, map_pow, AdjoinRoot.mk_X, map_one, sub_eq_zero] at this
    exact this
  · intro h
    apply Dvd.dvd.mul_left
    rw [← AdjoinRoot.mk_eq_zero, map_sub, map_pow, AdjoinRoot.mk_X, map_one, h, sub_self]

/-! ### The polynomials of the tests -/

open Verif.GF2 in
theorem order_of_check (hw : 0 < w) (poly : BitVec w) (p f N : Nat) (ps : List Nat) (hpw : p.testBit w = true)
    (hp2 : p < 2 ^ (w + 1)) (hbits : ∀ k < w, p.testBit k = poly.getLsbD (w - 1 - k))
    (hps : ∀ q ∈ ps, q.Prime) (hN : ps.prod = N) (hf : N < 2 ^ f) (h1 : powmod p w f N = 1)
    (h2 : ∀ q ∈ ps, powmod p w f (N / q) ≠ 1) : orderOf (AdjoinRoot.root (genPoly poly)) = N := by
  have hpoly : genPoly poly = natPoly p := by
    ext k
    rw [coeff_natPoly, genPoly_eq, coeff_add, coeff_X_pow, coeff_regPoly]
    rcases Nat.lt_trichotomy k w with h | h | h
    · rw [if_neg h.ne, zero_add, hbits k h]; simp [h]
    · subst h; simp [hpw]
    · rw [if_neg h.ne', if_neg (by omega), Nat.testBit_eq_false_of_lt]
      · simp
      · exact lt_of_lt_of_le hp2 (Nat.pow_le_pow_right (by norm_num) h)
  have key : ∀ k, k < 2 ^ f → (AdjoinRoot.root (genPoly poly) ^ k = 1 ↔ powmod p w f k = 1) := by
    intro k hk
    obtain ⟨ha, hb⟩ := powmod_spec hw hpw hp2 f k hk
    rw [← hpoly] at hb
    have hd : AdjoinRoot.mk (genPoly poly) (natPoly (powmod p w f k)) = AdjoinRoot.root (genPoly poly) ^ k := by
      rw [← sub_eq_zero, ← AdjoinRoot.mk_X, ← map_pow, ← map_sub, AdjoinRoot.mk_eq_zero]; exact hb
    rw [← hd]
    constructor
    · intro h
      rw [← sub_eq_zero, ← map_one (AdjoinRoot.mk (genPoly poly)), ← map_sub, AdjoinRoot.mk_eq_zero] at h
      apply natPoly_injective
      rw [natPoly_one, ← sub_eq_zero]
      by_contra hne
      have h3 := degree_le_of_dvd h hne
      rw [degree_genPoly] at h3
      have h4 := degree_sub_le (natPoly (powmod p w f k)) 1
      have h6 : (1 : (ZMod 2)[X]).degree < w := by rw [degree_one]; exact_mod_cast hw
      exact absurd (lt_of_le_of_lt (h3.trans h4) (max_lt (degree_natPoly_lt ha) h6)) (lt_irrefl _)
    · intro h; rw [h, natPoly_one, map_one]
  have hN0 : 0 < N := by
    rw [← hN]; exact List.prod_pos fun q hq => (hps q hq).pos
  refine orderOf_eq_of_pow_and_pow_div_prime hN0 ((key N hf).2 h1) ?_
  intro q hq hqN
  rw [← hN, (Nat.prime_iff.1 hq).dvd_prod_iff] at hqN
  obtain ⟨r, hr, hqr⟩ := hqN
  rw [Nat.prime_dvd_prime_iff_eq hq (hps r hr)] at hqr
  subst hqr
  rw [ne_eq, key _ (lt_of_le_of_lt (Nat.div_le_self _ _) hf)]
  exact h2 q hr

/-- **C64**, the polynomials used in the tests: the shortest distance of two errors that are not
detected. -/
theorem C64_orders :
    orderOf (AdjoinRoot.root (genPoly 0xEDB88320#32)) = 2 ^ 32 - 1 ∧
    orderOf (AdjoinRoot.root (genPoly 0xC8DF352F#32)) = 65534 ∧
    orderOf (AdjoinRoot.root (genPoly 0xD419CC15#32)) = 65537 ∧
    orderOf (AdjoinRoot.root (genPoly 0xA8F4#16)) = 64897 ∧
    orderOf (AdjoinRoot.root (genPoly 0x8C#8)) = 127 := by
  refine ⟨?_, ?_, ?_, ?_, ?_⟩
  · exact order_of_check (by norm_num) _ 0x104c11db7 32 _ [3, 5, 17, 257, 65537] (by decide +kernel) (by norm_num)
      (by decide +kernel) (by simp; norm_num) (by decide +kernel) (by norm_num) (by decide +kernel) (by decide +kernel)
  · exact order_of_check (by norm_num) _ 0x1f4acfb13 16 _ [2, 7, 31, 151] (by decide +kernel) (by norm_num)
      (by decide +kernel) (by simp; norm_num) (by decide +kernel) (by norm_num) (by decide +kernel) (by decide +kernel)
  · exact order_of_check (by norm_num) _ 0x1a833982b 17 _ [65537] (by decide +kernel) (by norm_num)
      (by decide +kernel) (by simp; norm_num) (by decide +kernel) (by norm_num) (by decide +kernel) (by decide +kernel)
  · exact order_of_check (by norm_num) _ 0x12f15 16 _ [7, 73, 127] (by decide +kernel) (by norm_num)
      (by decide +kernel) (by simp; norm_num) (by decide +kernel) (by norm_num) (by decide +kernel) (by decide +kernel)
  · exact order_of_check (by norm_num) _ 0x131 7 _ [127] (by decide +kernel) (by norm_num)
      (by decide +kernel) (by simp; norm_num) (by decide +kernel) (by norm_num) (by decide +kernel) (by decide +kernel)

/-- **C64**, in plain words for CRC-32: any two flipped bits less than 2^32 - 1 positions apart are detected. -/
theorem C64_crc32_two (init : BitVec 32) (a b : List Bool) (hlen : a.length = b.length) (i j : Nat) (hij : i < j)
    (hd : diffs a b = {i, j}) (hclose : j - i < 2 ^ 32 - 1) :
    specBits 0xEDB88320#32 init a ≠ specBits 0xEDB88320#32 init b := by
  rw [ne_eq, C64_two (by norm_num) _ init (by decide) a b hlen i j hij hd, C64_orders.1]
  exact Nat.not_dvd_of_pos_of_lt (by omega) hclose

/-- The hypotheses are met: two polynomials of the tests have an even number of terms, ... -/
example : Odd ((Finset.range 32).filter fun i => (0xC8DF352F#32).getLsbD i = true).card ∧
    Odd ((Finset.range 8).filter fun i => (0x8C#8).getLsbD i = true).card := by decide +kernel
/-- ... and strings that differ in two or three positions. -/
example : diffs [true, true, false, true] [false, true, false, false] = {0, 3} ∧
    Odd (diffs [true, true, false, true] [false, false, false, false]).card := by decide
/-- The order is sharp: with 0x8C flips of the first and of the 128th bit are not noticed. -/
example : specBits 0x8C#8 0x5A#8 (true :: List.replicate 126 false ++ [true]) =
    specBits 0x8C#8 0x5A#8 (List.replicate 128 false) := by decide +kernel
/-- A remainder: the single bit 1 leaves the generator polynomial without its highest term. -/
example : specBits 0xA8F4#16 0 [true] = 0xA8F4#16 := by decide

end Verif.Crc
