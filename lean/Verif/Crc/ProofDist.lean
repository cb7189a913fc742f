import Verif.Crc.PropsPoly
import Verif.GF.Ring
import Verif.GF.Props
import Mathlib.Algebra.CharP.Lemmas
import Mathlib.Algebra.CharP.Algebra
/- Sums of few powers of a root: the algebra behind C78. -/
namespace Verif.Crc
open Polynomial
open Verif.GF2

/-! ### Double error correction by conjugates (Zetterberg) -/

section Zetterberg
variable {R : Type} [CommRing R] [Nontrivial R]

/-- `x` has order dividing the prime `p`, and `x - 1` is a unit: so is the difference of two powers. -/
theorem unit_sub {x : R} {p : Nat} (hp : p.Prime) (hx : x ^ p = 1) (hu : IsUnit (x - 1)) {a b : Nat} (hab : ¬ a ≡ b [MOD p]) : IsUnit (x ^ a - x ^ b) := by
  have hxu : IsUnit x := IsUnit.of_pow_eq_one hx hp.ne_zero
  have key : ∀ d, ¬ p ∣ d → IsUnit (x ^ d - 1) := by
    intro d hd
    obtain ⟨m, -, hm⟩ := Nat.exists_mul_mod_eq_one_of_coprime ((Nat.Prime.coprime_iff_not_dvd hp).2 hd).symm hp.one_lt
    have h1 : x ^ (d * m) = x := by
      conv_lhs => rw [← Nat.div_add_mod (d * m) p, hm, pow_add, pow_mul, hx, one_pow, one_mul, pow_one]
    refine isUnit_of_dvd_unit ?_ hu
    have := sub_dvd_pow_sub_pow (x ^ d) 1 m
    rwa [← pow_mul, h1, one_pow] at this
  wlog h : b ≤ a generalizing a b
  · have := this (fun h' => hab h'.symm) (by omega)
    rw [← neg_sub]
    exact this.neg
  · have : x ^ a - x ^ b = x ^ b * (x ^ (a - b) - 1) := by
      rw [mul_sub, ← pow_add, mul_one, Nat.add_sub_cancel' h]
    rw [this]
    exact (hxu.pow b).mul (key _ fun hd => hab ((Nat.modEq_iff_dvd' h).2 hd).symm)

/-- In characteristic 2, if the inverse of `x` is a `2 ^ m`-th power of `x` and `2 ^ m + 1` is a prime other than 3, then no sum of one to four different powers of `x` vanishes. -/
theorem zetterberg (m : Nat) [CharP R 2] {x : R} (hp : (2 ^ m + 1).Prime) (h3 : 2 ^ m + 1 ≠ 3) (hx : x ^ (2 ^ m + 1) = 1) (hu : IsUnit (x - 1)) (S : Finset Nat)
    (hS : ∀ i ∈ S, i < 2 ^ m + 1) (hc : S.card ≤ 4) (h0 : ∑ i ∈ S, x ^ i = 0) : S = ∅ := by
  have h2 : (2 : R) = 0 := CharTwo.two_eq_zero
  have hq : ∑ i ∈ S, (x ^ i) ^ 2 ^ m = 0 := by rw [← sum_pow_char_pow, h0, zero_pow (by positivity)]
  have hinv : ∀ i, x ^ i * (x ^ i) ^ 2 ^ m = 1 := fun i => by rw [← pow_succ', ← pow_mul, mul_comm, pow_mul, hx, one_pow]
  have hun : ∀ a b, a < 2 ^ m + 1 → b < 2 ^ m + 1 → a ≠ b → IsUnit (x ^ a - x ^ b) := fun a b ha hb hab =>
    unit_sub hp hx hu fun h => hab (Nat.ModEq.eq_of_lt_of_lt h ha hb)
  by_contra hne
  have hpos : 0 < S.card := Finset.card_pos.2 (Finset.nonempty_iff_ne_empty.2 hne)
  have hc' : S.card = 1 ∨ S.card = 2 ∨ S.card = 3 ∨ S.card = 4 := by omega
  rcases hc' with h | h | h | h
  · obtain ⟨a, rfl⟩ := Finset.card_eq_one.1 h
    rw [Finset.sum_singleton] at h0
    have := hinv a
    rw [h0, zero_mul] at this
    exact zero_ne_one this
  · obtain ⟨a, b, hab, rfl⟩ := Finset.card_eq_two.1 h
    rw [Finset.sum_pair hab] at h0
    have hz : x ^ a - x ^ b = 0 := by linear_combination h0 - x ^ b * h2
    exact not_isUnit_zero (hz ▸ hun a b (hS a (by simp)) (hS b (by simp)) hab)
  · obtain ⟨a, b, c, hab, hac, hbc, rfl⟩ := Finset.card_eq_three.1 h
    rw [Finset.sum_insert (by simp [hab, hac]), Finset.sum_pair hbc] at h0 hq
    have ha := hinv a
    have hb := hinv b
    have hc := hinv c
    have h5 : ¬ 3 * a ≡ 3 * b [MOD 2 ^ m + 1] := by
      intro hh
      have hcop : Nat.gcd (2 ^ m + 1) 3 = 1 := (Nat.coprime_primes hp Nat.prime_three).2 h3
      exact hab (Nat.ModEq.eq_of_lt_of_lt (Nat.ModEq.cancel_left_of_coprime hcop hh) (hS a (by simp)) (hS b (by simp)))
    have hz : x ^ (3 * a) - x ^ (3 * b) = 0 := by
      rw [mul_comm 3 a, mul_comm 3 b, pow_mul, pow_mul]
      generalize (x ^ a) ^ 2 ^ m = va at *
      generalize (x ^ b) ^ 2 ^ m = vb at *
      generalize (x ^ c) ^ 2 ^ m = vc at *
      generalize x ^ a = ua at *
      generalize x ^ b = ub at *
      generalize x ^ c = uc at *
      have e2 : ua * ub + ua * uc + ub * uc = 0 := by
        linear_combination (ua * ub * uc) * hq - (ub * uc) * ha - (ua * uc) * hb - (ua * ub) * hc
      have e3 : uc = ua + ub := by linear_combination h0 - (ua + ub) * h2
      subst e3
      linear_combination (ua + ub) * e2 - (2 * ua ^ 2 * ub + 2 * ua * ub ^ 2 + ub ^ 3) * h2
    exact not_isUnit_zero (hz ▸ unit_sub hp hx hu h5)
  · obtain ⟨a, T, haT, rfl, hT⟩ := Finset.card_eq_succ.1 h
    obtain ⟨b, c, d, hbc, hbd, hcd, rfl⟩ := Finset.card_eq_three.1 hT
    simp only [Finset.mem_insert, Finset.mem_singleton, not_or] at haT
    obtain ⟨hab, hac, had⟩ := haT
    rw [Finset.sum_insert (by simp [hab, hac, had]), Finset.sum_insert (by simp [hbc, hbd]), Finset.sum_pair hcd] at h0 hq
    have ha := hinv a
    have hb := hinv b
    have hc := hinv c
    have hd := hinv d
    have u1 := hun a b (hS a (by simp)) (hS b (by simp)) hab
    have u2 := hun a c (hS a (by simp)) (hS c (by simp)) hac
    have u3 := hun a d (hS a (by simp)) (hS d (by simp)) had
    generalize (x ^ a) ^ 2 ^ m = va at *
    generalize (x ^ b) ^ 2 ^ m = vb at *
    generalize (x ^ c) ^ 2 ^ m = vc at *
    generalize (x ^ d) ^ 2 ^ m = vd at *
    generalize x ^ a = ua at *
    generalize x ^ b = ub at *
    generalize x ^ c = uc at *
    generalize x ^ d = ud at *
    have e3 : ub * uc * ud + ua * uc * ud + ua * ub * ud + ua * ub * uc = 0 := by
      linear_combination (ua * ub * uc * ud) * hq - (ub * uc * ud) * ha - (ua * uc * ud) * hb - (ua * ub * ud) * hc - (ua * ub * uc) * hd
    have ed : ud = ua + ub + uc := by linear_combination h0 - (ua + ub + uc) * h2
    subst ed
    have e4 : (ua - ub) * (ua * ub + uc * (ua + ub + uc)) = 0 := by
      linear_combination e3 - (ua * ub ^ 2 + ub ^ 2 * uc + ub * uc ^ 2 + 2 * ua * ub * uc) * h2
    have e5 : ua * ub + uc * (ua + ub + uc) = 0 := by rwa [u1.mul_right_eq_zero] at e4
    have e6 : (ua - uc) * (ua - (ua + ub + uc)) = 0 := by
      linear_combination e5 - (ua * ub + ua * uc) * h2
    exact not_isUnit_zero (e6 ▸ u2.mul u3)

end Zetterberg

/-! ### The exponents of an error -/

variable {w : Nat}

/-- The exponents of the powers that make up the difference of two strings. -/
def exps (a b : List Bool) : Finset Nat := (diffs a b).image fun i => a.length - 1 - i

theorem exps_inj (a b : List Bool) : Set.InjOn (fun i => a.length - 1 - i) (diffs a b : Set Nat) := by
  intro i hi j hj h
  have hi' := (Finset.mem_filter.1 (Finset.mem_coe.1 hi)).1
  have hj' := (Finset.mem_filter.1 (Finset.mem_coe.1 hj)).1
  rw [Finset.mem_range] at hi' hj'
  simp only at h
  omega

theorem card_exps (a b : List Bool) : (exps a b).card = (diffs a b).card := Finset.card_image_of_injOn (exps_inj a b)

theorem exps_lt (a b : List Bool) : ∀ i ∈ exps a b, i < a.length := by
  intro i hi
  obtain ⟨j, hj, rfl⟩ := Finset.mem_image.1 hi
  have := Finset.mem_range.1 (Finset.mem_filter.1 hj).1
  omega

/-- At a root of the generator polynomial the difference of two strings with the same register vanishes. -/
theorem exps_sum {R : Type} [CommRing R] (φ : (ZMod 2)[X] →+* R) (hw : 0 < w) (poly init : BitVec w) (hp : poly.msb = true) (hφ : φ (genPoly poly) = 0) (a b : List Bool)
    (hlen : a.length = b.length) (h : specBits poly init a = specBits poly init b) : ∑ i ∈ exps a b, φ X ^ i = 0 := by
  rw [C64_undetected_iff hw poly init hp a b hlen, msgPoly_diff a b hlen, msgPoly_zip a b hlen] at h
  obtain ⟨q, hq⟩ := h
  have := congrArg φ hq
  rw [map_mul, hφ, zero_mul, map_sum] at this
  rw [exps, Finset.sum_image (exps_inj a b), ← this]
  exact Finset.sum_congr rfl fun i _ => (map_pow φ X _).symm

theorem diffs_nonempty {a b : List Bool} (hlen : a.length = b.length) (hne : a ≠ b) : diffs a b ≠ ∅ := by
  intro h
  refine hne (List.ext_getElem hlen fun i ha hb => ?_)
  by_contra hd
  have : i ∈ diffs a b := Finset.mem_filter.2 ⟨Finset.mem_range.2 ha, by rw [List.getD_eq_getElem _ _ ha, List.getD_eq_getElem _ _ hb]; exact hd⟩
  rw [h] at this
  simp at this

theorem genPoly_natPoly (poly : BitVec w) (p : Nat) (hpw : p.testBit w = true) (hp2 : p < 2 ^ (w + 1)) (hbits : ∀ k < w, p.testBit k = poly.getLsbD (w - 1 - k)) :
    genPoly poly = natPoly p := by
  ext k
  rw [coeff_natPoly, genPoly_eq, coeff_add, coeff_X_pow, coeff_regPoly]
  rcases Nat.lt_trichotomy k w with h | h | h
  · rw [if_neg h.ne, zero_add, hbits k h]; simp [h]
  · subst h; simp [hpw]
  · rw [if_neg h.ne', if_neg (by omega), Nat.testBit_eq_false_of_lt]
    · simp
    · exact lt_of_lt_of_le hp2 (Nat.pow_le_pow_right (by norm_num) h)

/-! ### A generator polynomial whose root has order 65537 -/

/-- Strings of at most 65537 bits with the same register, generator polynomial 0xD419CC15. -/
theorem dist_D419CC15 (init : BitVec 32) (a b : List Bool) (hlen : a.length = b.length) (hne : a ≠ b) (hl : a.length ≤ 65537)
    (h : specBits 0xD419CC15#32 init a = specBits 0xD419CC15#32 init b) : 5 ≤ (diffs a b).card := by
  by_contra hc
  have hg := genPoly_natPoly 0xD419CC15#32 0x1a833982b (by decide +kernel) (by norm_num) (by decide +kernel)
  have hR : Nontrivial (AdjoinRoot (genPoly 0xD419CC15#32)) := AdjoinRoot.nontrivial _ (by rw [degree_genPoly]; norm_num)
  have hchar : CharP (AdjoinRoot (genPoly 0xD419CC15#32)) 2 :=
    charP_of_injective_algebraMap (algebraMap (ZMod 2) (AdjoinRoot (genPoly 0xD419CC15#32))).injective 2
  have hs := exps_sum (AdjoinRoot.mk (genPoly 0xD419CC15#32)) (by norm_num) _ init (by decide) AdjoinRoot.mk_self a b hlen h
  rw [AdjoinRoot.mk_X] at hs
  have hone : eval 1 (genPoly 0xD419CC15#32) = 1 := by
    unfold genPoly
    rw [eval_add, eval_finsetSum, eval_pow, eval_X, one_pow]
    have hsum : ∀ i ∈ Finset.range 32, eval 1 (if (0xD419CC15#32).getLsbD i then X ^ (32 - 1 - i) else (0 : (ZMod 2)[X])) =
        if (0xD419CC15#32).getLsbD i = true then 1 else 0 := by
      intro i _; split <;> simp
    rw [Finset.sum_congr rfl hsum]
    decide +kernel
  have hu : IsUnit (AdjoinRoot.root (genPoly 0xD419CC15#32) - 1) := by
    have h1 := X_sub_C_dvd_sub_C_eval (a := 1) (p := genPoly 0xD419CC15#32)
    rw [hone] at h1
    have h2 := map_dvd (AdjoinRoot.mk (genPoly 0xD419CC15#32)) h1
    rw [map_sub, map_sub, AdjoinRoot.mk_self, AdjoinRoot.mk_X, C_1, map_one, zero_sub] at h2
    exact isUnit_of_dvd_unit h2 isUnit_one.neg
  have hz := zetterberg 16 (x := AdjoinRoot.root (genPoly 0xD419CC15#32)) (by norm_num) (by norm_num)
    (by have := pow_orderOf_eq_one (AdjoinRoot.root (genPoly 0xD419CC15#32)); rw [C64_orders.2.2.1] at this; exact this) hu (exps a b)
    (fun i hi => lt_of_lt_of_le (exps_lt a b i hi) (by omega)) (by rw [card_exps]; omega) hs
  exact diffs_nonempty hlen hne (by rw [← Finset.card_eq_zero, ← card_exps, hz]; rfl)

/-! ### A generator polynomial with a root and its fifth power -/

theorem aeval_powers {A : Type} [CommRing A] [Algebra (ZMod 2) A] (y : A) (l : List Nat) : aeval y (natPoly (l.foldr (fun k acc => 2 ^ k ^^^ acc) 0)) = (l.map (y ^ ·)).sum := by
  induction l with
  | nil => simp [natPoly_zero]
  | cons k l ih => rw [List.foldr_cons, natPoly_xor, map_add, ih, natPoly_two_pow, map_pow, aeval_X, List.map_cons, List.sum_cons]

open Verif.GF in
theorem toR_powmod {M P : Nat} (hM : 0 < M) (h : HasDeg M P) (f k : Nat) (hk : k < 2 ^ f) : toR P (powmod P M f k) = AdjoinRoot.root (natPoly P) ^ k := by
  obtain ⟨_, hb⟩ := powmod_spec hM h.top h.2 f k hk
  rw [toR, ← sub_eq_zero, ← AdjoinRoot.mk_X, ← map_pow, ← map_sub, AdjoinRoot.mk_eq_zero]
  exact hb

open Verif.GF in
theorem sum_powers {M P : Nat} (hM : 0 < M) (h : HasDeg M P) (f j : Nat) (l : List Nat) (hl : ∀ k ∈ l, j * k < 2 ^ f) :
    (l.map ((AdjoinRoot.root (natPoly P) ^ j) ^ ·)).sum = toR P (l.foldr (fun k acc => powmod P M f (j * k) ^^^ acc) 0) := by
  induction l with
  | nil => simp [toR_zero]
  | cons k l ih =>
    rw [List.map_cons, List.sum_cons, List.foldr_cons, toR_xor, ih fun k hk => hl k (by simp [hk]), toR_powmod hM h f _ (hl k (by simp)), ← pow_mul]

/-- In a field of characteristic 2 with `x ^ 3` injective: four different elements do not have both sum zero and sum of fifth powers zero. -/
theorem fifth_powers {F : Type} [Field F] [CharP F 2] (h3 : ∀ a b : F, a ^ 3 = b ^ 3 → a = b) {x1 x2 x3 x4 : F} (h12 : x1 ≠ x2) (h13 : x1 ≠ x3) (h23 : x2 ≠ x3)
    (h0 : x1 + x2 + x3 + x4 = 0) (h5 : x1 ^ 5 + x2 ^ 5 + x3 ^ 5 + x4 ^ 5 = 0) : False := by
  have h2 : (2 : F) = 0 := CharTwo.two_eq_zero
  have e4 : x4 = x1 + x2 + x3 := by linear_combination h0 - (x1 + x2 + x3) * h2
  obtain ⟨a, rfl⟩ : ∃ a, x2 = x1 + a := ⟨x2 - x1, by ring⟩
  obtain ⟨b, rfl⟩ : ∃ b, x3 = x1 + b := ⟨x3 - x1, by ring⟩
  have e4' : x4 = x1 + a + b := by rw [e4]; linear_combination x1 * h2
  subst e4'
  have ha : a ≠ 0 := fun h => h12 (by rw [h, add_zero])
  have hb : b ≠ 0 := fun h => h13 (by rw [h, add_zero])
  have key : a * b * (a ^ 3 - b ^ 3) = 0 := by
    have e : x1 ^ 5 + (x1 + a) ^ 5 + (x1 + b) ^ 5 + (x1 + a + b) ^ 5 = a * b * (a ^ 3 - b ^ 3) + 2 * (2*x1^5 + 5*x1^4*a + 5*x1^4*b + 10*x1^3*a^2 + 10*x1^3*a*b + 10*x1^3*b^2 + 10*x1^2*a^3 + 15*x1^2*a^2*b + 15*x1^2*a*b^2 + 10*x1^2*b^3 + 5*x1*a^4 + 10*x1*a^3*b + 15*x1*a^2*b^2 + 10*x1*a*b^3 + 5*x1*b^4 + a^5 + 2*a^4*b + 5*a^3*b^2 + 5*a^2*b^3 + 3*a*b^4 + b^5) := by ring
    rw [e, h2, zero_mul, add_zero] at h5
    exact h5
  rcases mul_eq_zero.1 key with h | h
  · exact (mul_ne_zero ha hb) h
  · exact h23 (by rw [h3 a b (sub_eq_zero.1 h)])

open Verif.GF in
/-- Strings of at most 32768 bits with the same register, generator polynomial 0xC8DF352F. -/
theorem dist_C8DF352F (init : BitVec 32) (a b : List Bool) (hlen : a.length = b.length) (hne : a ≠ b) (hl : a.length ≤ 32768)
    (h : specBits 0xC8DF352F#32 init a = specBits 0xC8DF352F#32 init b) : 6 ≤ (diffs a b).card := by
  by_contra hc
  have hcard := card_exps a b
  have hlt := exps_lt a b
  have hpos : 0 < (diffs a b).card := Finset.card_pos.2 (Finset.nonempty_iff_ne_empty.2 (diffs_nonempty hlen hne))
  have hodd : ¬ Odd (diffs a b).card := fun ho => C64_odd (by norm_num) _ init (by decide) (by decide +kernel) a b hlen ho h
  rw [Nat.not_odd_iff_even] at hodd
  have hG := genPoly_natPoly 0xC8DF352F#32 0x1f4acfb13 (by decide +kernel) (by norm_num) (by decide +kernel)
  have hc24 : (diffs a b).card = 2 ∨ (diffs a b).card = 4 := by
    obtain ⟨k, hk⟩ := hodd
    omega
  have hdeg : HasDeg 15 0xc85f := by unfold HasDeg; norm_num
  have hprim : Primitive 15 0xc85f := primitive_of_check hdeg (by norm_num) [7, 31, 151]
    (fun q hq hd => mem_of_prime_dvd_prod _ (by simp; norm_num) q hq (by norm_num at hd ⊢; exact hd)) (by decide +kernel)
  haveI : Fact (Irreducible (natPoly 0xc85f)) := ⟨irreducible_of_primitive (by norm_num) hdeg hprim⟩
  haveI : CharP (AdjoinRoot (natPoly 0xc85f)) 2 := charP_of_injective_algebraMap (algebraMap (ZMod 2) (AdjoinRoot (natPoly 0xc85f))).injective 2
  obtain ⟨β, hβ⟩ : ∃ β, β = AdjoinRoot.root (natPoly 0xc85f) := ⟨_, rfl⟩
  have hord : orderOf β = 32767 := by rw [hβ]; exact hprim
  have hroot : ∀ j, (j = 1 ∨ j = 5) → aeval (β ^ j) (genPoly 0xC8DF352F#32) = 0 := by
    intro j hj
    rw [hG, show (0x1f4acfb13 : Nat) = [0, 1, 4, 8, 9, 11, 12, 13, 14, 15, 18, 19, 21, 23, 26, 28, 29, 30, 31, 32].foldr (fun k acc => 2 ^ k ^^^ acc) 0 by decide +kernel, aeval_powers, hβ]
    rcases hj with rfl | rfl
    · rw [sum_powers (by norm_num) hdeg 8 1 _ (by decide)]
      exact (congrArg _ (by decide +kernel)).trans (toR_zero _)
    · rw [sum_powers (by norm_num) hdeg 8 5 _ (by decide)]
      exact (congrArg _ (by decide +kernel)).trans (toR_zero _)
  have hs : ∀ j, (j = 1 ∨ j = 5) → ∑ i ∈ exps a b, (β ^ j) ^ i = 0 := by
    intro j hj
    have := exps_sum (aeval (β ^ j) : (ZMod 2)[X] →ₐ[ZMod 2] _).toRingHom (by norm_num) _ init (by decide) (hroot j hj) a b hlen h
    simpa using this
  have hinj : ∀ i k, i < 32768 → k < 32768 → β ^ i = β ^ k → i = k ∨ (i = 0 ∧ k = 32767) ∨ (i = 32767 ∧ k = 0) := by
    intro i k hi hk e
    have hβ0 : β ≠ 0 := by
      intro h0
      have := pow_orderOf_eq_one β
      rw [hord, h0, zero_pow (by norm_num)] at this
      exact zero_ne_one this
    have key : ∀ i k, i ≤ k → β ^ i = β ^ k → 32767 ∣ k - i := by
      intro i k hik e
      rw [← hord, orderOf_dvd_iff_pow_eq_one]
      refine mul_left_cancel₀ (pow_ne_zero i hβ0) ?_
      rw [← pow_add, Nat.add_sub_cancel' hik, mul_one, e]
    rcases Nat.le_total i k with hik | hik
    · have := key i k hik e
      omega
    · have := key k i hik e.symm
      omega
  have hfin : ∀ x : AdjoinRoot (natPoly 0xc85f), x ≠ 0 → x ^ 32767 = 1 := by
    intro x hx
    obtain ⟨k, _, rfl⟩ := exists_pow (by norm_num) hdeg hprim hx
    rw [← pow_mul, mul_comm, pow_mul, ← hβ, ← hord, pow_orderOf_eq_one, one_pow]
  have hcube : ∀ x y : AdjoinRoot (natPoly 0xc85f), x ^ 3 = y ^ 3 → x = y := by
    intro x y e
    by_cases hx : x = 0
    · rw [hx, zero_pow (by norm_num)] at e
      rw [hx, pow_eq_zero_iff (by norm_num) |>.1 e.symm]
    · have hy : y ≠ 0 := by
        rintro rfl
        rw [zero_pow (by norm_num)] at e
        exact hx (pow_eq_zero_iff (by norm_num) |>.1 e)
      have h1 : x ^ 32766 = y ^ 32766 := by
        rw [show 32766 = 3 * 10922 by norm_num, pow_mul, pow_mul, e]
      have h2 : x ^ 32766 * x = y ^ 32766 * y := by rw [← pow_succ, ← pow_succ, hfin x hx, hfin y hy]
      rw [h1] at h2
      exact mul_left_cancel₀ (pow_ne_zero _ hy) h2
  have hlt' : ∀ i ∈ exps a b, i < 32768 := fun i hi => lt_of_lt_of_le (hlt i hi) hl
  rcases hc24 with hc | hc
  · obtain ⟨i, j, hij, hd⟩ := Finset.card_eq_two.1 hc
    wlog hlt2 : i < j generalizing i j
    · exact this j i hij.symm (by rw [hd, Finset.pair_comm]) (by omega)
    rw [C64_two (by norm_num) _ init (by decide) a b hlen i j hlt2 hd, C64_orders.2.1] at h
    have hj : j ∈ diffs a b := by rw [hd]; simp
    have := Finset.mem_range.1 (Finset.mem_filter.1 hj).1
    exact absurd (Nat.le_of_dvd (by omega) h) (by omega)
  · have hc4 : (exps a b).card = 4 := by rw [hcard, hc]
    have h1 := hs 1 (.inl rfl)
    have h5 := hs 5 (.inr rfl)
    obtain ⟨e1, T, he, hE, hT⟩ := Finset.card_eq_succ.1 hc4
    obtain ⟨e2, e3, e4, h23, h24, h34, rfl⟩ := Finset.card_eq_three.1 hT
    simp only [Finset.mem_insert, Finset.mem_singleton, not_or] at he
    obtain ⟨h12, h13, h14⟩ := he
    rw [← hE] at h1 h5 hlt'
    rw [Finset.sum_insert (by simp [h12, h13, h14]), Finset.sum_insert (by simp [h23, h24]), Finset.sum_pair h34] at h1 h5
    have l1 := hlt' e1 (by simp)
    have l2 := hlt' e2 (by simp)
    have l3 := hlt' e3 (by simp)
    have l4 := hlt' e4 (by simp)
    rw [pow_one] at h1
    have pc : ∀ e, (β ^ 5) ^ e = (β ^ e) ^ 5 := fun e => by rw [← pow_mul, ← pow_mul, mul_comm]
    rw [pc, pc, pc, pc] at h5
    have h2 : (2 : AdjoinRoot (natPoly 0xc85f)) = 0 := CharTwo.two_eq_zero
    refine fifth_powers hcube (x1 := β ^ e1) (x2 := β ^ e2) (x3 := β ^ e3) (x4 := β ^ e4) ?_ ?_ ?_ (by linear_combination h1) (by linear_combination h5)
    · intro e
      have e' : β ^ e3 = β ^ e4 := by linear_combination h1 - e - (β ^ e2 + β ^ e4) * h2
      have := hinj _ _ l1 l2 e
      have := hinj _ _ l3 l4 e'
      omega
    · intro e
      have e' : β ^ e2 = β ^ e4 := by linear_combination h1 - e - (β ^ e3 + β ^ e4) * h2
      have := hinj _ _ l1 l3 e
      have := hinj _ _ l2 l4 e'
      omega
    · intro e
      have e' : β ^ e1 = β ^ e4 := by linear_combination h1 - e - (β ^ e3 + β ^ e4) * h2
      have := hinj _ _ l2 l3 e
      have := hinj _ _ l1 l4 e'
      omega

/-! ### Generator polynomials of degree 16 and 8 -/

/-- The first list has no repetition and its elements are no bits of the map. -/
def allNew : List Nat → Nat → Bool
  | [], _ => true
  | a :: l, m => !m.testBit a && allNew l (m ||| 1 <<< a)

theorem allNew_spec : ∀ (l : List Nat) (m : Nat), allNew l m = true → l.Nodup ∧ ∀ a ∈ l, m.testBit a = false
  | [], _, _ => by simp
  | a :: l, m, h => by
    rw [allNew, Bool.and_eq_true, Bool.not_eq_true'] at h
    obtain ⟨ih1, ih2⟩ := allNew_spec l _ h.2
    refine ⟨List.nodup_cons.2 ⟨fun ha => ?_, ih1⟩, ?_⟩
    · have := ih2 a ha
      simp [Nat.testBit_or, Nat.testBit_shiftLeft] at this
    · intro b hb
      rcases List.mem_cons.1 hb with rfl | hb
      · exact h.1
      · have := ih2 b hb
        rw [Nat.testBit_or, Bool.or_eq_false_iff] at this
        exact this.1

/-- The sets of at most two of the numbers below `n`, as lists. -/
def upToTwo (n : Nat) : List (List Nat) := [] :: (List.range n).flatMap fun i => [i] :: (List.range i).map fun j => [i, j]

theorem mem_upToTwo (n : Nat) (U : Finset Nat) (hU : ∀ i ∈ U, i < n) (hc : U.card ≤ 2) : ∃ l ∈ upToTwo n, l.toFinset = U ∧ l.Nodup := by
  have : U.card = 0 ∨ U.card = 1 ∨ U.card = 2 := by omega
  rcases this with h | h | h
  · exact ⟨[], by simp [upToTwo], by rw [Finset.card_eq_zero.1 h]; rfl, List.nodup_nil⟩
  · obtain ⟨i, rfl⟩ := Finset.card_eq_one.1 h
    have := hU i (by simp)
    exact ⟨[i], by simp [upToTwo, this], by simp, by simp⟩
  · obtain ⟨i, j, hij, rfl⟩ := Finset.card_eq_two.1 h
    wlog hlt : j < i generalizing i j
    · obtain ⟨l, h1, h2, h3⟩ := this j i hij.symm (by rwa [Finset.pair_comm]) (by rw [Finset.pair_comm]; omega) (by rw [Finset.pair_comm]; exact h) (by omega)
      exact ⟨l, h1, by rw [h2, Finset.pair_comm], h3⟩
    have hi := hU i (by simp)
    exact ⟨[i, j], by simp [upToTwo, hi, hlt], by simp, by simp [hij]⟩

/-- The register after flipping the bits at the given distances from the end. -/
def syndrome (P M f : Nat) (l : List Nat) : Nat := l.foldr (fun k acc => powmod P M f (1 * k) ^^^ acc) 0

open Verif.GF in
theorem dist_check {M P : Nat} (hM : 0 < M) (hd : HasDeg M P) (f n : Nat) (hn : n ≤ 2 ^ f) (hch : allNew ((upToTwo n).map (syndrome P M f)) 0 = true)
    (S : Finset Nat) (hS : ∀ i ∈ S, i < n) (hc : S.card ≤ 4) (h0 : ∑ i ∈ S, AdjoinRoot.root (natPoly P) ^ i = 0) : S = ∅ := by
  obtain ⟨U, hUS, hU⟩ := Finset.exists_subset_card_eq (show S.card / 2 ≤ S.card by omega)
  have hV : (S \ U).card = S.card - S.card / 2 := by rw [Finset.card_sdiff_of_subset hUS, hU]
  obtain ⟨lU, mU, eU, nU⟩ := mem_upToTwo n U (fun i hi => hS i (hUS hi)) (by omega)
  obtain ⟨lV, mV, eV, nV⟩ := mem_upToTwo n (S \ U) (fun i hi => hS i (Finset.sdiff_subset hi)) (by omega)
  have hsum : ∀ (l : List Nat) (U : Finset Nat), l.toFinset = U → l.Nodup → U ⊆ S → ∑ i ∈ U, AdjoinRoot.root (natPoly P) ^ i = toR P (syndrome P M f l) := by
    intro l U e hnd hUS
    subst e
    unfold syndrome
    rw [← sum_powers hM hd f 1 l (fun k hk => by rw [one_mul]; exact lt_of_lt_of_le (hS k (hUS (by simpa using hk))) hn), List.sum_toFinset _ hnd]
    simp
  have hlt : ∀ l : List Nat, (∀ k ∈ l, k < 2 ^ f) → syndrome P M f l < 2 ^ M := by
    intro l hl
    induction l with
    | nil => exact Nat.two_pow_pos M
    | cons k l ih =>
      exact Nat.xor_lt_two_pow (powmod_spec hM hd.top hd.2 f _ (by rw [one_mul]; exact hl k (by simp))).1 (ih fun k hk => hl k (by simp [hk]))
  have h1 := hsum lU U eU nU hUS
  have h2 := hsum lV (S \ U) eV nV Finset.sdiff_subset
  rw [← Finset.sum_sdiff hUS, h1, h2] at h0
  have h3 : toR P (syndrome P M f lV) = toR P (syndrome P M f lU) := by
    have := toR_add_self (toR P (syndrome P M f lU))
    exact add_right_cancel (h0.trans this.symm)
  have hk : ∀ l : List Nat, l.toFinset ⊆ S → ∀ k ∈ l, k < 2 ^ f := fun l hl k hk => lt_of_lt_of_le (hS k (hl (by simpa using hk))) hn
  have h4 := toR_inj hd (hlt lV (hk lV (by rw [eV]; exact Finset.sdiff_subset))) (hlt lU (hk lU (by rw [eU]; exact hUS))) h3
  have h5 := List.inj_on_of_nodup_map (allNew_spec _ _ hch).1 mV mU h4
  have h6 : S \ U = U := by rw [← eV, ← eU, h5]
  have h7 : U = ∅ := by
    rw [Finset.eq_empty_iff_forall_notMem]
    intro i hi
    have hi' := hi
    rw [← h6] at hi'
    exact (Finset.mem_sdiff.1 hi').2 hi
  rw [h7, Finset.sdiff_empty] at h6
  exact h6

open Verif.GF in
/-- Strings of at most 83 bits with the same register, generator polynomial 0xA8F4. -/
theorem dist_A8F4 (init : BitVec 16) (a b : List Bool) (hlen : a.length = b.length) (hne : a ≠ b) (hl : a.length ≤ 83)
    (h : specBits 0xA8F4#16 init a = specBits 0xA8F4#16 init b) : 5 ≤ (diffs a b).card := by
  by_contra hc
  have hg := genPoly_natPoly 0xA8F4#16 0x12f15 (by decide +kernel) (by norm_num) (by decide +kernel)
  have hs := exps_sum (AdjoinRoot.mk (genPoly 0xA8F4#16)) (by norm_num) _ init (by decide) AdjoinRoot.mk_self a b hlen h
  rw [AdjoinRoot.mk_X, hg] at hs
  have hz := dist_check (M := 16) (P := 0x12f15) (by norm_num) (by unfold HasDeg; norm_num) 7 83 (by norm_num) (by decide +kernel) (exps a b)
    (fun i hi => lt_of_lt_of_le (exps_lt a b i hi) hl) (by rw [card_exps]; omega) hs
  exact diffs_nonempty hlen hne (by rw [← Finset.card_eq_zero, ← card_exps, hz]; rfl)

/-- Strings of at most 127 bits with the same register, generator polynomial 0x8C. -/
theorem dist_8C (init : BitVec 8) (a b : List Bool) (hlen : a.length = b.length) (hne : a ≠ b) (hl : a.length ≤ 127)
    (h : specBits 0x8C#8 init a = specBits 0x8C#8 init b) : 4 ≤ (diffs a b).card := by
  by_contra hc
  have hpos : 0 < (diffs a b).card := Finset.card_pos.2 (Finset.nonempty_iff_ne_empty.2 (diffs_nonempty hlen hne))
  have hodd : ¬ Odd (diffs a b).card := fun ho => C64_odd (by norm_num) _ init (by decide) (by decide +kernel) a b hlen ho h
  rw [Nat.not_odd_iff_even] at hodd
  have hc2 : (diffs a b).card = 2 := by
    obtain ⟨k, hk⟩ := hodd
    omega
  obtain ⟨i, j, hij, hd⟩ := Finset.card_eq_two.1 hc2
  wlog hlt2 : i < j generalizing i j
  · exact this j i hij.symm (by rw [hd, Finset.pair_comm]) (by omega)
  rw [C64_two (by norm_num) _ init (by decide) a b hlen i j hlt2 hd, C64_orders.2.2.2.2] at h
  have hj : j ∈ diffs a b := by rw [hd]; simp
  have := Finset.mem_range.1 (Finset.mem_filter.1 hj).1
  exact absurd (Nat.le_of_dvd (by omega) h) (by omega)

end Verif.Crc
