import Verif.Mls.Model
import Verif.GF2.XVec
import Mathlib.Tactic.NormNum.Prime
namespace Verif.Mls
open GF2

theorem smear_step (p x k : Nat) (h : ∀ i, x.testBit i = true ↔ ∃ j, j < k ∧ p.testBit (i + j) = true) :
    ∀ i, (x ||| (x >>> k)).testBit i = true ↔ ∃ j, j < 2 * k ∧ p.testBit (i + j) = true := by
  intro i
  rw [Nat.testBit_or, Nat.testBit_shiftRight, Bool.or_eq_true, h, h]
  constructor
  · rintro (⟨j, hj, hp⟩ | ⟨j, hj, hp⟩)
    · exact ⟨j, by omega, hp⟩
    · exact ⟨k + j, by omega, by rw [show i + (k + j) = k + i + j by omega]; exact hp⟩
  · rintro ⟨j, hj, hp⟩
    by_cases hjk : j < k
    · exact Or.inl ⟨j, hjk, hp⟩
    · exact Or.inr ⟨j - k, by omega, by rw [show k + i + (j - k) = i + j by omega]; exact hp⟩

theorem hibit_eq {p n : Nat} (h1 : 2 ^ n ≤ p) (h2 : p < 2 ^ (n + 1)) (hn : n < 32) :
    hibit p = 2 ^ n := by
  unfold hibit
  have s0 : ∀ i, p.testBit i = true ↔ ∃ j, j < 1 ∧ p.testBit (i + j) = true := by
    intro i
    constructor
    · intro h; exact ⟨0, by omega, h⟩
    · rintro ⟨j, hj, h⟩; have : j = 0 := by omega
      subst this; exact h
  have s1 := smear_step p _ 1 s0
  have s2 := smear_step p _ 2 s1
  have s3 := smear_step p _ 4 s2
  have s4 := smear_step p _ 8 s3
  have s5 := smear_step p _ 16 s4
  dsimp only
  generalize (_ ||| _ : Nat) = x at s5
  have htop : p.testBit n = true := by
    by_contra hc
    have : p < 2 ^ n := by
      apply Nat.lt_pow_two_of_testBit
      intro i hi
      by_cases hin : i = n
      · subst hin; simpa using hc
      · apply Nat.testBit_eq_false_of_lt
        exact lt_of_lt_of_le h2 (Nat.pow_le_pow_right (by norm_num) (by omega))
    omega
  have hx : ∀ i, x.testBit i = decide (i ≤ n) := by
    intro i
    rw [Bool.eq_iff_iff, s5, decide_eq_true_eq]
    constructor
    · rintro ⟨j, _, hj⟩
      by_contra hc
      rw [Nat.testBit_eq_false_of_lt] at hj
      · exact absurd hj (by simp)
      · exact lt_of_lt_of_le h2 (Nat.pow_le_pow_right (by norm_num) (by omega))
    · intro h
      exact ⟨n - i, by omega, by rw [show i + (n - i) = n by omega]; exact htop⟩
  apply Nat.eq_of_testBit_eq
  intro i
  rw [Nat.testBit_xor, Nat.testBit_shiftRight, hx, hx, Nat.testBit_two_pow, Bool.eq_iff_iff]
  simp only [bne_iff_ne, ne_eq, decide_eq_decide, decide_eq_true_eq]
  omega

theorem testBit_two_mul (a n : Nat) (hn : 0 < n) : (2 * a).testBit n = a.testBit (n - 1) := by
  obtain ⟨m, rfl⟩ : ∃ m, n = m + 1 := ⟨n - 1, by omega⟩
  rw [Nat.testBit_succ, Nat.mul_div_cancel_left _ (by norm_num), Nat.add_sub_cancel]

/-- `operator()` computes multiplication by `X` modulo the polynomial. -/
theorem next_eq {p n r : Nat} (hn : 0 < n) (hn2 : n ≤ 30) (hr : r < 2 ^ n) :
    MLS.next ⟨p, 2 ^ n >>> 1, r⟩ = some (⟨p, 2 ^ n >>> 1, xtime p n r⟩, r.testBit (n - 1)) := by
  have h1 : (2 : Nat) ^ n >>> 1 = 2 ^ (n - 1) := by
    rw [Nat.shiftRight_eq_div_pow, pow_one]
    obtain ⟨m, rfl⟩ : ∃ m, n = m + 1 := ⟨n - 1, by omega⟩
    rw [pow_succ]; simp
  have h2 : r <<< 1 < 2 ^ 31 := by
    rw [Nat.shiftLeft_eq]
    have : (2 : Nat) ^ n ≤ 2 ^ 30 := Nat.pow_le_pow_right (by norm_num) hn2
    omega
  have h3 : decide (r &&& 2 ^ n >>> 1 ≠ 0) = r.testBit (n - 1) := by
    rw [h1, Nat.and_two_pow]
    cases r.testBit (n - 1) <;> simp
  have h4 : r <<< 1 = 2 * r := by rw [Nat.shiftLeft_eq, pow_one, Nat.mul_comm]
  unfold MLS.next
  simp only [h3, assertUB, if_pos h2, Option.bind_eq_bind, Option.bind_some]
  unfold xtime
  rw [testBit_two_mul r n hn, h4]
  cases r.testBit (n - 1) <;> simp

theorem iter_lt {p n r : Nat} (h1 : p.testBit n = true) (h2 : p < 2 ^ (n + 1)) (hr : r < 2 ^ n) (k : Nat) :
    (xtime p n)^[k] r < 2 ^ n := by
  induction k with
  | zero => exact hr
  | succ k ih => rw [Function.iterate_succ_apply']; exact xtime_lt h1 h2 ih

open Classical in
theorem badLoop_eq {p n r : Nat} (hn : 0 < n) (hn2 : n ≤ 30) (h1 : p.testBit n = true)
    (h2 : p < 2 ^ (n + 1)) (hr : r < 2 ^ n) :
    ∀ l k, ∃ m', badLoop r l ⟨p, 2 ^ n >>> 1, (xtime p n)^[k] r⟩ = some (m',
        decide (∃ j, k < j ∧ j ≤ k + l ∧ (xtime p n)^[j] r = r)) ∧ m'.reg < 2 ^ n ∧
      ((¬ ∃ j, k < j ∧ j ≤ k + l ∧ (xtime p n)^[j] r = r) → m' = ⟨p, 2 ^ n >>> 1, (xtime p n)^[k + l] r⟩) := by
  intro l
  induction l with
  | zero =>
    intro k
    refine ⟨⟨p, 2 ^ n >>> 1, (xtime p n)^[k] r⟩, ?_, iter_lt h1 h2 hr k, fun _ => rfl⟩
    have : ¬ ∃ j, k < j ∧ j ≤ k + 0 ∧ (xtime p n)^[j] r = r := by
      rintro ⟨j, hj, hj2, _⟩; omega
    rw [decide_eq_false this]; rfl
  | succ l ih =>
    intro k
    obtain ⟨m', hm1, hm3, hm2⟩ := ih (k + 1)
    rw [badLoop, next_eq hn hn2 (iter_lt h1 h2 hr k)]
    simp only [Option.bind_eq_bind, Option.bind_some, ← Function.iterate_succ_apply' (f := xtime p n)]
    by_cases hk : (xtime p n)^[k + 1] r = r
    · have : ∃ j, k < j ∧ j ≤ k + (l + 1) ∧ (xtime p n)^[j] r = r := ⟨k + 1, by omega, by omega, hk⟩
      refine ⟨⟨p, 2 ^ n >>> 1, (xtime p n)^[k + 1] r⟩, ?_, iter_lt h1 h2 hr (k + 1), fun h => absurd this h⟩
      rw [if_pos hk, decide_eq_true this]
    · rw [if_neg hk]
      have e : (∃ j, k < j ∧ j ≤ k + (l + 1) ∧ (xtime p n)^[j] r = r) ↔
          (∃ j, k + 1 < j ∧ j ≤ k + 1 + l ∧ (xtime p n)^[j] r = r) := by
        constructor
        · rintro ⟨j, h3, h4, h5⟩
          refine ⟨j, ?_, by omega, h5⟩
          by_contra hc
          have : j = k + 1 := by omega
          subst this; exact hk h5
        · rintro ⟨j, h3, h4, h5⟩; exact ⟨j, by omega, by omega, h5⟩
      refine ⟨m', ?_, hm3, fun h => ?_⟩
      · rw [hm1, decide_eq_decide.2 e]
      · rw [hm2 (by rwa [← e]), show k + 1 + l = k + (l + 1) by omega]

theorem minimalPeriod_iff {α : Type*} (f : α → α) (r : α) (N : Nat) (hN : 0 < N) :
    Function.minimalPeriod f r = N ↔ f^[N] r = r ∧ ∀ j, 0 < j → j < N → f^[j] r ≠ r := by
  constructor
  · rintro rfl
    refine ⟨Function.iterate_minimalPeriod, fun j h1 h2 h3 => ?_⟩
    exact absurd (Function.IsPeriodicPt.minimalPeriod_le h1 h3) (by omega)
  · rintro ⟨h1, h2⟩
    have hle := Function.IsPeriodicPt.minimalPeriod_le hN h1
    have hpos := Function.IsPeriodicPt.minimalPeriod_pos hN h1
    by_contra hc
    exact h2 _ hpos (by omega) Function.iterate_minimalPeriod

/-! Linear structure of the default register. -/

theorem xtime_xor (p n a b : Nat) : xtime p n (a ^^^ b) = xtime p n a ^^^ xtime p n b := by
  have h : 2 * (a ^^^ b) = 2 * a ^^^ 2 * b := by
    apply Nat.eq_of_testBit_eq
    intro i
    cases i with
    | zero => simp
    | succ i =>
      rw [Nat.testBit_xor, testBit_two_mul _ _ (by omega), testBit_two_mul _ _ (by omega),
        testBit_two_mul _ _ (by omega), Nat.testBit_xor]
  unfold xtime
  rw [h, Nat.testBit_xor]
  cases (2 * a).testBit n <;> cases (2 * b).testBit n <;>
    simp only [Bool.false_bne, Bool.true_bne, Bool.not_true, Bool.not_false, if_true, Bool.false_eq_true, if_false]
  · rw [Nat.xor_assoc]
  · rw [Nat.xor_assoc, Nat.xor_assoc, Nat.xor_comm p]
  · rw [Nat.xor_assoc, Nat.xor_comm p, Nat.xor_assoc, Nat.xor_self, Nat.xor_zero]

/-- The register map as a map of bit vectors. -/
def stepV (p n : Nat) (v : XVec n) : XVec n := (BitVec.ofNat n (xtime p n (BitVec.toNat v)) : BitVec n)

theorem ofNat_xor (n a b : Nat) : BitVec.ofNat n (a ^^^ b) = BitVec.ofNat n a ^^^ BitVec.ofNat n b := by
  apply BitVec.eq_of_getLsbD_eq
  intro i hi
  simp [BitVec.getLsbD_ofNat, hi]

theorem stepV_add (p n : Nat) (a b : XVec n) : stepV p n (a + b) = stepV p n a + stepV p n b := by
  have h : BitVec.toNat (a + b) = BitVec.toNat a ^^^ BitVec.toNat b := BitVec.toNat_xor a b
  unfold stepV
  rw [h, xtime_xor, ofNat_xor]
  rfl

theorem toNat_stepV {p n : Nat} (h1 : p.testBit n = true) (h2 : p < 2 ^ (n + 1)) (v : XVec n) :
    BitVec.toNat (stepV p n v) = xtime p n (BitVec.toNat v) := by
  unfold stepV
  exact (BitVec.toNat_ofNat _ _).trans (Nat.mod_eq_of_lt (xtime_lt h1 h2 (BitVec.isLt v)))

theorem toNat_iter {p n : Nat} (h1 : p.testBit n = true) (h2 : p < 2 ^ (n + 1)) (k : Nat) (v : XVec n) :
    BitVec.toNat ((stepV p n)^[k] v) = (xtime p n)^[k] (BitVec.toNat v) := by
  induction k with
  | zero => rfl
  | succ k ih => rw [Function.iterate_succ_apply', Function.iterate_succ_apply', toNat_stepV h1 h2, ih]

set_option maxRecDepth 100000 in
theorem check20 : checkPeriod (stepV 1048585 20) XVec.fo (1#20 : BitVec 20) 1048585 20 (2 ^ 20 - 1)
    [3, 5, 5, 11, 31, 41] = true := by decide +kernel

theorem prime_dvd_mem (l : List Nat) (hl : ∀ p ∈ l, p.Prime) (q : Nat) (hq : q.Prime)
    (h : q ∣ l.prod) : q ∈ l := by
  induction l with
  | nil => simp at h; subst h; exact absurd hq Nat.not_prime_one
  | cons a t ih =>
    rw [List.prod_cons, hq.dvd_mul] at h
    rcases h with h | h
    · have := (Nat.prime_dvd_prime_iff_eq hq (hl a (by simp))).1 h
      simp [this]
    · simp [ih (fun p hp => hl p (by simp [hp])) h]

theorem periodV (s : XVec 20) (hs : s ≠ 0) :
    Function.minimalPeriod (stepV 1048585 20) s = 2 ^ 20 - 1 ∧
      ∃ k, k < 2 ^ 20 - 1 ∧ (stepV 1048585 20)^[k] (1#20 : BitVec 20) = s := by
  have h := minimalPeriod_of_check (XVec.lin (stepV 1048585 20) (stepV_add _ _)) (1#20 : BitVec 20)
    XVec.fo XVec.fo_eq 1048585 20 (2 ^ 20 - 1) [3, 5, 5, 11, 31, 41] (by norm_num) (by norm_num) (by norm_num)
    (fun q hq hd => prime_dvd_mem _
      (fun p hp => by
        simp only [List.mem_cons, List.not_mem_nil, or_false] at hp
        rcases hp with rfl | rfl | rfl | rfl | rfl | rfl <;> norm_num) q hq
      (by norm_num at hd ⊢; exact hd)) check20
  exact minimalPeriod_all _ _ (2 ^ 20 - 1) (by norm_num) (by rw [XVec.card]; norm_num)
    (by intro h; exact absurd (congrArg BitVec.toNat h) (by decide)) h s hs

end Verif.Mls
