import Verif.GF2.NatPoly
import Mathlib.Dynamics.PeriodicPts.Lemmas
import Mathlib.Data.Nat.Prime.Basic
import Mathlib.Algebra.Module.ZMod
import Mathlib.Data.Fintype.Card
/-
Periods of GF(2)-linear maps through arithmetic modulo a polynomial annihilating one
vector.  The arithmetic (`mulmod`, `powmod`) runs on natural numbers so that the kernel can
evaluate it.  Proof infrastructure, not a model of code.
-/
namespace Verif.GF2
open Polynomial

/-- Forces evaluation of a natural number to a literal in the kernel. -/
def force {α : Sort _} (n : Nat) (f : Nat → α) : α := Nat.rec (f 0) (fun m _ => f (m + 1)) n

theorem force_eq {α : Sort _} (n : Nat) (f : Nat → α) : force n f = f n := by cases n <;> rfl

/-- Multiplication by `X` modulo `p` (of degree `n`). -/
def xtime (p n a : Nat) : Nat := if (2 * a).testBit n then (2 * a) ^^^ p else 2 * a

/-- Horner loop for the product modulo `p`. -/
def mm (p n a b : Nat) : Nat → Nat → Nat
  | 0, acc => acc
  | k + 1, acc => force (xtime p n acc ^^^ (if a.testBit k then b else 0)) fun r => mm p n a b k r

/-- Product modulo `p`. -/
def mulmod (p n a b : Nat) : Nat := mm p n a b n 0

/-- `X^k` modulo `p`. -/
def powmod (p n : Nat) : Nat → Nat → Nat
  | 0, _ => 1
  | f + 1, k =>
    if k = 0 then 1 else
      force (powmod p n f (k / 2)) fun h =>
        force (mulmod p n h h) fun s => if k.testBit 0 then xtime p n s else s

theorem xtime_spec (p n a : Nat) : natPoly p ∣ natPoly (xtime p n a) - X * natPoly a := by
  unfold xtime
  split
  · rw [natPoly_xor, natPoly_two_mul, add_sub_cancel_left]
  · rw [natPoly_two_mul, sub_self]; exact dvd_zero _

theorem xtime_lt {p n a : Nat} (hp1 : p.testBit n = true) (hp2 : p < 2 ^ (n + 1))
    (ha : a < 2 ^ n) : xtime p n a < 2 ^ n := by
  unfold xtime
  have h2 : 2 * a < 2 ^ (n + 1) := by rw [pow_succ]; omega
  split
  · rename_i h
    apply Nat.lt_pow_two_of_testBit
    intro i hi
    rw [Nat.testBit_xor]
    by_cases hin : i = n
    · subst hin; rw [h, hp1]; rfl
    · have : 2 ^ (n + 1) ≤ 2 ^ i := Nat.pow_le_pow_right (by norm_num) (by omega)
      rw [Nat.testBit_eq_false_of_lt (by omega), Nat.testBit_eq_false_of_lt (by omega)]; rfl
  · rename_i h
    apply Nat.lt_pow_two_of_testBit
    intro i hi
    by_cases hin : i = n
    · subst hin; simpa using h
    · have : 2 ^ (n + 1) ≤ 2 ^ i := Nat.pow_le_pow_right (by norm_num) (by omega)
      exact Nat.testBit_eq_false_of_lt (by omega)

theorem mod_two_pow_succ_xor (a k : Nat) :
    a % 2 ^ (k + 1) = (a % 2 ^ k) ^^^ (if a.testBit k then 2 ^ k else 0) := by
  apply Nat.eq_of_testBit_eq
  intro i
  rw [Nat.testBit_xor, Nat.testBit_mod_two_pow, Nat.testBit_mod_two_pow]
  by_cases h : i = k
  · subst h
    cases h : a.testBit i <;> simp
  · have : (if a.testBit k then 2 ^ k else 0).testBit i = false := by
      split
      · rw [Nat.testBit_two_pow]; simp; omega
      · simp
    rw [this]
    by_cases h2 : i < k
    · simp [h2, show i < k + 1 by omega]
    · simp [h2, show ¬ i < k + 1 by omega]

theorem mm_spec (p n a b : Nat) : ∀ k acc, natPoly p ∣
    natPoly (mm p n a b k acc) - (X ^ k * natPoly acc + natPoly (a % 2 ^ k) * natPoly b) := by
  intro k
  induction k with
  | zero => intro acc; simp [mm, Nat.mod_one, natPoly_zero]
  | succ k ih =>
    intro acc
    rw [mm, force_eq]
    have h1 := ih (xtime p n acc ^^^ (if a.testBit k then b else 0))
    have h2 := xtime_spec p n acc
    rw [natPoly_xor] at h1
    rw [mod_two_pow_succ_xor, natPoly_xor]
    have e1 : natPoly (if a.testBit k then b else 0) = if a.testBit k then natPoly b else 0 := by
      split <;> simp [natPoly_zero]
    have e2 : natPoly (if a.testBit k then 2 ^ k else 0) = if a.testBit k then X ^ k else 0 := by
      split <;> simp [natPoly_zero, natPoly_two_pow]
    rw [e1] at h1
    rw [e2]
    have h3 := h2.mul_left (X ^ k)
    have := dvd_add h1 h3
    convert this using 1
    split <;> ring

theorem mulmod_spec {p n a b : Nat} (ha : a < 2 ^ n) :
    natPoly p ∣ natPoly (mulmod p n a b) - natPoly a * natPoly b := by
  have := mm_spec p n a b n 0
  rwa [natPoly_zero, mul_zero, zero_add, Nat.mod_eq_of_lt ha] at this

theorem mm_lt {p n a b : Nat} (hp1 : p.testBit n = true) (hp2 : p < 2 ^ (n + 1))
    (hb : b < 2 ^ n) : ∀ k acc, acc < 2 ^ n → mm p n a b k acc < 2 ^ n := by
  intro k
  induction k with
  | zero => intro acc h; exact h
  | succ k ih =>
    intro acc h
    rw [mm, force_eq]
    apply ih
    apply Nat.xor_lt_two_pow (xtime_lt hp1 hp2 h)
    split
    · exact hb
    · exact Nat.two_pow_pos n

theorem mulmod_lt {p n a b : Nat} (hp1 : p.testBit n = true) (hp2 : p < 2 ^ (n + 1))
    (hb : b < 2 ^ n) : mulmod p n a b < 2 ^ n :=
  mm_lt hp1 hp2 hb _ _ (Nat.two_pow_pos n)

theorem powmod_spec {p n : Nat} (hn : 0 < n) (hp1 : p.testBit n = true) (hp2 : p < 2 ^ (n + 1)) :
    ∀ f k, k < 2 ^ f → powmod p n f k < 2 ^ n ∧ natPoly p ∣ natPoly (powmod p n f k) - X ^ k := by
  have one_lt : 1 < 2 ^ n := Nat.one_lt_two_pow (by omega)
  intro f
  induction f with
  | zero =>
    intro k hk
    have : k = 0 := by simpa using hk
    subst this
    simp [powmod, natPoly_one, hn.ne']
  | succ f ih =>
    intro k hk
    rw [powmod]
    by_cases h0 : k = 0
    · subst h0; simp [natPoly_one, hn.ne']
    · rw [if_neg h0, force_eq, force_eq]
      obtain ⟨h1, h2⟩ := ih (k / 2) (by rw [pow_succ] at hk; omega)
      generalize powmod p n f (k / 2) = h at *
      have hs := mulmod_lt (a := h) hp1 hp2 h1
      have hs2 := mulmod_spec (p := p) (b := h) h1
      generalize mulmod p n h h = s at *
      have key : natPoly p ∣ natPoly s - X ^ (2 * (k / 2)) := by
        have e : natPoly s - X ^ (2 * (k / 2)) = (natPoly s - natPoly h * natPoly h) +
            (natPoly h - X ^ (k / 2)) * (natPoly h + X ^ (k / 2)) := by ring
        rw [e]; exact dvd_add hs2 (h2.mul_right _)
      by_cases hk2 : k.testBit 0 = true
      · rw [if_pos hk2]
        refine ⟨xtime_lt hp1 hp2 hs, ?_⟩
        have hx := xtime_spec p n s
        have hk3 : k = 2 * (k / 2) + 1 := by
          simp at hk2; omega
        have e : natPoly (xtime p n s) - X ^ k = (natPoly (xtime p n s) - X * natPoly s) +
            X * (natPoly s - X ^ (2 * (k / 2))) := by
          conv => lhs; rw [hk3]
          ring
        rw [e]; exact dvd_add hx (key.mul_left _)
      · rw [if_neg hk2]
        refine ⟨hs, ?_⟩
        have hk3 : k = 2 * (k / 2) := by
          simp at hk2; omega
        rw [← hk3] at key; exact key

section Linear
variable {V : Type*} [AddCommGroup V] [Module (ZMod 2) V] (T : V →ₗ[ZMod 2] V) (e : V)

/-- Horner evaluation of a polynomial in `T` at `e`. -/
def evC (T : V → V) (fo : V → (V → V) → V) (e : V) : Nat → Nat → V
  | 0, _ => 0
  | f + 1, q => fo (evC T fo e f (q / 2)) fun v => fo (T v) fun w => if q.testBit 0 then w + e else w

theorem evC_eq (fo : V → (V → V) → V) (hfo : ∀ x f, fo x f = f x) : ∀ f q, q < 2 ^ f →
    evC T fo e f q = aeval T (natPoly q) e := by
  intro f
  induction f with
  | zero =>
    intro q hq
    have : q = 0 := by simpa using hq
    subst this; simp [evC, natPoly_zero]
  | succ f ih =>
    intro q hq
    rw [evC, hfo, hfo, ih _ (by rw [pow_succ] at hq; omega), natPoly_half q]
    split <;> simp

/-- The kernel-checkable certificate for "the orbit of `e` under `T` has exactly `N` points":
`p` annihilates `e`, `X^N = 1 mod p`, and `X^(N/q)` does not fix `e` for the listed `q`. -/
def checkPeriod [DecidableEq V] (T : V → V) (fo : V → (V → V) → V) (e : V) (p n N : Nat)
    (qs : List Nat) : Bool :=
  p.testBit n && decide (p < 2 ^ (n + 1)) && decide (evC T fo e (n + 1) p = 0) &&
  decide (powmod p n (n + 1) N = 1) &&
  qs.all fun q => force (powmod p n (n + 1) (N / q)) fun r => decide (evC T fo e (n + 1) r ≠ e)

theorem minimalPeriod_of_check [DecidableEq V] (fo : V → (V → V) → V)
    (hfo : ∀ x f, fo x f = f x) (p n N : Nat) (qs : List Nat) (hn : 0 < n) (hN : 0 < N)
    (hNn : N < 2 ^ (n + 1))
    (hqs : ∀ q, q.Prime → q ∣ N → q ∈ qs) (hc : checkPeriod T fo e p n N qs = true) :
    Function.minimalPeriod T e = N := by
  unfold checkPeriod at hc
  simp only [Bool.and_eq_true, decide_eq_true_eq, List.all_eq_true, force_eq] at hc
  obtain ⟨⟨⟨⟨h1, h2⟩, h3⟩, h4⟩, h5⟩ := hc
  rw [evC_eq T e fo hfo _ _ h2] at h3
  have hpow : ∀ k, k < 2 ^ (n + 1) →
      T^[k] e = aeval T (natPoly (powmod p n (n + 1) k)) e := by
    intro k hk
    obtain ⟨_, d, hd⟩ := powmod_spec hn h1 h2 (n + 1) k hk
    rw [mul_comm] at hd
    have h := congrArg (fun f => aeval T f e) (sub_eq_iff_eq_add.1 hd)
    simp only [map_add, map_mul, LinearMap.add_apply, map_pow, aeval_X] at h
    rw [h, Module.End.mul_apply, h3, map_zero, zero_add, Module.End.pow_apply]
  have hper : Function.IsPeriodicPt T N e := by
    change T^[N] e = e
    rw [hpow N hNn, h4, natPoly_one]; simp
  have hdvd := hper.minimalPeriod_dvd
  by_contra hne
  obtain ⟨c, hc⟩ := hdvd
  have hc1 : c ≠ 1 := by rintro rfl; rw [mul_one] at hc; exact hne hc.symm
  obtain ⟨q, hq, hqc⟩ := Nat.exists_prime_and_dvd hc1
  obtain ⟨c', rfl⟩ := hqc
  have hqN : q ∣ N := ⟨Function.minimalPeriod T e * c', by rw [hc]; ring⟩
  have hmem := hqs q hq hqN
  have h6 := h5 q hmem
  have hlt : N / q < 2 ^ (n + 1) := lt_of_le_of_lt (Nat.div_le_self _ _) hNn
  have hplt := (powmod_spec hn h1 h2 (n + 1) (N / q) hlt).1
  rw [evC_eq T e fo hfo _ _ (by rw [pow_succ]; omega), ← hpow _ hlt] at h6
  apply h6
  have hNq : N / q = Function.minimalPeriod T e * c' := by
    rw [hc, show Function.minimalPeriod T e * (q * c') = q * (Function.minimalPeriod T e * c') by ring,
      Nat.mul_div_cancel_left _ hq.pos]
  rw [hNq]
  exact (Function.isPeriodicPt_minimalPeriod T e).mul_const c'

/-- If the orbit of `e ≠ 0` has as many points as there are non-zero vectors, it contains all
of them, so every non-zero vector has that period. -/
theorem minimalPeriod_all [Fintype V] (N : Nat) (hN : 0 < N) (hcard : Fintype.card V = N + 1)
    (he : e ≠ 0) (hp : Function.minimalPeriod T e = N) (x : V) (hx : x ≠ 0) :
    Function.minimalPeriod T x = N ∧ ∃ k, k < N ∧ T^[k] e = x := by
  classical
  have hT : T^[N] e = e := by rw [← hp]; exact Function.iterate_minimalPeriod
  have hnz : ∀ k, T^[k] e ≠ 0 := by
    intro k h
    have h2 : T^[k * N] e = e := by
      rw [Nat.mul_comm, Function.iterate_mul]
      exact Function.iterate_fixed hT k
    have h3 : T^[k * N] e = 0 := by
      obtain ⟨m, hm⟩ : ∃ m, k * N = m + k := ⟨k * N - k, by
        have : k * 1 ≤ k * N := Nat.mul_le_mul_left k hN
        omega⟩
      rw [hm, Function.iterate_add_apply, h]
      exact Function.iterate_fixed (map_zero T) m
    exact he (h2.symm.trans h3)
  let orb : Finset V := (Finset.range N).image fun k => T^[k] e
  have horb : orb.card = N := by
    rw [Finset.card_image_of_injOn, Finset.card_range]
    intro a ha b hb hab
    have := Function.iterate_injOn_Iio_minimalPeriod (f := T) (x := e)
    rw [hp] at this
    exact this (by simpa using ha) (by simpa using hb) hab
  have hsub : orb ⊆ Finset.univ.erase 0 := by
    intro y hy
    simp only [orb, Finset.mem_image] at hy
    obtain ⟨k, _, rfl⟩ := hy
    simp [hnz k]
  have heq : orb = Finset.univ.erase 0 := by
    apply Finset.eq_of_subset_of_card_le hsub
    rw [Finset.card_erase_of_mem (Finset.mem_univ _), Finset.card_univ, hcard, horb]; simp
  have hxo : x ∈ orb := by rw [heq]; simp [hx]
  simp only [orb, Finset.mem_image, Finset.mem_range] at hxo
  obtain ⟨k, hk, rfl⟩ := hxo
  refine ⟨?_, k, hk, rfl⟩
  rw [Function.minimalPeriod_apply_iterate, hp]
  exact ⟨N, hN, hT⟩

end Linear

end Verif.GF2
