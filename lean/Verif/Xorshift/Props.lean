import Verif.Xorshift.PeriodWow
import Mathlib.Data.Fintype.EquivFin
import Mathlib.Data.Finite.Prod
/-
C04, C05: the xorshift generators.

`Function.minimalPeriod f s = N` (Mathlib) says: `N > 0` applications of `f` lead back to `s`
and no smaller positive number does (`C05_*` also spell this out).
-/
namespace Verif.Xorshift
open GF2

/-! ### Specification vocabulary -/

/-- The state after `k` calls. -/
def after {S O : Type} (next : S → S × O) (s : S) (k : Nat) : S := (fun t => (next t).1)^[k] s

/-- The `k`-th value returned (counting from 0). -/
def output {S O : Type} (next : S → S × O) (s : S) (k : Nat) : O := (next (after next s k)).2

/-! ### Helper lemmas -/

theorem shl_inj {n : Nat} (k : Nat) (hk : 0 < k) (a b : BitVec n)
    (h : a ^^^ (a <<< k) = b ^^^ (b <<< k)) : a = b := by
  have key : ∀ i, a.getLsbD i = b.getLsbD i := by
    intro i
    induction i using Nat.strongRecOn with
    | _ i ih =>
      have h1 := congrArg (fun x => x.getLsbD i) h
      simp only [BitVec.getLsbD_xor, BitVec.getLsbD_shiftLeft] at h1
      by_cases hik : i < k
      · simpa [hik] using h1
      · rw [ih (i - k) (by omega)] at h1
        simpa using h1
  exact BitVec.eq_of_getLsbD_eq (fun i _ => key i)

theorem shr_inj {n : Nat} (k : Nat) (hk : 0 < k) (a b : BitVec n)
    (h : a ^^^ (a >>> k) = b ^^^ (b >>> k)) : a = b := by
  have key : ∀ j i, n ≤ i + j → a.getLsbD i = b.getLsbD i := by
    intro j
    induction j using Nat.strongRecOn with
    | _ j ih =>
      intro i hij
      by_cases hn : n ≤ i
      · rw [BitVec.getLsbD_of_ge _ _ hn, BitVec.getLsbD_of_ge _ _ hn]
      · have h1 := congrArg (fun x => x.getLsbD i) h
        simp only [BitVec.getLsbD_xor, BitVec.getLsbD_ushiftRight] at h1
        by_cases hj : j < k
        · rw [BitVec.getLsbD_of_ge a (k + i) (by omega),
            BitVec.getLsbD_of_ge b (k + i) (by omega)] at h1
          simpa using h1
        · rw [ih (j - k) (by omega) (k + i) (by omega)] at h1
          simpa using h1
  exact BitVec.eq_of_getLsbD_eq (fun i _ => key n i (by omega))

instance : Finite (BitVec 32) := inferInstanceAs (Finite (XVec 32))
instance : Finite (BitVec 64) := inferInstanceAs (Finite (XVec 64))
instance : Finite X32 := Finite.of_injective (fun s => s.y) (fun a b h => by cases a; cases b; simp_all)
instance : Finite X64 := Finite.of_injective (fun s => s.x) (fun a b h => by cases a; cases b; simp_all)
instance : Finite X128 := Finite.of_injective (fun s => (s.x, s.y, s.z, s.w))
  (fun a b h => by cases a; cases b; simp_all)
instance : Finite Wow := Finite.of_injective (fun s => (s.x, s.y, s.z, s.w, s.v, s.d))
  (fun a b h => by cases a; cases b; simp_all)

theorem inj32 : Function.Injective fun s : X32 => (X32.next s).1 := by
  rintro ⟨a⟩ ⟨b⟩ h
  simp only [X32.next, X32.mk.injEq] at h
  rw [shl_inj 13 (by norm_num) _ _ (shr_inj 17 (by norm_num) _ _ (shl_inj 5 (by norm_num) _ _ h))]

theorem inj64 : Function.Injective fun s : X64 => (X64.next s).1 := by
  rintro ⟨a⟩ ⟨b⟩ h
  simp only [X64.next, X64.mk.injEq] at h
  rw [shl_inj 13 (by norm_num) _ _ (shr_inj 7 (by norm_num) _ _ (shl_inj 17 (by norm_num) _ _ h))]

theorem inj128 : Function.Injective fun s : X128 => (X128.next s).1 := by
  rintro ⟨x, y, z, w⟩ ⟨x', y', z', w'⟩ h
  simp only [X128.next, X128.mk.injEq] at h
  obtain ⟨rfl, rfl, rfl, h⟩ := h
  rw [BitVec.xor_right_inj] at h
  rw [shl_inj 11 (by norm_num) _ _ (shr_inj 8 (by norm_num) _ _ h)]

theorem add_const_inj (c a b : BitVec 32) (h : a + c = b + c) : a = b := by
  have := congrArg (· - c) h
  simpa using this

theorem injWow : Function.Injective fun s : Wow => (Wow.next s).1 := by
  rintro ⟨x, y, z, w, v, d⟩ ⟨x', y', z', w', v', d'⟩ h
  simp only [Wow.next, Wow.mk.injEq] at h
  obtain ⟨rfl, rfl, rfl, rfl, h, hd⟩ := h
  rw [BitVec.xor_right_inj] at h
  rw [shr_inj 2 (by norm_num) _ _ (shl_inj 1 (by norm_num) _ _ h), add_const_inj _ _ _ hd]

theorem after_ne {S O : Type} (next : S → S × O) (inj : Function.Injective fun s => (next s).1)
    (z : S) (hz : (next z).1 = z) (s : S) (hs : s ≠ z) (k : Nat) : after next s k ≠ z := by
  induction k with
  | zero => exact hs
  | succ k ih =>
    unfold after at *
    rw [Function.iterate_succ_apply']
    intro h
    exact ih (inj (by simpa [hz] using h))

/-! ### C04 -/

/-- One call of the generators is a bijection of the internal state. -/
theorem C04_bijective :
    (Function.Bijective fun s : X32 => (X32.next s).1) ∧
    (Function.Bijective fun s : X64 => (X64.next s).1) ∧
    (Function.Bijective fun s : X128 => (X128.next s).1) ∧
    (Function.Bijective fun s : Wow => (Wow.next s).1) :=
  ⟨Finite.injective_iff_bijective.1 inj32, Finite.injective_iff_bijective.1 inj64,
    Finite.injective_iff_bijective.1 inj128, Finite.injective_iff_bijective.1 injWow⟩

/-- A pure xorshift generator with a non-zero state never reaches the all-zero state. -/
theorem C04_never_zero :
    (∀ (s : X32) (k : Nat), s ≠ ⟨0⟩ → after X32.next s k ≠ ⟨0⟩) ∧
    (∀ (s : X64) (k : Nat), s ≠ ⟨0⟩ → after X64.next s k ≠ ⟨0⟩) ∧
    (∀ (s : X128) (k : Nat), s ≠ ⟨0, 0, 0, 0⟩ → after X128.next s k ≠ ⟨0, 0, 0, 0⟩) :=
  ⟨fun s k h => after_ne _ inj32 _ (by decide) s h k, fun s k h => after_ne _ inj64 _ (by decide) s h k,
    fun s k h => after_ne _ inj128 _ (by decide) s h k⟩

/-- For `Xorshift32`/`Xorshift64` the value returned is the new state, so it is never zero
for a non-zero seed. -/
theorem C04_output_nonzero :
    (∀ (s : X32) (k : Nat), s ≠ ⟨0⟩ → output X32.next s k ≠ 0) ∧
    (∀ (s : X64) (k : Nat), s ≠ ⟨0⟩ → output X64.next s k ≠ 0) := by
  constructor
  · intro s k h h0
    apply C04_never_zero.1 s (k + 1) h
    unfold after
    rw [Function.iterate_succ_apply']
    exact congrArg X32.mk h0
  · intro s k h h0
    apply C04_never_zero.2.1 s (k + 1) h
    unfold after
    rw [Function.iterate_succ_apply']
    exact congrArg X64.mk h0

/-- After `j` calls on an object with any seed, `reset(seed)` makes it return what a fresh
object constructed with `seed` returns, for ever; with no argument, both use the same default
seed. -/
theorem C04_reset :
    (∀ (s0 seed : BitVec 32) (j k : Nat),
      output X32.next ((after X32.next (X32.new s0) j).reset seed) k = output X32.next (X32.new seed) k) ∧
    (∀ (s0 seed : BitVec 64) (j k : Nat),
      output X64.next ((after X64.next (X64.new s0) j).reset seed) k = output X64.next (X64.new seed) k) ∧
    (∀ (s : X128) (x y z w : BitVec 32) (j k : Nat),
      output X128.next ((after X128.next s j).reset x y z w) k = output X128.next (X128.new x y z w) k) ∧
    (∀ (s : Wow) (x y z w v d : BitVec 32) (j k : Nat),
      output Wow.next ((after Wow.next s j).reset x y z w v d) k =
        output Wow.next (Wow.new x y z w v d) k) ∧
    (∀ s : X32, s.reset = X32.new) ∧ (∀ s : X64, s.reset = X64.new) ∧
    (∀ s : X128, s.reset = X128.new) ∧ (∀ s : Wow, s.reset = Wow.new) :=
  ⟨fun _ _ _ _ => rfl, fun _ _ _ _ => rfl, fun _ _ _ _ _ _ _ => rfl, fun _ _ _ _ _ _ _ _ _ => rfl,
    fun _ => rfl, fun _ => rfl, fun _ => rfl, fun _ => rfl⟩

/-- The default seeds are not the all-zero state. -/
example : X32.new ≠ ⟨0⟩ ∧ X64.new ≠ ⟨0⟩ ∧ X128.new ≠ ⟨0, 0, 0, 0⟩ := by decide

/-! ### C05 -/

theorem iterate_conj {S T : Type} (f : S → S) (g : T → T) (e : S → T) (h : ∀ s, e (f s) = g (e s))
    (k : Nat) (s : S) : e (f^[k] s) = g^[k] (e s) := by
  induction k generalizing s with
  | zero => rfl
  | succ k ih => rw [Function.iterate_succ_apply, Function.iterate_succ_apply, ih, h]

theorem first_return {S T : Type} (f : S → S) (g : T → T) (e : S → T) (he : Function.Injective e)
    (h : ∀ s, e (f s) = g (e s)) (s : S) (N : Nat) (hp : Function.minimalPeriod g (e s) = N)
    (k : Nat) : f^[k] s = s ↔ N ∣ k := by
  rw [← hp, ← Function.isPeriodicPt_iff_minimalPeriod_dvd, ← he.eq_iff, iterate_conj f g e h]
  rfl

/-- From every non-zero state the generator is back in that state after `k` calls exactly when
`k` is a multiple of `2^n - 1`; so the first return is after exactly `2^n - 1` calls. -/
theorem C05_full_period_32 (s : X32) (hs : s ≠ ⟨0⟩) (k : Nat) :
    after X32.next s k = s ↔ (2 ^ 32 - 1) ∣ k :=
  first_return _ step32 (fun s => s.y) (fun a b h => by cases a; cases b; simp_all) (fun _ => rfl) s _
    (period32 _ (fun h => hs (congrArg X32.mk h))) k

theorem C05_full_period_64 (s : X64) (hs : s ≠ ⟨0⟩) (k : Nat) :
    after X64.next s k = s ↔ (2 ^ 64 - 1) ∣ k :=
  first_return _ step64 (fun s => s.x) (fun a b h => by cases a; cases b; simp_all) (fun _ => rfl) s _
    (period64 _ (fun h => hs (congrArg X64.mk h))) k

theorem C05_full_period_128 (s : X128) (hs : s ≠ ⟨0, 0, 0, 0⟩) (k : Nat) :
    after X128.next s k = s ↔ (2 ^ 128 - 1) ∣ k :=
  first_return _ step128 (fun s => (s.x, s.y, s.z, s.w))
    (fun a b h => by
      cases a; cases b; injection h with h1 h; injection h with h2 h; injection h with h3 h4
      exact (X128.mk.injEq ..).mpr ⟨h1, h2, h3, h4⟩) (fun _ => rfl) s _
    (period128 _ (fun h => hs (by
      have h1 := congrArg (fun v : V128 => v.1) h
      have h2 := congrArg (fun v : V128 => v.2.1) h
      have h3 := congrArg (fun v : V128 => v.2.2.1) h
      have h4 := congrArg (fun v : V128 => v.2.2.2) h
      cases s; exact (X128.mk.injEq ..).mpr ⟨h1, h2, h3, h4⟩))) k

/-- Hence no state repeats within a period and the default-seeded objects run through all
`2^n - 1` non-zero states: two call counts lead to the same state iff they are congruent. -/
theorem C05_no_short_cycle (s : X32) (hs : s ≠ ⟨0⟩) (j k : Nat) (hjk : j < k)
    (hk : k < j + (2 ^ 32 - 1)) : after X32.next s j ≠ after X32.next s k := by
  intro h
  have h1 : after X32.next (after X32.next s j) (k - j) = after X32.next s j := by
    unfold after at *
    rw [← Function.iterate_add_apply, Nat.sub_add_cancel hjk.le, ← h]
  rw [C05_full_period_32 _ (C04_never_zero.1 s j hs)] at h1
  have := Nat.le_of_dvd (by omega) h1
  omega

example : (⟨1⟩ : X32) ≠ ⟨0⟩ ∧ (⟨0, 0, 0, 1⟩ : X128) ≠ ⟨0, 0, 0, 0⟩ := by decide

/-- The counter of `Xorwow`. -/
theorem wow_d (s : Wow) : (Wow.next s).1.d = s.d + 362437#32 := rfl

theorem counter (f : Wow → Wow) (c : Nat) (hf : ∀ s, (f s).d = s.d + BitVec.ofNat 32 c) (s : Wow) (k : Nat) : (f^[k] s).d = s.d + BitVec.ofNat 32 (k * c) := by
  induction k with
  | zero => simp
  | succ k ih => rw [Function.iterate_succ_apply', hf, ih, BitVec.add_assoc, Nat.add_mul, Nat.one_mul, ← BitVec.ofNat_add]

theorem add_self_iff (a b : BitVec 32) : a + b = a ↔ b = 0#32 := by
  constructor
  · intro e
    have : a + b = a + 0#32 := by rw [e, BitVec.add_zero]
    exact (BitVec.add_right_inj a).1 this
  · intro e; rw [e, BitVec.add_zero]

theorem ofNat_zero_iff (c k : Nat) (hc : c.Coprime (2 ^ 32)) : BitVec.ofNat 32 (k * c) = 0#32 ↔ 2 ^ 32 ∣ k := by
  rw [← BitVec.toNat_inj, BitVec.toNat_ofNat, BitVec.toNat_ofNat, Nat.zero_mod, ← Nat.dvd_iff_mod_eq_zero]
  exact Nat.Coprime.dvd_mul_right hc.symm

theorem wow_counter_iff (s : Wow) (k : Nat) : (after Wow.next s k).d = s.d ↔ 2 ^ 32 ∣ k := by
  unfold after
  rw [counter _ 362437 wow_d, add_self_iff, ofNat_zero_iff _ _ (by norm_num)]

theorem dvd_mul_iff (a b n k : Nat) (h : a.Coprime b) (hn : n = a * b) : (a ∣ k ∧ b ∣ k) ↔ n ∣ k := by
  subst hn
  constructor
  · rintro ⟨h1, h2⟩; exact Nat.Coprime.mul_dvd_of_dvd_of_dvd h h1 h2
  · intro h; exact ⟨(Dvd.intro _ rfl).trans h, (Dvd.intro_left _ rfl).trans h⟩

theorem period160_iff (s : V160) (hs : s ≠ 0) (k : Nat) : step160^[k] s = s ↔ (2 ^ 160 - 1) ∣ k := by
  have h := Function.isPeriodicPt_iff_minimalPeriod_dvd (f := step160) (x := s) (n := k)
  rw [period160 s hs] at h
  exact h

def wowE (s : Wow) : V160 := (s.x, s.y, s.z, s.w, s.v)

theorem wowE_next (s : Wow) : wowE s.next.1 = step160 (wowE s) := by simp only [wowE, step160, Wow.next]

theorem wow_ext (r s : Wow) : r = s ↔ wowE r = wowE s ∧ r.d = s.d := by
  constructor
  · rintro rfl; exact ⟨rfl, rfl⟩
  · rintro ⟨h1, h2⟩
    cases r; cases s
    injection h1 with a1 h1; injection h1 with a2 h1; injection h1 with a3 h1; injection h1 with a4 a5
    exact (Wow.mk.injEq ..).mpr ⟨a1, a2, a3, a4, a5, h2⟩

theorem wowE_ne (s : Wow) (hs : ¬ (s.x = 0 ∧ s.y = 0 ∧ s.z = 0 ∧ s.w = 0 ∧ s.v = 0)) : wowE s ≠ 0 :=
  fun h => hs ⟨congrArg (fun v : V160 => v.1) h, congrArg (fun v : V160 => v.2.1) h, congrArg (fun v : V160 => v.2.2.1) h,
    congrArg (fun v : V160 => v.2.2.2.1) h, congrArg (fun v : V160 => v.2.2.2.2) h⟩

theorem wow_period_aux (s : Wow) (hs : ¬ (s.x = 0 ∧ s.y = 0 ∧ s.z = 0 ∧ s.w = 0 ∧ s.v = 0)) (k : Nat) :
    after Wow.next s k = s ↔ (2 ^ 160 - 1) ∣ k ∧ 2 ^ 32 ∣ k := by
  rw [wow_ext, wow_counter_iff, ← period160_iff (wowE s) (wowE_ne s hs) k, ← iterate_conj (fun t : Wow => t.next.1) step160 wowE wowE_next k s]
  rfl

theorem c1 : Nat.Coprime (2 ^ 160 - 1) (2 ^ 32) := by norm_num
theorem c2 : 2 ^ 192 - 2 ^ 32 = (2 ^ 160 - 1) * 2 ^ 32 := by norm_num

/-- `Xorwow` with any of its five xorshift words not zero: back in the same state after `k` calls exactly when `k` is a multiple of
`(2^160 - 1) * 2^32 = 2^192 - 2^32`. -/
theorem C05_full_period_wow (s : Wow) (hs : ¬ (s.x = 0 ∧ s.y = 0 ∧ s.z = 0 ∧ s.w = 0 ∧ s.v = 0)) (k : Nat) :
    after Wow.next s k = s ↔ (2 ^ 192 - 2 ^ 32) ∣ k := by
  rw [wow_period_aux s hs k]
  exact dvd_mul_iff _ _ _ _ c1 c2

/-- With all five words zero only the counter moves: the period is `2^32`. -/
theorem C05_wow_zero (d : BitVec 32) (k : Nat) : after Wow.next ⟨0, 0, 0, 0, 0, d⟩ k = ⟨0, 0, 0, 0, 0, d⟩ ↔ 2 ^ 32 ∣ k := by
  rw [← wow_counter_iff ⟨0, 0, 0, 0, 0, d⟩ k]
  have h : ∀ k, (after Wow.next ⟨0, 0, 0, 0, 0, d⟩ k) = ⟨0, 0, 0, 0, 0, (after Wow.next ⟨0, 0, 0, 0, 0, d⟩ k).d⟩ := by
    intro k
    induction k with
    | zero => rfl
    | succ k ih =>
      unfold after at *
      rw [Function.iterate_succ_apply']
      rw [ih]
      generalize Wow.d _ = q
      unfold Wow.next
      simp
  constructor
  · intro e; rw [e]
  · intro e; rw [h k, e]

/-- The default seed. -/
example : ¬ (Wow.new.x = 0 ∧ Wow.new.y = 0 ∧ Wow.new.z = 0 ∧ Wow.new.w = 0 ∧ Wow.new.v = 0) := by decide

end Verif.Xorshift
