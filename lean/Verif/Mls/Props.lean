import Verif.Mls.Proof
import Mathlib.Algebra.Order.Interval.Finset.SuccPred
import Mathlib.Order.Interval.Finset.Nat
/- C06, C07: maximum length sequences. -/
namespace Verif.Mls
open GF2

/-! ### Specification vocabulary -/

/-- The specification of one register step, independent of the code: multiply by two and, if
the result reaches `2^n`, xor the polynomial. -/
def specStep (p n r : Nat) : Nat := if 2 ^ n ≤ 2 * r then (2 * r) ^^^ p else 2 * r

/-- `k` calls of `operator()`; `none` if one of them is UB. -/
def calls : Nat → MLS → Option MLS
  | 0, m => some m
  | k + 1, m => (m.next).bind fun r => calls k r.1

/-- The bit returned by call number `k` (counting from 0). -/
def outBit (m : MLS) (k : Nat) : Option Bool := (calls k m).bind fun m' => (m'.next).map (·.2)

/-! ### Lemmas -/

theorem xtime_eq_spec {p n r : Nat} (hr : r < 2 ^ n) : xtime p n r = specStep p n r := by
  unfold xtime specStep
  have : (2 * r).testBit n = true ↔ 2 ^ n ≤ 2 * r := by
    constructor
    · intro h; exact Nat.ge_two_pow_of_testBit h
    · intro h
      by_contra hc
      have : 2 * r < 2 ^ n := by
        apply Nat.lt_pow_two_of_testBit
        intro i hi
        by_cases hin : i = n
        · subst hin; simpa using hc
        · apply Nat.testBit_eq_false_of_lt
          calc 2 * r < 2 ^ (n + 1) := by rw [pow_succ]; omega
            _ ≤ 2 ^ i := Nat.pow_le_pow_right (by norm_num) (by omega)
      omega
  by_cases h : 2 ^ n ≤ 2 * r
  · rw [if_pos h, if_pos (this.2 h)]
  · rw [if_neg h, if_neg (fun h2 => h (this.1 h2))]

theorem testBit_top {p n : Nat} (h1 : 2 ^ n ≤ p) (h2 : p < 2 ^ (n + 1)) : p.testBit n = true := by
  by_contra hc
  have : p < 2 ^ n := by
    apply Nat.lt_pow_two_of_testBit
    intro i hi
    by_cases hin : i = n
    · subst hin; simpa using hc
    · apply Nat.testBit_eq_false_of_lt
      exact lt_of_lt_of_le h2 (Nat.pow_le_pow_right (by norm_num) (by omega))
  omega

theorem new_eq {p n r : Nat} (h1 : 2 ^ n ≤ p) (h2 : p < 2 ^ (n + 1)) (hn : n ≤ 30) :
    MLS.new p r = ⟨p, 2 ^ n >>> 1, r⟩ := by
  unfold MLS.new; rw [hibit_eq h1 h2 (by omega)]

theorem calls_eq {p n : Nat} (hn : 0 < n) (hn2 : n ≤ 30) (h1 : p.testBit n = true)
    (h2 : p < 2 ^ (n + 1)) (k : Nat) : ∀ r, r < 2 ^ n →
      calls k ⟨p, 2 ^ n >>> 1, r⟩ = some ⟨p, 2 ^ n >>> 1, (xtime p n)^[k] r⟩ := by
  induction k with
  | zero => intro r _; rfl
  | succ k ih =>
    intro r hr
    rw [calls, next_eq hn hn2 hr, Option.bind_some, ih _ (xtime_lt h1 h2 hr)]; rfl

theorem spec_iter {p n r : Nat} (h1 : p.testBit n = true) (h2 : p < 2 ^ (n + 1)) (hr : r < 2 ^ n)
    (k : Nat) : (specStep p n)^[k] r = (xtime p n)^[k] r := by
  induction k with
  | zero => rfl
  | succ k ih =>
    rw [Function.iterate_succ_apply', Function.iterate_succ_apply', ih, xtime_eq_spec (iter_lt h1 h2 hr k)]

/-! ### C06 -/

/-- Register sequence: no call is UB, the register is the `k`-fold iterate of the specification
step and stays below `2^n`. -/
theorem C06_register {p n r : Nat} (hn : 1 ≤ n) (hn2 : n ≤ 30) (h1 : 2 ^ n ≤ p) (h2 : p < 2 ^ (n + 1))
    (hr : r < 2 ^ n) (k : Nat) :
    ∃ m, calls k (MLS.new p r) = some m ∧ m.reg = (specStep p n)^[k] r ∧ m.reg < 2 ^ n ∧
      outBit (MLS.new p r) k = some (decide (2 ^ (n - 1) ≤ m.reg)) := by
  have ht := testBit_top h1 h2
  have hlt := iter_lt ht h2 hr k
  have hc := calls_eq hn hn2 ht h2 k r hr
  rw [new_eq h1 h2 hn2]
  refine ⟨_, hc, (spec_iter ht h2 hr k).symm, hlt, ?_⟩
  unfold outBit
  rw [hc, Option.bind_some, next_eq hn hn2 hlt, Option.map_some]
  congr 1
  generalize (xtime p n)^[k] r = x at hlt
  rw [Bool.eq_iff_iff, decide_eq_true_eq]
  constructor
  · exact Nat.ge_two_pow_of_testBit
  · intro h
    exact testBit_top h (by rwa [show n - 1 + 1 = n by omega])

/-- `bad(r)` is defined, leaves the register below `2^n`, and returns `false` exactly when the
register sequence started at `r` comes back to `r` for the first time after `2^n - 1` steps.
It does not depend on what the object was used for before (`reg` is arbitrary). -/
theorem C06_bad {p n r reg : Nat} (hn : 1 ≤ n) (hn2 : n ≤ 30) (h1 : 2 ^ n ≤ p) (h2 : p < 2 ^ (n + 1))
    (hr : r < 2 ^ n) :
    ∃ m b, (MLS.new p reg).bad r = some (m, b) ∧ m.reg < 2 ^ n ∧
      (b = false ↔ (specStep p n)^[2 ^ n - 1] r = r ∧
        ∀ j, 0 < j → j < 2 ^ n - 1 → (specStep p n)^[j] r ≠ r) := by
  have ht := testBit_top h1 h2
  simp only [spec_iter ht h2 hr]
  rw [new_eq h1 h2 hn2]
  unfold MLS.bad
  dsimp only
  rw [hibit_eq h1 h2 (by omega)]
  have hN : 2 ≤ 2 ^ n := by
    calc 2 = 2 ^ 1 := rfl
      _ ≤ 2 ^ n := Nat.pow_le_pow_right (by norm_num) hn
  obtain ⟨m', e1, e3, e2⟩ := badLoop_eq hn hn2 ht h2 hr (2 ^ n - 1 - 1) 0
  rw [Function.iterate_zero_apply] at e1
  rw [e1]
  simp only [Option.bind_eq_bind, Option.bind_some, zero_add]
  simp only [zero_add] at e2
  by_cases hex : ∃ j, 0 < j ∧ j ≤ 2 ^ n - 1 - 1 ∧ (xtime p n)^[j] r = r
  · rw [if_pos (by simpa using hex)]
    refine ⟨m', true, rfl, e3, ?_⟩
    obtain ⟨j, hj1, hj2, hj3⟩ := hex
    simp only [Bool.true_eq_false, false_iff]
    rintro ⟨_, h⟩
    exact h j hj1 (by omega) hj3
  · rw [if_neg (by simpa using hex), e2 hex, next_eq hn hn2 (iter_lt ht h2 hr _)]
    simp only [Option.bind_some, ← Function.iterate_succ_apply' (f := xtime p n)]
    have hl : (2 ^ n - 1 - 1 : Nat) + 1 = 2 ^ n - 1 := by omega
    simp only [Nat.succ_eq_add_one, hl]
    refine ⟨_, _, rfl, iter_lt ht h2 hr _, ?_⟩
    rw [decide_eq_false_iff_not, not_not]
    constructor
    · intro h
      exact ⟨h, fun j hj1 hj2 hj3 => hex ⟨j, hj1, by omega, hj3⟩⟩
    · exact fun h => h.1

/-- Both answers occur: `X^2+X+1` is maximal, `X^3+X^2+X+1` is not. -/
example : ((MLS.new 0b111 1).bad 1).map (·.2) = some false ∧
    ((MLS.new 0b1111 1).bad 1).map (·.2) = some true := by decide

/-! ### Reset -/

theorem next_keeps {m m' : MLS} {b : Bool} (h : m.next = some (m', b)) :
    m'.poly = m.poly ∧ m'.test = m.test := by
  unfold MLS.next at h
  dsimp only at h
  by_cases hc : m.reg <<< 1 < 2 ^ 31
  · rw [assertUB, if_pos hc] at h
    simp only [Option.bind_eq_bind, Option.bind_some, Option.pure_def, Option.some.injEq, Prod.mk.injEq] at h
    rw [← h.1]; exact ⟨rfl, rfl⟩
  · rw [assertUB, if_neg hc] at h
    simp at h

theorem badLoop_keeps {r : Nat} : ∀ (k : Nat) {m m' : MLS} {b : Bool}, badLoop r k m = some (m', b) →
    m'.poly = m.poly ∧ m'.test = m.test
  | 0, m, m', b, h => by
    simp only [badLoop, Option.some.injEq, Prod.mk.injEq] at h
    rw [← h.1]; exact ⟨rfl, rfl⟩
  | k + 1, m, m', b, h => by
    rw [badLoop] at h
    cases hx : m.next with
    | none => rw [hx] at h; simp at h
    | some x =>
      have hk := next_keeps (m' := x.1) (b := x.2) hx
      rw [hx] at h
      simp only [Option.bind_eq_bind, Option.bind_some] at h
      by_cases he : x.1.reg = r
      · rw [if_pos he, Option.some.injEq, Prod.mk.injEq] at h
        rw [← h.1]; exact hk
      · rw [if_neg he] at h
        have := badLoop_keeps k h
        exact ⟨this.1.trans hk.1, this.2.trans hk.2⟩

theorem bad_same {m m' : MLS} {r : Nat} {b : Bool} (h : m.bad r = some (m', b)) :
    m'.poly = m.poly ∧ m'.test = m.test := by
  unfold MLS.bad at h
  dsimp only at h
  cases hx : badLoop r (hibit m.poly - 1 - 1) { m with reg := r } with
  | none => rw [hx] at h; simp at h
  | some x =>
    have hk := badLoop_keeps (m' := x.1) (b := x.2) _ hx
    rw [hx] at h
    simp only [Option.bind_eq_bind, Option.bind_some] at h
    by_cases he : x.2 = true
    · rw [if_pos he, Option.some.injEq, Prod.mk.injEq] at h
      rw [← h.1]; exact hk
    · rw [if_neg he] at h
      cases hy : x.1.next with
      | none => rw [hy] at h; simp at h
      | some y =>
        have hk2 := next_keeps (m' := y.1) (b := y.2) hy
        rw [hy] at h
        simp only [Option.bind_some, Option.pure_def, Option.some.injEq, Prod.mk.injEq] at h
        rw [← h.1]
        exact ⟨hk2.1.trans hk.1, hk2.2.trans hk.2⟩

theorem bad_keeps {p n r reg : Nat} (hn : 1 ≤ n) (hn2 : n ≤ 30) (h1 : 2 ^ n ≤ p) (h2 : p < 2 ^ (n + 1))
    (hr : r < 2 ^ n) :
    ∃ m b, (MLS.new p reg).bad r = some (m, b) ∧ m.reg < 2 ^ n ∧ MLS.new p m.reg = m := by
  obtain ⟨m, b, h, hl, _⟩ := C06_bad (reg := reg) hn hn2 h1 h2 hr
  refine ⟨m, b, h, hl, ?_⟩
  have hk := bad_same h
  cases m
  rw [MLS.new, MLS.mk.injEq]
  exact ⟨hk.1.symm, hk.2.symm, rfl⟩

/-- What a user can do with an object. -/
inductive Use
  | call
  | bad (r : Nat)
  | reset (r : Nat)

/-- An object after a history of uses (`none` if one of them is undefined). -/
def after : List Use → MLS → Option MLS
  | [], m => some m
  | .call :: h, m => m.next.bind fun x => after h x.1
  | .bad r :: h, m => (m.bad r).bind fun x => after h x.1
  | .reset r :: h, m => after h (m.reset r)

/-- A history whose registers fit the polynomial. -/
def Use.fits (n : Nat) : Use → Prop
  | .call => True
  | .bad r => r < 2 ^ n
  | .reset r => r < 2 ^ n

/-- No history of calls is undefined, and after any history `reset(r)` makes the object the same as a
new one with start register `r`. -/
theorem C06_reset {p n r s : Nat} (hn : 1 ≤ n) (hn2 : n ≤ 30) (h1 : 2 ^ n ≤ p) (h2 : p < 2 ^ (n + 1))
    (hr : r < 2 ^ n) (h : List Use) (hh : ∀ u ∈ h, u.fits n) :
    ∃ m, after h (MLS.new p r) = some m ∧ m.reg < 2 ^ n ∧ m.reset s = MLS.new p s := by
  induction h generalizing r with
  | nil => exact ⟨_, rfl, hr, rfl⟩
  | cons u h ih =>
    have hh' : ∀ u ∈ h, u.fits n := fun v hv => hh v (List.mem_cons_of_mem _ hv)
    have hu := hh u List.mem_cons_self
    cases u with
    | call =>
      have ht := testBit_top h1 h2
      obtain ⟨m, hm, hl, hs⟩ := ih (xtime_lt ht h2 hr) hh'
      refine ⟨m, ?_, hl, hs⟩
      rw [after, new_eq h1 h2 hn2, next_eq hn hn2 hr, Option.bind_some, ← hm, new_eq h1 h2 hn2]
    | bad q =>
      obtain ⟨m1, b, hb, hl1, hpt⟩ := bad_keeps (reg := r) hn hn2 h1 h2 hu
      obtain ⟨m, hm, hl, hs⟩ := ih hl1 hh'
      refine ⟨m, ?_, hl, hs⟩
      rw [after, hb, Option.bind_some, ← hm, hpt]
    | reset q => exact ih (r := q) hu hh'

/-- The default arguments: start register, `reset()` and `bad()` use register 1. -/
theorem C06_defaults (p : Nat) (m : MLS) :
    MLS.new p = MLS.new p 1 ∧ m.reset = m.reset 1 ∧ m.bad = m.bad 1 ∧
      MLS.new = MLS.new 0b100000000000000001001 1 := ⟨rfl, rfl, rfl, rfl⟩

/-- A history and what `reset()` makes of it. -/
example : (∀ u ∈ [Use.call, .bad 5, .call, .reset 2, .call], u.fits 3) ∧
    ((after [Use.call, .bad 5, .call, .reset 2, .call] (MLS.new 0b1011 3)).map fun m => (m.reg, m.reset)) =
      some (4, MLS.new 0b1011) := by
  constructor
  · simp [Use.fits]
  · decide

/-! ### C07 -/

theorem default_first {r k : Nat} (hr0 : r ≠ 0) (hr : r < 2 ^ 20) :
    (xtime 1048585 20)^[k] r = r ↔ (2 ^ 20 - 1) ∣ k := by
  have ht : Nat.testBit 1048585 20 = true := by decide
  have h2 : 1048585 < 2 ^ (20 + 1) := by norm_num
  let v : XVec 20 := (BitVec.ofNat 20 r : BitVec 20)
  have hv : BitVec.toNat v = r := (BitVec.toNat_ofNat _ _).trans (Nat.mod_eq_of_lt hr)
  have hv0 : v ≠ 0 := by
    intro h
    have := congrArg BitVec.toNat h
    rw [hv] at this
    exact hr0 this
  rw [← (periodV v hv0).1, ← Function.isPeriodicPt_iff_minimalPeriod_dvd]
  have := toNat_iter ht h2 k v
  rw [hv] at this
  constructor
  · intro h
    rw [h] at this
    exact BitVec.eq_of_toNat_eq (this.trans hv.symm)
  · intro h
    have h' : (stepV 1048585 20)^[k] v = v := h
    rw [h'] at this
    rw [← this, hv]

theorem default_all {r x : Nat} (hr0 : r ≠ 0) (hr : r < 2 ^ 20) (hx0 : x ≠ 0) (hx : x < 2 ^ 20) :
    ∃ k, k < 2 ^ 20 - 1 ∧ (xtime 1048585 20)^[k] r = x := by
  have ht : Nat.testBit 1048585 20 = true := by decide
  have h2 : 1048585 < 2 ^ (20 + 1) := by norm_num
  have key : ∀ r, r ≠ 0 → r < 2 ^ 20 → ∃ k, k < 2 ^ 20 - 1 ∧ (xtime 1048585 20)^[k] 1 = r := by
    intro r hr0 hr
    let v : XVec 20 := (BitVec.ofNat 20 r : BitVec 20)
    have hv : BitVec.toNat v = r := (BitVec.toNat_ofNat _ _).trans (Nat.mod_eq_of_lt hr)
    have hv0 : v ≠ 0 := by
      intro h
      have := congrArg BitVec.toNat h
      rw [hv] at this
      exact hr0 this
    obtain ⟨k, hk, h⟩ := (periodV v hv0).2
    refine ⟨k, hk, ?_⟩
    have := toNat_iter ht h2 k (1#20 : BitVec 20)
    rw [h, hv] at this
    exact this.symm
  obtain ⟨a, ha, rfl⟩ := key r hr0 hr
  obtain ⟨b, hb, rfl⟩ := key x hx0 hx
  have h1 : (xtime 1048585 20)^[2 ^ 20 - 1] 1 = 1 := (default_first (by norm_num) (by norm_num)).2 dvd_rfl
  by_cases hab : a ≤ b
  · refine ⟨b - a, by omega, ?_⟩
    rw [← Function.iterate_add_apply, Nat.sub_add_cancel hab]
  · refine ⟨2 ^ 20 - 1 + b - a, by omega, ?_⟩
    rw [← Function.iterate_add_apply, show 2 ^ 20 - 1 + b - a + a = b + (2 ^ 20 - 1) by omega,
      Function.iterate_add_apply, h1]

/-- The register value after `k` calls on the default object started at register `r`. -/
def regAfter (r k : Nat) : Option Nat := (calls k (MLS.new (reg := r))).map (·.reg)

theorem regAfter_eq {r : Nat} (hr : r < 2 ^ 20) (k : Nat) :
    regAfter r k = some ((xtime 1048585 20)^[k] r) := by
  unfold regAfter
  rw [new_eq (n := 20) (by norm_num) (by norm_num) (by norm_num),
    calls_eq (by norm_num) (by norm_num) (by decide) (by norm_num) k r hr]
  rfl

/-- The default polynomial is maximal from every non-zero start register: after `k` calls the
register is back at `r` iff `k` is a multiple of `2^20 - 1`. -/
theorem C07_period {r : Nat} (hr0 : r ≠ 0) (hr : r < 2 ^ 20) (k : Nat) :
    regAfter r k = some r ↔ (2 ^ 20 - 1) ∣ k := by
  rw [regAfter_eq hr, Option.some.injEq, default_first hr0 hr]

/-- Every non-zero 20-bit value is visited exactly once in each period. -/
theorem C07_visits {r x : Nat} (hr0 : r ≠ 0) (hr : r < 2 ^ 20) (hx0 : x ≠ 0) (hx : x < 2 ^ 20) :
    ∃! k, k < 2 ^ 20 - 1 ∧ regAfter r k = some x := by
  obtain ⟨k, hk, h⟩ := default_all hr0 hr hx0 hx
  refine ⟨k, ⟨hk, by rw [regAfter_eq hr, h]⟩, ?_⟩
  rintro j ⟨hj, hj2⟩
  rw [regAfter_eq hr, Option.some.injEq] at hj2
  have key : ∀ a b, a < b → b < 2 ^ 20 - 1 → (xtime 1048585 20)^[a] r = x → (xtime 1048585 20)^[b] r = x → False := by
    intro a b hab hb h1 h2
    have h3 : (xtime 1048585 20)^[b - a] x = x := by
      conv => lhs; rw [← h1]
      rw [← Function.iterate_add_apply, Nat.sub_add_cancel hab.le, h2]
    rw [default_first hx0 hx] at h3
    have := Nat.le_of_dvd (by omega) h3
    omega
  rcases Nat.lt_trichotomy j k with h' | h' | h'
  · exact (key _ _ h' hk hj2 h).elim
  · exact h'
  · exact (key _ _ h' hj h hj2).elim

/-- `bad()` of the default object says so. -/
theorem C07_default_not_bad {r reg : Nat} (hr0 : r ≠ 0) (hr : r < 2 ^ 20) :
    ∃ m, (MLS.new (reg := reg)).bad r = some (m, false) := by
  obtain ⟨m, b, h, _, hb⟩ := C06_bad (p := 1048585) (n := 20) (r := r) (reg := reg)
    (by norm_num) (by norm_num) (by norm_num) (by norm_num) hr
  refine ⟨m, ?_⟩
  have : b = false := by
    rw [hb]
    simp only [spec_iter (show Nat.testBit 1048585 20 = true by decide) (by norm_num) hr]
    refine ⟨(default_first hr0 hr).2 dvd_rfl, fun j h1 h2 h3 => ?_⟩
    rw [default_first hr0 hr] at h3
    have := Nat.le_of_dvd h1 h3
    omega
  rw [← this]; exact h

/-- Per period of `2^20 - 1` calls the default object returns exactly `2^19` ones. -/
theorem C07_balance {r : Nat} (hr0 : r ≠ 0) (hr : r < 2 ^ 20) :
    ((Finset.range (2 ^ 20 - 1)).filter fun k => outBit (MLS.new (reg := r)) k = some true).card =
      2 ^ 19 := by
  have hcard : (Finset.Ico (2 ^ 19) (2 ^ 20)).card = 2 ^ 19 := by rw [Nat.card_Ico]; norm_num
  rw [← hcard]
  have hb : ∀ k, outBit (MLS.new (reg := r)) k = some true ↔ 2 ^ 19 ≤ (xtime 1048585 20)^[k] r := by
    intro k
    obtain ⟨m, h1, h2, _, h4⟩ := C06_register (p := 1048585) (n := 20) (r := r)
      (by norm_num) (by norm_num) (by norm_num) (by norm_num) hr k
    have h5 : outBit (MLS.new (reg := r)) k = some (decide (2 ^ (20 - 1) ≤ m.reg)) := h4
    rw [h5, h2, spec_iter (by decide) (by norm_num) hr, Option.some.injEq, decide_eq_true_eq]
  apply Finset.card_bij (fun k _ => (xtime 1048585 20)^[k] r)
  · intro k hk
    rw [Finset.mem_filter, hb] at hk
    rw [Finset.mem_Ico]
    exact ⟨hk.2, iter_lt (by decide) (by norm_num) hr k⟩
  · intro a ha b hb' hab
    rw [Finset.mem_filter, Finset.mem_range, hb] at ha hb'
    have hx0 : (xtime 1048585 20)^[b] r ≠ 0 := by
      intro h; rw [h] at hb'; norm_num at hb'
    obtain ⟨k, _, hk⟩ := C07_visits hr0 hr hx0 (iter_lt (by decide) (by norm_num) hr b)
    rw [hk a ⟨ha.1, by rw [regAfter_eq hr]; exact congrArg some hab⟩, hk b ⟨hb'.1, regAfter_eq hr b⟩]
  · intro x hx
    rw [Finset.mem_Ico] at hx
    have hx0 : x ≠ 0 := by rintro rfl; norm_num at hx
    obtain ⟨k, hk, h⟩ := default_all hr0 hr hx0 hx.2
    refine ⟨k, ?_, h⟩
    rw [Finset.mem_filter, Finset.mem_range, hb, h]
    exact ⟨hk, hx.1⟩

/-- The default start register meets the hypotheses. -/
example : (1 : Nat) ≠ 0 ∧ 1 < 2 ^ 20 := by decide

end Verif.Mls
