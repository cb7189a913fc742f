import Verif.Mls.Props
import Mathlib.Algebra.BigOperators.Intervals
import Mathlib.Data.Finset.Card
/- C66: the sequence an MLS object puts out is a maximum length sequence for every polynomial that
`bad()` accepts: period, balance, windows and autocorrelation. -/
namespace Verif.Mls
open GF2

/-! ### The orbit of a maximal polynomial -/

/-- All non-zero registers have the full period and are on the orbit of the tested one. -/
theorem orbit {p n r0 : Nat} (hn : 1 ≤ n) (h1 : p.testBit n = true) (h2 : p < 2 ^ (n + 1)) (h0 : r0 ≠ 0)
    (hr0 : r0 < 2 ^ n)
    (hper : (xtime p n)^[2 ^ n - 1] r0 = r0 ∧ ∀ j, 0 < j → j < 2 ^ n - 1 → (xtime p n)^[j] r0 ≠ r0)
    {x : Nat} (hx0 : x ≠ 0) (hx : x < 2 ^ n) :
    (∀ k, (xtime p n)^[k] x = x ↔ (2 ^ n - 1) ∣ k) ∧ ∃ k, k < 2 ^ n - 1 ∧ (xtime p n)^[k] r0 = x := by
  have hN : 2 ≤ 2 ^ n := by
    calc 2 = 2 ^ 1 := rfl
      _ ≤ 2 ^ n := Nat.pow_le_pow_right (by norm_num) hn
  let vec : Nat → XVec n := fun x => (BitVec.ofNat n x : BitVec n)
  have hv : ∀ x, x < 2 ^ n → BitVec.toNat (vec x) = x := fun x hx =>
    (BitVec.toNat_ofNat _ _).trans (Nat.mod_eq_of_lt hx)
  have hv0 : ∀ x, x < 2 ^ n → x ≠ 0 → vec x ≠ 0 := by
    intro x hx hx0 h
    have := congrArg BitVec.toNat h
    rw [hv x hx] at this
    exact hx0 (this.trans (by rw [XVec.zero_def]; simp))
  have hit : ∀ k x y, x < 2 ^ n → y < 2 ^ n → ((xtime p n)^[k] x = y ↔ (stepV p n)^[k] (vec x) = vec y) := by
    intro k x y hx hy
    have := toNat_iter h1 h2 k (vec x)
    rw [hv x hx] at this
    constructor
    · intro h
      rw [h, ← hv y hy] at this
      exact BitVec.eq_of_toNat_eq this
    · intro h
      rw [h, hv y hy] at this
      exact this.symm
  have hmp : Function.minimalPeriod (stepV p n) (vec r0) = 2 ^ n - 1 := by
    rw [minimalPeriod_iff _ _ _ (by omega)]
    refine ⟨(hit _ _ _ hr0 hr0).1 hper.1, fun j hj hj2 h => hper.2 j hj hj2 ((hit _ _ _ hr0 hr0).2 h)⟩
  obtain ⟨a, k, hk, hk2⟩ := minimalPeriod_all (XVec.lin (stepV p n) (stepV_add _ _)) (vec r0) (2 ^ n - 1) (by omega)
    (by rw [XVec.card]; omega) (hv0 r0 hr0 h0) hmp (vec x) (hv0 x hx hx0)
  refine ⟨fun j => ?_, k, hk, (hit _ _ _ hr0 hx).2 hk2⟩
  rw [hit _ _ _ hx hx]
  have a' : Function.minimalPeriod (stepV p n) (vec x) = 2 ^ n - 1 := a
  rw [← a', ← Function.isPeriodicPt_iff_minimalPeriod_dvd]
  rfl

/-- What `bad` tells about the polynomial. -/
theorem bad_orbit {p n r0 reg : Nat} {m : MLS} (hn : 1 ≤ n) (hn2 : n ≤ 30) (h1 : 2 ^ n ≤ p) (h2 : p < 2 ^ (n + 1))
    (h0 : r0 ≠ 0) (hr0 : r0 < 2 ^ n) (hbad : (MLS.new p reg).bad r0 = some (m, false)) {x : Nat} (hx0 : x ≠ 0)
    (hx : x < 2 ^ n) :
    (∀ k, (xtime p n)^[k] x = x ↔ (2 ^ n - 1) ∣ k) ∧
      ∀ y, y ≠ 0 → y < 2 ^ n → ∃ k, k < 2 ^ n - 1 ∧ (xtime p n)^[k] x = y := by
  have ht := testBit_top h1 h2
  obtain ⟨m', b, hb, _, hb2⟩ := C06_bad (reg := reg) hn hn2 h1 h2 hr0
  rw [hbad] at hb
  cases hb
  have hper := hb2.1 rfl
  simp only [spec_iter ht h2 hr0] at hper
  have key := fun {x : Nat} => orbit (x := x) hn ht h2 h0 hr0 hper
  have hx' := key hx0 hx
  have hper0 := (key h0 hr0).1
  refine ⟨hx'.1, fun y hy0 hy => ?_⟩
  obtain ⟨a, ha, ha2⟩ := hx'.2
  obtain ⟨b, hb, hb2⟩ := (key hy0 hy).2
  by_cases hab : a ≤ b
  · refine ⟨b - a, by omega, ?_⟩
    rw [← ha2, ← Function.iterate_add_apply, Nat.sub_add_cancel hab, hb2]
  · refine ⟨2 ^ n - 1 + b - a, by omega, ?_⟩
    rw [← ha2, ← Function.iterate_add_apply, show 2 ^ n - 1 + b - a + a = b + (2 ^ n - 1) by omega,
      Function.iterate_add_apply, (hper0 _).2 dvd_rfl, hb2]

theorem iter_xor (p n a b k : Nat) : (xtime p n)^[k] (a ^^^ b) = (xtime p n)^[k] a ^^^ (xtime p n)^[k] b := by
  induction k with
  | zero => rfl
  | succ k ih => rw [Function.iterate_succ_apply', Function.iterate_succ_apply', Function.iterate_succ_apply', ih, xtime_xor]

/-- On the orbit of a non-zero register a sum over a period is a sum over all non-zero registers. -/
theorem sum_orbit {p n r : Nat} (hn : 1 ≤ n) (ht : p.testBit n = true) (h2 : p < 2 ^ (n + 1)) (hr0 : r ≠ 0) (hr : r < 2 ^ n)
    (horb : ∀ x, x ≠ 0 → x < 2 ^ n → (∀ k, (xtime p n)^[k] x = x ↔ (2 ^ n - 1) ∣ k) ∧
      ∀ y, y ≠ 0 → y < 2 ^ n → ∃ k, k < 2 ^ n - 1 ∧ (xtime p n)^[k] x = y) (f : Nat → Int) :
    ∑ k ∈ Finset.range (2 ^ n - 1), f ((xtime p n)^[k] r) = ∑ x ∈ Finset.Ico 1 (2 ^ n), f x := by
  have hz : (xtime p n) 0 = 0 := by simp [xtime]
  have hz' : ∀ k, (xtime p n)^[k] 0 = 0 := fun k => Function.iterate_fixed hz k
  have hnz : ∀ k, (xtime p n)^[k] r ≠ 0 := by
    intro k h
    have h3 : (xtime p n)^[k * (2 ^ n - 1)] r = r := ((horb r hr0 hr).1 _).2 ⟨k, Nat.mul_comm _ _⟩
    have h4 : k ≤ k * (2 ^ n - 1) := by
      have : 2 ≤ 2 ^ n := by
        calc 2 = 2 ^ 1 := rfl
          _ ≤ 2 ^ n := Nat.pow_le_pow_right (by norm_num) hn
      exact Nat.le_mul_of_pos_right _ (by omega)
    rw [show k * (2 ^ n - 1) = (k * (2 ^ n - 1) - k) + k by omega, Function.iterate_add_apply, h, hz'] at h3
    exact hr0 h3.symm
  refine Finset.sum_nbij (fun k => (xtime p n)^[k] r) ?_ ?_ ?_ (fun _ _ => rfl)
  · intro k _
    rw [Finset.mem_Ico]
    exact ⟨Nat.one_le_iff_ne_zero.2 (hnz k), iter_lt ht h2 hr k⟩
  · have key : ∀ a b, a < b → b < 2 ^ n - 1 → (xtime p n)^[a] r = (xtime p n)^[b] r → False := by
      intro a b hab hb h
      have h3 : (xtime p n)^[b - a] ((xtime p n)^[a] r) = (xtime p n)^[a] r := by
        rw [← Function.iterate_add_apply, Nat.sub_add_cancel hab.le, h]
      rw [(horb _ (hnz a) (iter_lt ht h2 hr a)).1] at h3
      have := Nat.le_of_dvd (by omega) h3
      omega
    intro a ha b hb hab
    rw [Finset.coe_range, Set.mem_Iio] at ha hb
    dsimp only at hab
    rcases Nat.lt_trichotomy a b with h | h | h
    · exact absurd hab fun hab => key a b h hb hab
    · exact h
    · exact absurd hab fun hab => key b a h ha hab.symm
  · intro y hy
    rw [Finset.coe_Ico, Set.mem_Ico] at hy
    obtain ⟨k, hk, hk2⟩ := (horb r hr0 hr).2 y (by omega) hy.2
    exact ⟨k, by rw [Finset.coe_range]; exact hk, hk2⟩

/-- The symbol of a register: -1 if its top bit is set. -/
def symOf (n x : Nat) : Int := if x.testBit (n - 1) then -1 else 1

theorem symOf_xor (n a b : Nat) : symOf n (a ^^^ b) = symOf n a * symOf n b := by
  unfold symOf
  rw [Nat.testBit_xor]
  cases a.testBit (n - 1) <;> cases b.testBit (n - 1) <;> simp

theorem sum_symOf {n : Nat} (hn : 1 ≤ n) : ∑ x ∈ Finset.range (2 ^ n), symOf n x = 0 := by
  obtain ⟨m, rfl⟩ : ∃ m, n = m + 1 := ⟨n - 1, by omega⟩
  rw [pow_succ, Nat.mul_two, Finset.sum_range_add]
  have e1 : ∀ x ∈ Finset.range (2 ^ m), symOf (m + 1) x = 1 := by
    intro x hx
    rw [Finset.mem_range] at hx
    unfold symOf
    rw [Nat.add_sub_cancel, Nat.testBit_lt_two_pow hx]; rfl
  have e2 : ∀ x ∈ Finset.range (2 ^ m), symOf (m + 1) (2 ^ m + x) = -1 := by
    intro x hx
    rw [Finset.mem_range] at hx
    unfold symOf
    rw [Nat.add_sub_cancel, Nat.testBit_two_pow_add_eq, Nat.testBit_lt_two_pow hx]; rfl
  rw [Finset.sum_congr rfl e1, Finset.sum_congr rfl e2]
  simp

/-- The symbol put out by call number `k`: -1 for a one, 1 for a zero (0 if the call is UB). -/
def sym (m : MLS) (k : Nat) : Int :=
  match outBit m k with
  | some true => -1
  | some false => 1
  | none => 0

theorem outBit_eq {p n r : Nat} (hn : 1 ≤ n) (hn2 : n ≤ 30) (h1 : 2 ^ n ≤ p) (h2 : p < 2 ^ (n + 1)) (hr : r < 2 ^ n)
    (k : Nat) : outBit (MLS.new p r) k = some (((xtime p n)^[k] r).testBit (n - 1)) := by
  have ht := testBit_top h1 h2
  unfold outBit
  rw [new_eq h1 h2 hn2, calls_eq hn hn2 ht h2 k r hr, Option.bind_some, next_eq hn hn2 (iter_lt ht h2 hr k)]
  rfl

theorem sym_eq {p n r : Nat} (hn : 1 ≤ n) (hn2 : n ≤ 30) (h1 : 2 ^ n ≤ p) (h2 : p < 2 ^ (n + 1)) (hr : r < 2 ^ n)
    (k : Nat) : sym (MLS.new p r) k = symOf n ((xtime p n)^[k] r) := by
  unfold sym symOf
  rw [outBit_eq hn hn2 h1 h2 hr]
  cases ((xtime p n)^[k] r).testBit (n - 1) <;> rfl

/-! ### C66 -/

variable {p n r0 reg r : Nat} {m : MLS}

/-- **C66.** If `bad(r0)` returned false for one non-zero register, then from every non-zero register all non-zero
registers are visited, each exactly once in `2^n - 1` calls, and the register returns exactly after multiples of that. -/
theorem C66_visits (hn : 1 ≤ n) (hn2 : n ≤ 30) (h1 : 2 ^ n ≤ p) (h2 : p < 2 ^ (n + 1)) (h0 : r0 ≠ 0) (hr0 : r0 < 2 ^ n)
    (hbad : (MLS.new p reg).bad r0 = some (m, false)) (hr : r ≠ 0) (hr2 : r < 2 ^ n) (x : Nat) (hx : x ≠ 0)
    (hx2 : x < 2 ^ n) :
    (∃! k, k < 2 ^ n - 1 ∧ (calls k (MLS.new p r)).map (·.reg) = some x) ∧
      ∀ k, (calls k (MLS.new p r)).map (·.reg) = some r ↔ 2 ^ n - 1 ∣ k := by
  have ht := testBit_top h1 h2
  have horb := fun x hx0 hx => bad_orbit (x := x) hn hn2 h1 h2 h0 hr0 hbad hx0 hx
  have hc : ∀ k, (calls k (MLS.new p r)).map (·.reg) = some ((xtime p n)^[k] r) := by
    intro k
    rw [new_eq h1 h2 hn2, calls_eq hn hn2 ht h2 k r hr2]; rfl
  simp only [hc, Option.some.injEq]
  refine ⟨?_, (horb r hr hr2).1⟩
  obtain ⟨k, hk, hk2⟩ := (horb r hr hr2).2 x hx hx2
  refine ⟨k, ⟨hk, hk2⟩, ?_⟩
  rintro j ⟨hj, hj2⟩
  have key : ∀ a b, a < b → b < 2 ^ n - 1 → (xtime p n)^[a] r = x → (xtime p n)^[b] r = x → False := by
    intro a b hab hb h3 h4
    have h5 : (xtime p n)^[b - a] x = x := by
      conv => lhs; rw [← h3]
      rw [← Function.iterate_add_apply, Nat.sub_add_cancel hab.le, h4]
    rw [(horb x hx hx2).1] at h5
    have := Nat.le_of_dvd (by omega) h5
    omega
  rcases Nat.lt_trichotomy j k with h | h | h
  · exact absurd (key j k h hk hj2 hk2) id
  · exact h
  · exact absurd (key k j h hj hk2 hj2) id

/-- **C66**, balance: a period has one more one than zeros. -/
theorem C66_balance (hn : 1 ≤ n) (hn2 : n ≤ 30) (h1 : 2 ^ n ≤ p) (h2 : p < 2 ^ (n + 1)) (h0 : r0 ≠ 0) (hr0 : r0 < 2 ^ n)
    (hbad : (MLS.new p reg).bad r0 = some (m, false)) (hr : r ≠ 0) (hr2 : r < 2 ^ n) :
    ∑ k ∈ Finset.range (2 ^ n - 1), sym (MLS.new p r) k = -1 := by
  have ht := testBit_top h1 h2
  have horb := fun x hx0 hx => bad_orbit (x := x) hn hn2 h1 h2 h0 hr0 hbad hx0 hx
  simp only [sym_eq hn hn2 h1 h2 hr2]
  rw [sum_orbit hn ht h2 hr hr2 horb (symOf n)]
  have := sum_symOf hn
  rw [Finset.range_eq_Ico, Finset.sum_eq_sum_Ico_succ_bot (Nat.two_pow_pos n)] at this
  have e : symOf n 0 = 1 := by simp [symOf]
  rw [e] at this
  have e2 : ∑ k ∈ Finset.Ico (0 + 1) (2 ^ n), symOf n k = ∑ k ∈ Finset.Ico 1 (2 ^ n), symOf n k := rfl
  omega

/-- **C66**, autocorrelation: a period of the sequence of symbols correlates with itself, shifted by any `t`, to `-1`,
except for shifts by multiples of the period. -/
theorem C66_autocorrelation (hn : 1 ≤ n) (hn2 : n ≤ 30) (h1 : 2 ^ n ≤ p) (h2 : p < 2 ^ (n + 1)) (h0 : r0 ≠ 0)
    (hr0 : r0 < 2 ^ n) (hbad : (MLS.new p reg).bad r0 = some (m, false)) (hr : r ≠ 0) (hr2 : r < 2 ^ n) (t : Nat) :
    ∑ k ∈ Finset.range (2 ^ n - 1), sym (MLS.new p r) k * sym (MLS.new p r) (k + t) =
      if 2 ^ n - 1 ∣ t then 2 ^ n - 1 else -1 := by
  have ht := testBit_top h1 h2
  have horb := fun x hx0 hx => bad_orbit (x := x) hn hn2 h1 h2 h0 hr0 hbad hx0 hx
  have hN : 1 ≤ 2 ^ n := Nat.one_le_two_pow
  have e0 : ∀ k, sym (MLS.new p r) k * sym (MLS.new p r) (k + t) =
      symOf n ((xtime p n)^[k] r ^^^ (xtime p n)^[t] ((xtime p n)^[k] r)) := by
    intro k
    rw [sym_eq hn hn2 h1 h2 hr2, sym_eq hn hn2 h1 h2 hr2, symOf_xor, Nat.add_comm k t, Function.iterate_add_apply]
  simp only [e0]
  rw [sum_orbit hn ht h2 hr hr2 horb fun x => symOf n (x ^^^ (xtime p n)^[t] x)]
  split
  · rename_i hd
    have e1 : ∀ x ∈ Finset.Ico 1 (2 ^ n), symOf n (x ^^^ (xtime p n)^[t] x) = 1 := by
      intro x hx
      rw [Finset.mem_Ico] at hx
      rw [((horb x (by omega) hx.2).1 t).2 hd, Nat.xor_self]
      simp [symOf]
    rw [Finset.sum_congr rfl e1]
    simp [hN]
  · rename_i hd
    let g : Nat → Nat := fun x => x ^^^ (xtime p n)^[t] x
    have hg : ∀ x, x < 2 ^ n → g x < 2 ^ n := fun x hx => Nat.xor_lt_two_pow hx (iter_lt ht h2 hx t)
    have hinj : Set.InjOn g (Finset.range (2 ^ n)) := by
      intro a ha b hb hab
      rw [Finset.coe_range, Set.mem_Iio] at ha hb
      have h3 : g (a ^^^ b) = 0 := by
        show (a ^^^ b) ^^^ (xtime p n)^[t] (a ^^^ b) = 0
        rw [iter_xor]
        have hab' : a ^^^ (xtime p n)^[t] a = b ^^^ (xtime p n)^[t] b := hab
        rw [Nat.xor_assoc, ← Nat.xor_assoc b, Nat.xor_comm b, Nat.xor_assoc, ← Nat.xor_assoc, hab', Nat.xor_self]
      by_contra hne
      have h4 : a ^^^ b ≠ 0 := fun h => hne (Nat.xor_eq_zero_iff.1 h)
      have h5 := Nat.xor_eq_zero_iff.1 h3
      exact hd (((horb (a ^^^ b) h4 (Nat.xor_lt_two_pow ha hb)).1 t).1 h5.symm)
    have hsum : ∑ x ∈ Finset.range (2 ^ n), symOf n (g x) = 0 := by
      rw [← sum_symOf hn]
      have himg : (Finset.range (2 ^ n)).image g = Finset.range (2 ^ n) := by
        apply Finset.eq_of_subset_of_card_le
        · intro y hy
          obtain ⟨x, hx, rfl⟩ := Finset.mem_image.1 hy
          exact Finset.mem_range.2 (hg x (Finset.mem_range.1 hx))
        · rw [Finset.card_image_of_injOn hinj]
      conv => rhs; rw [← himg]
      rw [Finset.sum_image hinj]
    rw [Finset.range_eq_Ico, Finset.sum_eq_sum_Ico_succ_bot (Nat.two_pow_pos n)] at hsum
    have hz : (xtime p n)^[t] 0 = 0 := Function.iterate_fixed (by simp [xtime]) t
    have e : symOf n (g 0) = 1 := by
      show symOf n (0 ^^^ (xtime p n)^[t] 0) = 1
      rw [hz]; simp [symOf]
    rw [e] at hsum
    have e2 : ∑ k ∈ Finset.Ico (0 + 1) (2 ^ n), symOf n (g k) =
      ∑ x ∈ Finset.Ico 1 (2 ^ n), symOf n (x ^^^ (xtime p n)^[t] x) := rfl
    omega

/-- If the top bit of `n` successive registers is zero then the register is zero. -/
theorem top_zero {p n x : Nat} (hn : 1 ≤ n) (hx : x < 2 ^ n)
    (h : ∀ i, i < n → ((xtime p n)^[i] x).testBit (n - 1) = false) : x = 0 := by
  have key : ∀ i, i ≤ n → (xtime p n)^[i] x = 2 ^ i * x ∧ 2 ^ i * x < 2 ^ n := by
    intro i
    induction i with
    | zero => intro _; simpa using hx
    | succ i ih =>
      intro hi
      obtain ⟨h3, h4⟩ := ih (by omega)
      have h5 := h i (by omega)
      rw [h3] at h5
      have h6 : 2 * (2 ^ i * x) < 2 ^ n := by
        by_contra hc
        have h7 : 2 ^ (n - 1) ≤ 2 ^ i * x := by
          have : 2 ^ n = 2 * 2 ^ (n - 1) := by rw [← pow_succ', show n - 1 + 1 = n by omega]
          omega
        rw [testBit_top h7 (by rw [show n - 1 + 1 = n by omega]; exact h4)] at h5
        exact absurd h5 (by simp)
      rw [Function.iterate_succ_apply', h3, pow_succ', Nat.mul_assoc]
      refine ⟨?_, h6⟩
      unfold xtime
      rw [Nat.testBit_lt_two_pow h6]; rfl
  have := (key n (Nat.le_refl n)).2
  by_contra hc
  have h3 : 2 ^ n * 1 ≤ 2 ^ n * x := Nat.mul_le_mul_left _ (Nat.one_le_iff_ne_zero.2 hc)
  omega

/-- **C66**, windows: every string of `n` bits with a one in it is put out exactly once per period. -/
theorem C66_windows (hn : 1 ≤ n) (hn2 : n ≤ 30) (h1 : 2 ^ n ≤ p) (h2 : p < 2 ^ (n + 1)) (h0 : r0 ≠ 0) (hr0 : r0 < 2 ^ n)
    (hbad : (MLS.new p reg).bad r0 = some (m, false)) (hr : r ≠ 0) (hr2 : r < 2 ^ n) (w : Fin n → Bool)
    (hw : ∃ i, w i = true) :
    ∃! k, k < 2 ^ n - 1 ∧ ∀ i : Fin n, outBit (MLS.new p r) (k + i) = some (w i) := by
  have ht := testBit_top h1 h2
  let W : Fin (2 ^ n) → Fin n → Bool := fun x i => ((xtime p n)^[(i : Nat)] x).testBit (n - 1)
  have hinj : Function.Injective W := by
    intro a b hab
    apply Fin.ext
    apply Nat.xor_eq_zero_iff.1
    refine top_zero (p := p) hn (Nat.xor_lt_two_pow a.2 b.2) fun i hi => ?_
    have := congrFun hab ⟨i, hi⟩
    rw [iter_xor, Nat.testBit_xor]
    have this' : ((xtime p n)^[i] a).testBit (n - 1) = ((xtime p n)^[i] b).testBit (n - 1) := this
    rw [this', Bool.xor_self]
  have hsurj : Function.Surjective W :=
    ((Fintype.bijective_iff_injective_and_card W).2 ⟨hinj, by simp⟩).2
  obtain ⟨x, hx⟩ := hsurj w
  have hx0 : (x : Nat) ≠ 0 := by
    intro h
    obtain ⟨i, hi⟩ := hw
    rw [← hx] at hi
    have hz : (xtime p n)^[(i : Nat)] 0 = 0 := Function.iterate_fixed (by simp [xtime]) _
    have hi' : ((xtime p n)^[(i : Nat)] x).testBit (n - 1) = true := hi
    rw [h, hz] at hi'
    simp at hi'
  have hout : ∀ k, (∀ i : Fin n, outBit (MLS.new p r) (k + i) = some (w i)) ↔
      (calls k (MLS.new p r)).map (·.reg) = some (x : Nat) := by
    intro k
    have hlt := iter_lt ht h2 hr2 k
    rw [show (calls k (MLS.new p r)).map (·.reg) = some ((xtime p n)^[k] r) by
      rw [new_eq h1 h2 hn2, calls_eq hn hn2 ht h2 k r hr2]; rfl, Option.some.injEq]
    have e : ∀ i : Fin n, outBit (MLS.new p r) (k + i) = some (W ⟨_, hlt⟩ i) := by
      intro i
      rw [outBit_eq hn hn2 h1 h2 hr2, Nat.add_comm k, Function.iterate_add_apply]
    simp only [e, Option.some.injEq]
    constructor
    · intro h
      have : W ⟨_, hlt⟩ = W x := by rw [hx]; exact funext h
      exact congrArg Fin.val (hinj this)
    · intro h i
      rw [← hx]
      have hx' : (⟨_, hlt⟩ : Fin (2 ^ n)) = x := Fin.ext h
      rw [hx']
  simp only [hout]
  exact (C66_visits hn hn2 h1 h2 h0 hr0 hbad hr hr2 x hx0 x.2).1

/-- The hypotheses are met: the default polynomial (C07) ... -/
example : ∃ m, (MLS.new).bad 1 = some (m, false) := C07_default_not_bad (by norm_num) (by norm_num)
/-- ... and, of degree 3, `x^3 + x + 1`; the correlation of its symbols with the sequence shifted by two. -/
example : (((MLS.new 0b1011).bad 1).map (·.2)) = some false ∧
    ((List.range 7).map fun k => sym (MLS.new 0b1011) k) = [1, 1, -1, 1, -1, -1, -1] ∧
    ((List.range 7).map fun k => sym (MLS.new 0b1011) k * sym (MLS.new 0b1011) (k + 2)).sum = -1 := by decide
/-- Without the test of `bad` it can fail: `x^3 + x^2 + x + 1`, shift by two. -/
example : (((MLS.new 0b1111).bad 1).map (·.2)) = some true ∧
    ((List.range 7).map fun k => sym (MLS.new 0b1111) k * sym (MLS.new 0b1111) (k + 2)).sum ≠ -1 := by decide

end Verif.Mls
