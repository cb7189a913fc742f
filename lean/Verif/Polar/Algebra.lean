import Verif.Polar.Transform
import Verif.PolarHelper.Props
import Mathlib.Algebra.BigOperators.Intervals
import Mathlib.Algebra.BigOperators.Ring.Finset
/- The transform in closed form. -/
namespace Verif.Polar
open Finset

theorem and_eq_iff (i j : Nat) : i &&& j = j ↔ ∀ b, j.testBit b = true → i.testBit b = true := by
  constructor
  · intro h b hb
    rw [← h, Nat.testBit_and] at hb
    simp at hb; exact hb.1
  · intro h
    apply Nat.eq_of_testBit_eq
    intro b
    rw [Nat.testBit_and]
    cases hb : j.testBit b
    · simp
    · simp [h b hb]

theorem testBit_hi {k i : Nat} (hi : i < 2 ^ k) (b : Nat) : (2 ^ k + i).testBit b = (decide (b = k) || i.testBit b) := by
  rcases lt_trichotomy b k with h | h | h
  · rw [Nat.testBit_two_pow_add_gt h]; simp [h.ne]
  · subst h; rw [Nat.testBit_two_pow_add_eq, Nat.testBit_eq_false_of_lt hi]; simp
  · have h1 : 2 ^ (k + 1) ≤ 2 ^ b := Nat.pow_le_pow_right (by omega) h
    rw [pow_succ] at h1
    rw [Nat.testBit_eq_false_of_lt (by omega), Nat.testBit_eq_false_of_lt (by omega)]; simp [h.ne']

theorem sup_hi_lo {k i j : Nat} (hi : i < 2 ^ k) (hj : j < 2 ^ k) : (2 ^ k + i) &&& j = j ↔ i &&& j = j := by
  rw [and_eq_iff, and_eq_iff]
  refine forall_congr' fun b => ?_
  rw [testBit_hi hi]
  by_cases h : b = k
  · subst h; simp [Nat.testBit_eq_false_of_lt hj]
  · simp [h]

theorem sup_hi_hi {k i j : Nat} (hi : i < 2 ^ k) (hj : j < 2 ^ k) : (2 ^ k + i) &&& (2 ^ k + j) = 2 ^ k + j ↔ i &&& j = j := by
  rw [and_eq_iff, and_eq_iff]
  refine forall_congr' fun b => ?_
  rw [testBit_hi hi, testBit_hi hj]
  by_cases h : b = k
  · subst h; simp [Nat.testBit_eq_false_of_lt hj]
  · simp [h]

theorem sup_lo_hi {k i j : Nat} (hi : i < 2 ^ k) (hj : j < 2 ^ k) : ¬ (i &&& (2 ^ k + j) = 2 ^ k + j) := by
  rw [and_eq_iff]
  intro h
  have := h k (by rw [testBit_hi hj]; simp)
  rw [Nat.testBit_eq_false_of_lt hi] at this
  exact absurd this (by simp)

section Shift
variable {τ : Type} (q : τ → τ → τ)

theorem P_shift : ∀ (s : Nat) (u : Nat → τ) (b r : Nat), r < 2 ^ s → P q s u (2 ^ s * b + r) = P q s (fun t => u (2 ^ s * b + t)) r := by
  intro s
  induction s with
  | zero => intro u b r hr; rfl
  | succ s ih =>
    intro u b r hr
    have h0 : 0 < 2 ^ s := by positivity
    rw [pow_succ, mul_comm] at hr
    have key : ∀ q', P q s u (2 ^ (s + 1) * b + (2 ^ s * q' + r % 2 ^ s)) =
        P q s (fun t => u (2 ^ (s + 1) * b + t)) (2 ^ s * q' + r % 2 ^ s) := by
      intro q'
      rw [show 2 ^ (s + 1) * b + (2 ^ s * q' + r % 2 ^ s) = 2 ^ s * (2 * b + q') + r % 2 ^ s by ring,
        ih u (2 * b + q') _ (Nat.mod_lt _ h0), ih _ q' _ (Nat.mod_lt _ h0)]
      congr 1; funext t; congr 1; ring
    have hr' : r = 2 ^ s * (r / 2 ^ s) + r % 2 ^ s := (Nat.div_add_mod r _).symm
    have e1 : (2 ^ (s + 1) * b + r) / 2 ^ s % 2 = r / 2 ^ s % 2 := by
      rw [show 2 ^ (s + 1) * b + r = 2 ^ s * (2 * b) + r by ring, Nat.mul_add_div h0]; omega
    show ite _ _ _ = ite _ _ _
    rw [e1]
    have k1 := key (r / 2 ^ s)
    rw [← hr'] at k1
    have k2 := key (r / 2 ^ s + 1)
    rw [show 2 ^ s * (r / 2 ^ s + 1) + r % 2 ^ s = r + 2 ^ s by rw [mul_add, mul_one]; omega] at k2
    rw [k1, add_assoc, k2]

theorem P_low {s : Nat} {u : Nat → τ} {j : Nat} (hj : j < 2 ^ s) :
    P q (s + 1) u j = q (P q s u j) (P q s (fun t => u (2 ^ s + t)) j) := by
  show ite _ _ _ = _
  rw [Nat.div_eq_of_lt hj, if_pos rfl]
  have := P_shift q s u 1 j hj
  rw [mul_one] at this
  rw [add_comm j, this]

theorem P_high {s : Nat} {u : Nat → τ} {j : Nat} (hj : j < 2 ^ s) :
    P q (s + 1) u (2 ^ s + j) = P q s (fun t => u (2 ^ s + t)) j := by
  show ite _ _ _ = _
  have h0 : 0 < 2 ^ s := by positivity
  rw [Nat.add_div_left _ h0, Nat.div_eq_of_lt hj, if_neg (by omega)]
  have := P_shift q s u 1 j hj
  rwa [mul_one] at this

end Shift

/-- Closed form: position `j` is the product over the positions whose bits include those of `j`. -/
theorem P_prod {M : Type} [CommMonoid M] : ∀ (s : Nat) (u : Nat → M) (j : Nat), j < 2 ^ s →
    P (· * ·) s u j = ∏ i ∈ (range (2 ^ s)).filter (fun i => i &&& j = j), u i := by
  intro s
  induction s with
  | zero => intro u j hj; have : j = 0 := by simpa using hj
            subst this; simp [P]
  | succ s ih =>
    intro u j hj
    rw [prod_filter, pow_succ, mul_two, prod_range_add]
    rw [pow_succ, mul_two] at hj
    by_cases h : j < 2 ^ s
    · rw [P_low _ h, ih _ _ h, ih _ _ h, prod_filter, prod_filter]
      congr 1
      refine prod_congr rfl fun i hi => ?_
      simp only [sup_hi_lo (mem_range.1 hi) h]
    · obtain ⟨r, rfl⟩ : ∃ r, j = 2 ^ s + r := ⟨j - 2 ^ s, by omega⟩
      have hr : r < 2 ^ s := by omega
      have hz : (∏ x ∈ range (2 ^ s), if x &&& (2 ^ s + r) = 2 ^ s + r then u x else 1) = 1 :=
        prod_eq_one fun i hi => if_neg (sup_lo_hi (mem_range.1 hi) hr)
      rw [P_high _ hr, ih _ _ hr, prod_filter, hz, one_mul]
      refine prod_congr rfl fun i hi => ?_
      simp only [sup_hi_hi (mem_range.1 hi) hr]

theorem P_mul {M : Type} [CommMonoid M] (s : Nat) (u v : Nat → M) : ∀ j, P (· * ·) s (fun i => u i * v i) j = P (· * ·) s u j * P (· * ·) s v j := by
  induction s with
  | zero => intro j; rfl
  | succ s ih =>
    intro j
    show ite _ _ _ = ite _ _ _ * ite _ _ _
    split
    · rw [ih, ih, mul_mul_mul_comm]
    · rw [ih]

/-- Applying the transform twice. -/
theorem P_invol {M : Type} [CommMonoid M] : ∀ (s : Nat) (u : Nat → M), (∀ i, u i * u i = 1) → ∀ j, j < 2 ^ s →
    P (· * ·) s (P (· * ·) s u) j = u j := by
  intro s
  induction s with
  | zero => intro u _ j _; rfl
  | succ s ih =>
    intro u hu j hj
    rw [pow_succ, mul_two] at hj
    have hs : ∀ i, i < 2 ^ s → P (· * ·) (s + 1) u (2 ^ s + i) = P (· * ·) s (fun t => u (2 ^ s + t)) i := fun i hi => P_high _ hi
    by_cases h : j < 2 ^ s
    · rw [P_low _ h]
      have e1 : P (· * ·) s (P (· * ·) (s + 1) u) j = P (· * ·) s (fun i => P (· * ·) s u i * P (· * ·) s (fun t => u (2 ^ s + t)) i) j :=
        P_congr' (fun i hi => P_low _ hi) h
      have e2 : P (· * ·) s (fun t => P (· * ·) (s + 1) u (2 ^ s + t)) j = P (· * ·) s (P (· * ·) s fun t => u (2 ^ s + t)) j := P_congr' hs h
      rw [e1, e2, P_mul, ih u hu j h, ih _ (fun i => hu _) j h, mul_assoc, hu, mul_one]
    · obtain ⟨r, rfl⟩ : ∃ r, j = 2 ^ s + r := ⟨j - 2 ^ s, by omega⟩
      have hr : r < 2 ^ s := by omega
      rw [P_high _ hr, P_congr' hs hr, ih _ (fun i => hu _) r hr]

/-! ### `int8_t` -/
open PolarHelper (t8 t8_id t8_range I8)

theorem t8_mul (a b : Int) : t8 (t8 a * t8 b) = t8 (a * b) := by
  unfold t8
  rw [Int.bmod_mul_bmod, Int.mul_bmod_bmod]

theorem t8_t8 (a : Int) : t8 (t8 a) = t8 a := t8_id (t8_range a).1 (t8_range a).2

theorem P8_t8 (s : Nat) (u : Nat → Int) : ∀ j, t8 (P ph8.qmul s u j) = t8 (P (· * ·) s u j) := by
  induction s with
  | zero => intro j; rfl
  | succ s ih =>
    intro j
    show t8 (ite _ _ _) = t8 (ite _ _ _)
    split
    · show t8 (t8 _) = _
      rw [t8_t8, ← t8_mul, ih, ih, t8_mul]
    · exact ih j

theorem P8_range (s : Nat) (u : Nat → Int) (hu : ∀ i, I8 (u i)) : ∀ j, I8 (P ph8.qmul s u j) := by
  induction s with
  | zero => intro j; exact hu j
  | succ s ih =>
    intro j
    show I8 (ite _ _ _)
    split
    · exact t8_range _
    · exact ih j

theorem P8_eq (s : Nat) (u : Nat → Int) (hu : ∀ i, I8 (u i)) (j : Nat) : P ph8.qmul s u j = t8 (P (· * ·) s u j) := by
  rw [← P8_t8, t8_id (P8_range s u hu j).1 (P8_range s u hu j).2]

/-- A hard symbol. -/
def Sym (x : Int) : Prop := x = 1 ∨ x = -1

theorem Sym.sq {x : Int} (h : Sym x) : x * x = 1 := by rcases h with rfl | rfl <;> rfl
theorem Sym.mul {x y : Int} (h : Sym x) (h' : Sym y) : Sym (x * y) := by
  rcases h with rfl | rfl <;> rcases h' with rfl | rfl <;> first | exact Or.inl rfl | exact Or.inr rfl
theorem Sym.t8 {x : Int} (h : Sym x) : PolarHelper.t8 x = x := by rcases h with rfl | rfl <;> rfl
theorem Sym.i8 {x : Int} (h : Sym x) : I8 x := by rcases h with rfl | rfl <;> exact ⟨by omega, by omega⟩

theorem P_sym (s : Nat) (u : Nat → Int) (hu : ∀ i, Sym (u i)) : ∀ j, Sym (P (· * ·) s u j) := by
  induction s with
  | zero => intro j; exact hu j
  | succ s ih =>
    intro j
    show Sym (ite _ _ _)
    split
    · exact (ih _).mul (ih _)
    · exact ih j

theorem P8_sym (s : Nat) (u : Nat → Int) (hu : ∀ i, Sym (u i)) (j : Nat) : P ph8.qmul s u j = P (· * ·) s u j := by
  rw [P8_eq s u (fun i => (hu i).i8), (P_sym s u hu j).t8]

end Verif.Polar
