import Verif.Freezer.Props
import Verif.Polar.EraseProof
import Mathlib.Algebra.BigOperators.Ring.Finset
import Mathlib.Algebra.Order.BigOperators.Group.Finset
import Mathlib.Algebra.BigOperators.Group.Finset.Powerset
/- Symbols that are erased independently of each other with the same probability. -/
namespace Verif.Freezer
open Verif.Polar (lostL lostL_length two_pow_succ')
variable {F : Type} [Field F] [LinearOrder F] [IsStrictOrderedRing F]

/-- The mean of `f` over `n` independent flags, each of which is set with probability `p`. -/
def Ex (p : F) : Nat → (List Bool → F) → F
  | 0, f => f []
  | n + 1, f => p * Ex p n (fun l => f (true :: l)) + (1 - p) * Ex p n (fun l => f (false :: l))

theorem Ex_congr (p : F) : ∀ (n : Nat) {f g : List Bool → F}, (∀ l, l.length = n → f l = g l) → Ex p n f = Ex p n g := by
  intro n
  induction n with
  | zero => intro f g h; exact h [] rfl
  | succ n ih =>
    intro f g h
    rw [Ex, Ex, ih fun l hl => h (true :: l) (by simp [hl]), ih fun l hl => h (false :: l) (by simp [hl])]

theorem Ex_lin (p a b : F) : ∀ (n : Nat) (f g : List Bool → F), Ex p n (fun l => a * f l + b * g l) = a * Ex p n f + b * Ex p n g := by
  intro n
  induction n with
  | zero => intro f g; rfl
  | succ n ih => intro f g; rw [Ex, ih, ih, Ex, Ex]; ring

theorem Ex_append (p : F) (m : Nat) : ∀ (n : Nat) (f : List Bool → F), Ex p (n + m) f = Ex p n fun a => Ex p m fun b => f (a ++ b) := by
  intro n
  induction n with
  | zero => intro f; rw [Nat.zero_add]; rfl
  | succ n ih =>
    intro f
    rw [show n + 1 + m = (n + m) + 1 by omega, Ex, ih, ih, Ex]
    rfl

theorem Ex_or (p : F) : ∀ (n : Nat) (g : List Bool → F), (Ex p n fun a => Ex p n fun b => g (List.zipWith (· || ·) a b)) = Ex (p * (2 - p)) n g := by
  intro n
  induction n with
  | zero => intro g; rfl
  | succ n ih =>
    intro g
    simp only [Ex, List.zipWith_cons_cons, Bool.true_or, Bool.or_true, Bool.or_false]
    rw [Ex_lin, Ex_lin]
    have h1 := ih fun l => g (true :: l)
    have h2 := ih fun l => g (false :: l)
    rw [h1, h2]
    ring

theorem Ex_and (p : F) : ∀ (n : Nat) (g : List Bool → F), (Ex p n fun a => Ex p n fun b => g (List.zipWith (· && ·) a b)) = Ex (p * p) n g := by
  intro n
  induction n with
  | zero => intro g; rfl
  | succ n ih =>
    intro g
    simp only [Ex, List.zipWith_cons_cons, Bool.true_and, Bool.and_true, Bool.false_and]
    rw [Ex_lin, Ex_lin]
    have h1 := ih fun l => g (true :: l)
    have h2 := ih fun l => g (false :: l)
    rw [h1, h2]
    ring

theorem Ex_lost : ∀ (M : Nat) (p : F) (i : Nat), i < 2 ^ M →
    Ex p (2 ^ M) (fun e => if (lostL M e).getD i false = true then 1 else 0) = erasure (exact F) M p i := by
  intro M
  induction M with
  | zero =>
    intro p i hi
    obtain rfl : i = 0 := by simpa using hi
    simp [Ex, lostL, erasure]
  | succ M ih =>
    intro p i hi
    have e' := two_pow_succ' M
    have hsplit : ∀ a b : List Bool, a.length = 2 ^ M → b.length = 2 ^ M →
        lostL (M + 1) (a ++ b) = lostL M (List.zipWith (· || ·) a b) ++ lostL M (List.zipWith (· && ·) a b) := by
      intro a b ha hb
      rw [lostL, List.take_left' ha, List.drop_left' ha]
    rw [e', Ex_append, erasure_succ]
    by_cases hlow : i < 2 ^ M
    · rw [Nat.testBit_lt_two_pow hlow, if_neg (by simp), ← ih _ i hlow, ← Ex_or]
      refine Ex_congr p _ fun a ha => Ex_congr p _ fun b hb => ?_
      rw [hsplit a b ha hb, List.getD_append _ _ _ _ (by rw [lostL_length M _ (by simp [ha, hb])]; exact hlow)]
    · obtain ⟨t, rfl⟩ : ∃ t, i = 2 ^ M + t := ⟨i - 2 ^ M, by omega⟩
      have ht : t < 2 ^ M := by omega
      rw [testBit_add_high ht, if_pos rfl, erasure_mod _ M _ _ t (testBit_add_low ht), ← ih _ t ht, ← Ex_and]
      refine Ex_congr p _ fun a ha => Ex_congr p _ fun b hb => ?_
      rw [hsplit a b ha hb, List.getD_append_right _ _ _ _ (by rw [lostL_length M _ (by simp [ha, hb])]; omega), lostL_length M _ (by simp [ha, hb]),
        Nat.add_sub_cancel_left]

/-- The mean as a sum over the sets of set flags. -/
theorem Ex_sum (p : F) : ∀ (n : Nat) (f : List Bool → F), Ex p n f =
    ∑ E ∈ (Finset.range n).powerset, p ^ E.card * (1 - p) ^ (n - E.card) * f ((List.range n).map fun j => decide (j ∈ E)) := by
  intro n
  induction n with
  | zero => intro f; simp [Ex]
  | succ n ih =>
    intro f
    rw [Ex_append, Finset.range_add_one, Finset.sum_powerset_insert (by simp), ih, ← Finset.sum_add_distrib]
    refine Finset.sum_congr rfl fun E hE => ?_
    rw [Finset.mem_powerset] at hE
    have hn : n ∉ E := fun h => by simpa using hE h
    have hcard : E.card ≤ n := by simpa using Finset.card_le_card hE
    have e1 : ((List.range (n + 1)).map fun j => decide (j ∈ E)) = ((List.range n).map fun j => decide (j ∈ E)) ++ [false] := by
      rw [List.range_succ, List.map_append]; simp [hn]
    have e2 : ((List.range (n + 1)).map fun j => decide (j ∈ insert n E)) = ((List.range n).map fun j => decide (j ∈ E)) ++ [true] := by
      rw [List.range_succ, List.map_append]
      congr 1
      · refine List.map_congr_left fun j hj => ?_
        have : j ≠ n := by have := List.mem_range.1 hj; omega
        simp [this]
      · simp
    rw [e1, e2, Finset.card_insert_of_notMem hn, show n + 1 - E.card = (n - E.card) + 1 by omega, show n + 1 - (E.card + 1) = n - E.card by omega, pow_succ, pow_succ]
    simp only [Ex]
    ring

end Verif.Freezer
