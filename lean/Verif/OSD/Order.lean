import Verif.OSD.Spec
import Verif.OSD.Model
import Verif.Sort.Props
import Mathlib.Algebra.Order.Group.Unbundled.Int
/- The order of the positions by reliability. -/
namespace Verif.OSD
open Verif.Sort

theorem clamp_int (x : BitVec 8) : (clamp x).toInt = max x.toInt (-127) := by
  unfold clamp
  split
  · rw [max_eq_right (by omega)]; decide
  · rw [max_eq_left (by omega)]

theorem abs8_clamp (x : BitVec 8) : (abs8 (clamp x)).toInt = |max x.toInt (-127)| := by
  unfold abs8
  have h1 : x.toInt < 128 := by have := BitVec.toInt_lt (x := x); norm_num at this; exact this
  have h2 := clamp_int x
  have h3 : -127 ≤ (clamp x).toInt := by rw [h2]; exact le_max_right _ _
  have h4 : (clamp x).toInt < 128 := by rw [h2]; omega
  rw [← h2, Int.abs_eq_natAbs, BitVec.toInt_ofInt, Int.bmod_def]
  split <;> omega

theorem before_irrefl (soft : List (BitVec 8)) (p : Nat) : ¬ Before soft p p := by
  unfold Before; omega

theorem before_asymm {soft : List (BitVec 8)} {p q : Nat} (h : Before soft p q) : ¬ Before soft q p := by
  unfold Before at *; omega

theorem strictWeak_key {α : Type} (f : α → Int) : StrictWeak fun a b => decide (f b < f a) := by
  constructor
  · intro x y h
    rw [decide_eq_true_eq] at h
    rw [decide_eq_false_iff_not]; omega
  · intro x y z h
    rw [decide_eq_true_eq] at h
    rw [decide_eq_true_eq, decide_eq_true_eq]; omega

/-- A stable sort of `0 .. N-1` by decreasing key puts the larger key, and among equal keys the
smaller index, first. -/
theorem stable_pairwise {N : Nat} {f : Nat → Int} {b : List Nat}
    (h : StableSort (fun x y => decide (f y < f x)) (List.range N) b) :
    b.Pairwise fun x y => f y < f x ∨ (f y = f x ∧ x < y) := by
  rw [List.pairwise_iff_forall_sublist]
  intro x y hs
  have h1 := h.sorted
  rw [List.pairwise_iff_forall_sublist] at h1
  have h2 := h1 hs
  rw [decide_eq_false_iff_not] at h2
  by_cases h3 : f y < f x
  · exact Or.inl h3
  · right
    have he : f y = f x := by omega
    refine ⟨he, ?_⟩
    have h4 := hs.filter (equiv (fun x y => decide (f y < f x)) x)
    rw [h.stable x] at h4
    have h5 : ([x, y] : List Nat).filter (equiv (fun x y => decide (f y < f x)) x) = [x, y] := by
      rw [List.filter_eq_self]
      intro a ha
      simp only [List.mem_cons, List.not_mem_nil, or_false] at ha
      unfold equiv
      rcases ha with rfl | rfl
      · simp
      · simp [he]
    rw [h5] at h4
    have h6 := (List.pairwise_lt_range (n := N)).sublist (h4.trans (List.filter_sublist))
    rw [List.pairwise_cons] at h6
    exact h6.1 y (by simp)

end Verif.OSD
