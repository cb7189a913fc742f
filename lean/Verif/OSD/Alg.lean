import Verif.OSD.Spec
import Mathlib.Algebra.BigOperators.Ring.Finset
import Mathlib.Algebra.Field.ZMod
import Mathlib.Tactic.LinearCombination
/- Row operations on generator matrices. -/
namespace Verif.OSD
open Finset

theorem zz (a : ZMod 2) : a + a = 0 := by revert a; decide
theorem z01 (a : ZMod 2) : a = 0 ∨ a = 1 := by revert a; decide

/-- Same code, and the rank is kept. -/
def Same (K N : Nat) (g h : Nat → Nat → ZMod 2) : Prop :=
  (∀ c, InCode K N g c ↔ InCode K N h c) ∧ (FullRank K N g → FullRank K N h)

theorem Same.refl (K N : Nat) (g : Nat → Nat → ZMod 2) : Same K N g g := ⟨fun _ => Iff.rfl, id⟩

theorem Same.trans {K N : Nat} {g h k : Nat → Nat → ZMod 2} (a : Same K N g h) (b : Same K N h k) : Same K N g k :=
  ⟨fun c => (a.1 c).trans (b.1 c), fun r => b.2 (a.2 r)⟩

theorem same_of_map {K N : Nat} {g h : Nat → Nat → ZMod 2} (T : (Nat → ZMod 2) → (Nat → ZMod 2))
    (h1 : ∀ m p, p < N → ∑ j ∈ range K, m j * h j p = ∑ j ∈ range K, T m j * g j p)
    (h2 : ∀ m, T (T m) = m) (h3 : ∀ m, (∀ j, j < K → T m j = 0) → ∀ j, j < K → m j = 0) : Same K N g h := by
  refine ⟨fun c => ⟨?_, ?_⟩, ?_⟩
  · rintro ⟨m, hm⟩
    refine ⟨T m, fun p hp => ?_⟩
    rw [hm p hp, h1 _ p hp, h2]
  · rintro ⟨m, hm⟩
    exact ⟨T m, fun p hp => by rw [hm p hp, h1 _ p hp]⟩
  · intro r m hm
    refine h3 m (r (T m) fun p hp => ?_)
    rw [← h1 m p hp, hm p hp]

/-- Exchange of two rows. -/
def swapV (v : Nat → Nat → ZMod 2) (j k : Nat) : Nat → Nat → ZMod 2 := fun a => v (Equiv.swap j k a)

theorem same_swap {K N j k : Nat} (g : Nat → Nat → ZMod 2) (hj : j < K) (hk : k < K) : Same K N g (swapV g j k) := by
  have hlt : ∀ a, a < K → Equiv.swap j k a < K := by
    intro a ha
    rw [Equiv.swap_apply_def]
    split
    · exact hk
    · split
      · exact hj
      · exact ha
  refine same_of_map (fun m a => m (Equiv.swap j k a)) ?_ ?_ ?_
  · intro m p _
    unfold swapV
    refine Finset.sum_nbij' (fun a => Equiv.swap j k a) (fun a => Equiv.swap j k a) ?_ ?_ ?_ ?_ ?_
    · intro a ha; rw [mem_range] at ha ⊢; exact hlt a ha
    · intro a ha; rw [mem_range] at ha ⊢; exact hlt a ha
    · intro a _; exact Equiv.swap_apply_self _ _ _
    · intro a _; exact Equiv.swap_apply_self _ _ _
    · intro a _; beta_reduce; rw [Equiv.swap_apply_self]
  · intro m; funext a; beta_reduce; rw [Equiv.swap_apply_self]
  · intro m hm a ha
    have := hm _ (hlt a ha)
    rwa [Equiv.swap_apply_self] at this

/-- Row `k` added to row `j`. -/
def addV (v : Nat → Nat → ZMod 2) (j k : Nat) : Nat → Nat → ZMod 2 :=
  fun a => if a = j then fun p => v j p + v k p else v a

theorem same_add {K N j k : Nat} (g : Nat → Nat → ZMod 2) (hj : j < K) (hk : k < K) (hne : j ≠ k) :
    Same K N g (addV g j k) := by
  refine same_of_map (fun m a => if a = k then m k + m j else m a) ?_ ?_ ?_
  · intro m p _
    have e1 : ∀ a, m a * addV g j k a p = m a * g a p + (if a = j then m j * g k p else 0) := by
      intro a
      unfold addV
      by_cases h : a = j
      · subst h; rw [if_pos rfl, if_pos rfl, mul_add]
      · rw [if_neg h, if_neg h, add_zero]
    have e2 : ∀ a, (if a = k then m k + m j else m a) * g a p = m a * g a p + (if a = k then m j * g k p else 0) := by
      intro a
      by_cases h : a = k
      · subst h; rw [if_pos rfl, if_pos rfl, add_mul]
      · rw [if_neg h, if_neg h, add_zero]
    simp only [e1, e2, sum_add_distrib, sum_ite_eq', mem_range, hj, hk, if_true]
  · intro m; funext a
    beta_reduce
    by_cases h : a = k
    · subst h
      rw [if_pos rfl, if_pos rfl, if_neg hne, add_assoc, zz, add_zero]
    · rw [if_neg h, if_neg h]
  · intro m hm a ha
    have hmj := hm j hj
    rw [if_neg hne] at hmj
    have := hm a ha
    beta_reduce at this
    by_cases h : a = k
    · subst h; rw [if_pos rfl, hmj, add_zero] at this; exact this
    · rw [if_neg h] at this; exact this

end Verif.OSD
