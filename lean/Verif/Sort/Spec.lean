import Verif.Core
import Mathlib.Data.List.Perm.Basic
/- Specification of stable sorting and its uniqueness; nothing here refers to the code. -/
namespace Verif.Sort
variable {α : Type}

/-- Strict weak order, as C++ requires of a comparator: irreflexive-asymmetric and
"not less than" is transitive. -/
structure StrictWeak (lt : α → α → Bool) : Prop where
  asymm : ∀ x y, lt x y = true → lt y x = false
  negtrans : ∀ x y z, lt x z = true → lt x y = true ∨ lt y z = true

/-- Equivalent under the order: neither is less. -/
def equiv (lt : α → α → Bool) (x y : α) : Bool := !lt x y && !lt y x

/-- `b` is a stable sort of `a`. -/
structure StableSort (lt : α → α → Bool) (a b : List α) : Prop where
  /-- no later element is less than an earlier one -/
  sorted : b.Pairwise fun x y => lt y x = false
  /-- same elements with the same multiplicities -/
  perm : b.Perm a
  /-- the elements equivalent to `x` occur in the same order in both lists -/
  stable : ∀ x, b.filter (equiv lt x) = a.filter (equiv lt x)

theorem StrictWeak.irrefl {lt : α → α → Bool} (h : StrictWeak lt) (x : α) : lt x x = false := by
  cases hx : lt x x with
  | false => rfl
  | true => exact absurd (h.asymm x x hx) (by simp [hx])

theorem equiv_self {lt : α → α → Bool} (h : StrictWeak lt) (x : α) : equiv lt x x = true := by
  simp [equiv, h.irrefl]

/-- If both are equivalent to `x`, neither is less than the other. -/
theorem not_lt_of_equiv {lt : α → α → Bool} (h : StrictWeak lt) {x y z : α}
    (hy : equiv lt x y = true) (hz : equiv lt x z = true) : lt y z = false := by
  simp only [equiv, Bool.and_eq_true, Bool.not_eq_true'] at hy hz
  cases hl : lt y z with
  | false => rfl
  | true =>
    rcases h.negtrans y x z hl with h' | h'
    · rw [hy.2] at h'; exact absurd h' (by simp)
    · rw [hz.1] at h'; exact absurd h' (by simp)

/-- There is only one stable sort. -/
theorem StableSort.unique {lt : α → α → Bool} (h : StrictWeak lt) {a b c : List α}
    (hb : StableSort lt a b) (hc : StableSort lt a c) : b = c := by
  obtain ⟨sb, pb, fb⟩ := hb
  obtain ⟨sc, pc, fc⟩ := hc
  have hp : b.Perm c := pb.trans pc.symm
  have hf : ∀ x, b.filter (equiv lt x) = c.filter (equiv lt x) := fun x => (fb x).trans (fc x).symm
  clear pb pc fb fc a
  induction b generalizing c with
  | nil => exact (List.nil_perm.1 hp).symm
  | cons x b ih =>
    cases c with
    | nil => exact absurd hp.length_eq (by simp)
    | cons y c =>
      rw [List.pairwise_cons] at sb sc
      have hyx : lt y x = false := by
        have : y ∈ x :: b := hp.symm.mem_iff.1 (by simp)
        rcases List.mem_cons.1 this with rfl | hm
        · exact h.irrefl _
        · exact sb.1 y hm
      have hxy : lt x y = false := by
        have : x ∈ y :: c := hp.mem_iff.1 (by simp)
        rcases List.mem_cons.1 this with rfl | hm
        · exact h.irrefl _
        · exact sc.1 x hm
      have he : equiv lt x y = true := by simp [equiv, hxy, hyx]
      have h1 := hf x
      rw [List.filter_cons_of_pos (equiv_self h x), List.filter_cons_of_pos he] at h1
      obtain ⟨rfl, _⟩ := List.cons.inj h1
      congr 1
      apply ih sb.2 sc.2 (List.Perm.cons_inv hp)
      intro z
      have h2 := hf z
      simp only [List.filter_cons] at h2
      split at h2
      · exact (List.cons.inj h2).2
      · exact h2

end Verif.Sort
