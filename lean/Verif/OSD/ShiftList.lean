import Verif.OSD.PropsList
import Verif.OSD.Shift
/- The list decoder if a codeword is added to the word received: the list is determined by the correlations in the order of the search. -/
namespace Verif.OSD
open Finset
open Verif.BCH (beBit)

/-- The best `L` of the numbers `m 0 .. m (len-1)` that are not negative: `n` of them, number `j` being `m (k j)`; of equal ones the first are kept, in their order. -/
structure TopL (L len : Nat) (m : Nat → Int) (n : Nat) (k : Nat → Nat) : Prop where
  nL : n ≤ L
  klt : ∀ j, j < n → k j < len
  kinj : ∀ i j, i < n → j < n → k i = k j → i = j
  nonneg : ∀ j, j < n → 0 ≤ m (k j)
  sorted : ∀ i j, i < j → j < n → m (k j) ≤ m (k i)
  stable : ∀ i j, i < j → j < n → m (k j) = m (k i) → k i < k j
  complete : ∀ t, t < len → 0 ≤ m t → (∃ j, j < n ∧ k j = t) ∨ (n = L ∧ ∀ j, j < n → m t ≤ m (k j))
  late : ∀ t, t < len → 0 ≤ m t → (∃ j, j < n ∧ k j = t) ∨ ∀ j, j < n → m t = m (k j) → k j < t

theorem TopL.not_before {L len : Nat} {m : Nat → Int} {n n' : Nat} {k k' : Nat → Nat} (A : TopL L len m n k) (B : TopL L len m n' k') {j : Nat}
    (h : ∀ i, i < j → k' i = k i) (hj : j < n) (hj' : j < n') (hb : m (k j) < m (k' j) ∨ (m (k j) = m (k' j) ∧ k' j < k j)) : False := by
  have hk := B.klt j hj'
  have h0 := B.nonneg j hj'
  by_cases hin : ∃ i, i < n ∧ k i = k' j
  · obtain ⟨i, hi, e⟩ := hin
    rcases Nat.lt_trichotomy i j with h1 | rfl | h1
    · rw [← h i h1] at e
      have := B.kinj i j (by omega) hj' e
      omega
    · rw [e] at hb; omega
    · have h2 := A.sorted j i h1 hi
      have h3 := A.stable j i h1 hi
      rw [e] at h2 h3
      rcases hb with hb | ⟨hb, hb2⟩
      · omega
      · have := h3 hb.symm; omega
  · rcases A.complete _ hk h0 with h1 | ⟨-, h1⟩
    · exact hin h1
    · rcases A.late _ hk h0 with h2 | h2
      · exact hin h2
      · have h3 := h1 j hj
        have h4 := h2 j hj
        omega

theorem TopL.unique {L len : Nat} {m : Nat → Int} {n n' : Nat} {k k' : Nat → Nat} (A : TopL L len m n k) (B : TopL L len m n' k') :
    n' = n ∧ ∀ j, j < n → k' j = k j := by
  have key : ∀ j, j < n → j < n' → k' j = k j := by
    intro j
    induction j using Nat.strong_induction_on with
    | _ j ih =>
      intro hj hj'
      have h : ∀ i, i < j → k' i = k i := fun i hi => ih i hi (by omega) (by omega)
      by_contra hne
      rcases lt_trichotomy (m (k j)) (m (k' j)) with h1 | h1 | h1
      · exact A.not_before B h hj hj' (Or.inl h1)
      · rcases Nat.lt_trichotomy (k' j) (k j) with h2 | h2 | h2
        · exact A.not_before B h hj hj' (Or.inr ⟨h1, h2⟩)
        · exact hne h2
        · exact B.not_before A (fun i hi => (h i hi).symm) hj' hj (Or.inr ⟨h1.symm, h2⟩)
      · exact B.not_before A (fun i hi => (h i hi).symm) hj' hj (Or.inl h1)
  have one : ∀ {n n' : Nat} {k k' : Nat → Nat}, TopL L len m n k → TopL L len m n' k' → (∀ j, j < n → j < n' → k' j = k j) → n' ≤ n := by
    intro n n' k k' A B key
    by_contra hlt
    have hn : n < n' := by omega
    rcases A.complete (k' n) (B.klt n hn) (B.nonneg n hn) with ⟨i, hi, e⟩ | ⟨h1, -⟩
    · rw [← key i hi (by omega)] at e
      have := B.kinj i n (by omega) hn e
      omega
    · have := B.nL
      omega
  have hn : n' = n := le_antisymm (one A B key) (one B A fun j h1 h2 => (key j h2 h1).symm)
  exact ⟨hn, fun j hj => key j hj (by omega)⟩

variable {K N O L : Nat} {g : Nat → Nat → ZMod 2} {soft soft' : List (BitVec 8)} {e : Nat → ZMod 2}

theorem LInv.top {q : Nat → Nat} {l : List (Nat → ZMod 2)} {s : Lst} {n : Nat} {k : Nat → Nat} (I : LInv N L soft q l s n k) :
    TopL L l.length (fun t => corr N soft (l.getD t 0)) n k where
  nL := I.nL
  klt := I.klt
  kinj := I.kinj
  nonneg j hj := by rw [← I.score j hj]; exact I.nonneg j hj
  sorted i j hij hj := by rw [← I.score j hj, ← I.score i (by omega)]; exact I.sorted i j hij hj
  stable i j hij hj := by rw [← I.score j hj, ← I.score i (by omega)]; exact I.stable i j hij hj
  complete t ht h0 := (I.complete t ht h0).imp_right fun h => ⟨h.1, fun j hj => by rw [← I.score j hj]; exact h.2 j hj⟩
  late t ht h0 := (I.late t ht h0).imp_right fun h j hj => by rw [← I.score j hj]; exact h j hj

section
variable {M M' : Mem} {q q' : Nat → Nat} {v v' : Nat → Nat → ZMod 2} (P : Prep N K g soft M q v) (P' : Prep N K g soft' M' q' v') (h : Flipped N soft e soft')
include P P' h

theorem same_words (he : InCode K N g e) (hz : ∀ p, Basis K N g soft p → val soft p = 0 → e p = 0) (m : Nat) :
    (words K m soft' q' v').length = (words K m soft q v).length ∧
    ∀ t, t < (words K m soft q v).length → Agree N ((words K m soft' q' v').getD t 0) ((words K m soft q v).getD t 0 + e) := by
  have hl : (words K m soft' q' v').length = (words K m soft q v).length := by unfold words; simp
  refine ⟨hl, fun t ht => ?_⟩
  rw [← getElem_eq_getD ht 0, ← getElem_eq_getD (hl ▸ ht) 0]
  unfold words at ht ⊢
  rcases t with _ | t
  · exact same_base P P' h he hz
  · rw [List.length_cons, List.length_map] at ht
    have ht : t < (vis K m 0).length := by omega
    simp only [List.getElem_cons_succ, List.getElem_map]
    exact same_word P P' h he hz fun a ha => (((mem_vis _ _ _).1 (List.getElem_mem ht)).2.1 a ha).2

theorem same_list (he : InCode K N g e) (hz : ∀ p, Basis K N g soft p → val soft p = 0 → e p = 0) {m n n' : Nat} {k k' : Nat → Nat} {s s' : Lst}
    (I : LInv N L soft q (words K m soft q v) s n k) (I' : LInv N L soft' q' (words K m soft' q' v') s' n' k') :
    n' = n ∧ ∀ j, j < n → k' j = k j := by
  obtain ⟨hl, hw⟩ := same_words P P' h he hz m
  have A := I.top
  have B := I'.top
  rw [hl] at B
  refine A.unique ⟨B.nL, B.klt, B.kinj, fun j hj => ?_, fun i j hij hj => ?_, fun i j hij hj => ?_, fun t ht => ?_, fun t ht => ?_⟩
  all_goals have hc : ∀ t, t < (words K m soft q v).length → corr N soft' ((words K m soft' q' v').getD t 0) = corr N soft ((words K m soft q v).getD t 0) :=
    fun t ht => h.corr (hw t ht)
  · have := B.nonneg j hj
    rwa [hc _ (B.klt j hj)] at this
  · have := B.sorted i j hij hj
    rwa [hc _ (B.klt j hj), hc _ (B.klt i (by omega))] at this
  · have := B.stable i j hij hj
    rwa [hc _ (B.klt j hj), hc _ (B.klt i (by omega))] at this
  · intro h0
    rw [← hc t ht] at h0
    refine (B.complete t ht h0).imp_right fun h1 => ⟨h1.1, fun j hj => ?_⟩
    have := h1.2 j hj
    rwa [hc t ht, hc _ (B.klt j hj)] at this
  · intro h0
    rw [← hc t ht] at h0
    refine (B.late t ht h0).imp_right fun h1 j hj => ?_
    have := h1 j hj
    rwa [hc t ht, hc _ (B.klt j hj)] at this

end
end Verif.OSD
