import Verif.OSD.Search
import Mathlib.Data.List.Sort
/- The visited words are exactly the codewords near the hard decisions on the basis, each once. -/
namespace Verif.OSD
open Finset

variable {K N : Nat} {g : Nat → Nat → ZMod 2} {soft : List (BitVec 8)} {M : Mem} {q : Nat → Nat} {v : Nat → Nat → ZMod 2}

/-- Combination of the rows. -/
def comb (K : Nat) (v : Nat → Nat → ZMod 2) (m : Nat → ZMod 2) (p : Nat) : ZMod 2 := ∑ j ∈ range K, m j * v j p

theorem Prep.comb_at (P : Prep N K g soft M q v) (m : Nat → ZMod 2) {b : Nat} (hb : b < K) : comb K v m (q b) = m b := by
  unfold comb
  rw [sum_eq_single b]
  · rw [P.id b b hb hb, if_pos rfl, mul_one]
  · intro j hj hne
    rw [P.id j b (mem_range.1 hj) hb, if_neg hne, mul_zero]
  · intro h; exact absurd (mem_range.2 hb) h

theorem Prep.inCode (P : Prep N K g soft M q v) (c : Nat → ZMod 2) : InCode K N g c ↔ ∃ m, Agree N c (comb K v m) :=
  P.same.1 c

open Classical in
theorem Prep.dist_comb (P : Prep N K g soft M q v) {c m : Nat → ZMod 2} (h : Agree N c (comb K v m)) :
    dist K N g soft c = ((range K).filter fun b => m b ≠ hardBit soft (q b)).card := by
  have hKN := P.KN
  unfold dist
  have hinj : Set.InjOn q ((range K).filter fun b => m b ≠ hardBit soft (q b)) := by
    intro i hi j hj e
    rw [Finset.mem_coe, mem_filter, mem_range] at hi hj
    exact P.qinj i j (by omega) (by omega) e
  rw [← Finset.card_image_of_injOn hinj]
  congr 1
  ext p
  rw [mem_filter, mem_range, mem_image]
  constructor
  · rintro ⟨hp, hB, hne⟩
    obtain ⟨a, ha, rfl⟩ := (P.basis p).1 hB
    refine ⟨a, ?_, rfl⟩
    rw [mem_filter, mem_range]
    refine ⟨ha, ?_⟩
    rwa [h _ hp, P.comb_at m ha] at hne
  · rintro ⟨a, ha, rfl⟩
    rw [mem_filter, mem_range] at ha
    have hp := P.qlt a (by omega)
    refine ⟨hp, (P.basis _).2 ⟨a, ha.1, rfl⟩, ?_⟩
    rw [h _ hp, P.comb_at m ha.1]
    exact ha.2

/-- The coefficients of a visited word. -/
def coef (soft : List (BitVec 8)) (q : Nat → Nat) (A : List Nat) (j : Nat) : ZMod 2 :=
  hardBit soft (q j) + if j ∈ A then 1 else 0

theorem sumV_eq (v : Nat → Nat → ZMod 2) {A : List Nat} (hnd : A.Nodup) (hA : ∀ a ∈ A, a < K) (p : Nat) :
    sumV v A p = ∑ j ∈ range K, (if j ∈ A then 1 else 0) * v j p := by
  induction A with
  | nil => unfold sumV; simp
  | cons a A ih =>
    rw [List.nodup_cons] at hnd
    have h1 : sumV v (a :: A) p = v a p + sumV v A p := by
      unfold sumV; rw [List.map_cons, List.sum_cons, Pi.add_apply]
    rw [h1, ih hnd.2 (fun b hb => hA b (List.mem_cons_of_mem _ hb))]
    have h2 : ∀ j, (if j ∈ a :: A then (1 : ZMod 2) else 0) * v j p =
        (if j = a then 1 else 0) * v j p + (if j ∈ A then 1 else 0) * v j p := by
      intro j
      by_cases h : j = a
      · subst h
        rw [if_pos (by simp), if_pos rfl, if_neg hnd.1, zero_mul, add_zero]
      · rw [if_neg h, zero_mul, zero_add]
        simp only [List.mem_cons, h, false_or]
    simp only [h2, sum_add_distrib]
    rw [sum_ind (fun j => v j p) (hA a (by simp))]

theorem word_eq {A : List Nat} (hnd : A.Nodup) (hA : ∀ a ∈ A, a < K) :
    base K soft q v + sumV v A = comb K v (coef soft q A) := by
  funext p
  rw [Pi.add_apply, sumV_eq v hnd hA]
  unfold base comb coef
  rw [← sum_add_distrib]
  exact sum_congr rfl fun j _ => by rw [add_mul]

theorem words_eq (D : Nat) : words K D soft q v = ([] :: vis K D 0).map fun A => base K soft q v + sumV v A := by
  unfold words
  rw [List.map_cons]
  congr 1
  unfold sumV
  rw [List.map_nil, List.sum_nil, add_zero]

theorem mem_nil_vis {D : Nat} {A : List Nat} : A ∈ [] :: vis K D 0 ↔ A.Pairwise (· < ·) ∧ (∀ a ∈ A, a < K) ∧ A.length ≤ D := by
  rw [List.mem_cons, mem_vis]
  constructor
  · rintro (rfl | ⟨h1, h2, _, h4⟩)
    · exact ⟨List.Pairwise.nil, fun a h => absurd h List.not_mem_nil, Nat.zero_le _⟩
    · exact ⟨h1, fun a ha => (h2 a ha).2, h4⟩
  · rintro ⟨h1, h2, h3⟩
    cases A with
    | nil => exact Or.inl rfl
    | cons a A => exact Or.inr ⟨h1, fun b hb => ⟨Nat.zero_le _, h2 b hb⟩, by simp, h3⟩

theorem nodup_of_lt {A : List Nat} (h : A.Pairwise (· < ·)) : A.Nodup := h.imp fun h => Nat.ne_of_lt h

theorem add_ne_self (h : ZMod 2) (b : Prop) [Decidable b] : h + (if b then 1 else 0) ≠ h ↔ b := by
  by_cases hb : b
  · simp [hb]
  · simp [hb]

theorem diff_fix (m h : ZMod 2) : h + (if m ≠ h then 1 else 0) = m := by revert m h; decide

/-- Every visited word is to be tested. -/
theorem Prep.tested_of_mem (P : Prep N K g soft M q v) {O : Nat} {w : Nat → ZMod 2} (hw : w ∈ words K (min O 6) soft q v) :
    Tested K N O g soft w := by
  rw [words_eq, List.mem_map] at hw
  obtain ⟨A, hA, rfl⟩ := hw
  obtain ⟨h1, h2, h3⟩ := mem_nil_vis.1 hA
  rw [word_eq (nodup_of_lt h1) h2]
  refine ⟨(P.inCode _).2 ⟨_, fun _ _ => rfl⟩, ?_⟩
  classical
  rw [P.dist_comb (m := coef soft q A) (fun _ _ => rfl)]
  refine le_trans ?_ h3
  rw [← List.toFinset_card_of_nodup (nodup_of_lt h1)]
  refine Finset.card_le_card ?_
  intro b hb
  rw [mem_filter] at hb
  rw [List.mem_toFinset]
  exact (add_ne_self _ _).1 hb.2

/-- Every word to be tested is visited. -/
theorem Prep.mem_of_tested (P : Prep N K g soft M q v) {O : Nat} {c : Nat → ZMod 2} (hc : Tested K N O g soft c) :
    ∃ w ∈ words K (min O 6) soft q v, Agree N c w := by
  obtain ⟨h1, h2⟩ := hc
  obtain ⟨m, hm⟩ := (P.inCode c).1 h1
  classical
  rw [P.dist_comb hm] at h2
  set A := (List.range K).filter fun b => m b ≠ hardBit soft (q b) with hA
  have hlt : A.Pairwise (· < ·) := List.pairwise_lt_range.filter _
  have hlen : A.length = ((range K).filter fun b => m b ≠ hardBit soft (q b)).card := by
    rw [← List.toFinset_card_of_nodup (nodup_of_lt hlt)]
    congr 1
    ext b
    rw [hA, List.mem_toFinset, List.mem_filter, mem_filter, List.mem_range, mem_range, decide_eq_true_eq]
  have hAK : ∀ a ∈ A, a < K := by
    intro a ha
    rw [hA, List.mem_filter] at ha
    exact List.mem_range.1 ha.1
  refine ⟨base K soft q v + sumV v A, ?_, ?_⟩
  · rw [words_eq, List.mem_map]
    exact ⟨A, mem_nil_vis.2 ⟨hlt, hAK, by rw [hlen]; exact h2⟩, rfl⟩
  · rw [word_eq (nodup_of_lt hlt) hAK]
    intro p hp
    rw [hm p hp]
    unfold comb
    refine sum_congr rfl fun j hj => ?_
    congr 1
    unfold coef
    rw [mem_range] at hj
    have : (j ∈ A) ↔ m j ≠ hardBit soft (q j) := by
      rw [hA, List.mem_filter, List.mem_range, decide_eq_true_eq]
      exact ⟨fun h => h.2, fun h => ⟨hj, h⟩⟩
    simp only [this]
    exact (diff_fix _ _).symm

/-- No word is visited twice. -/
theorem Prep.words_distinct (P : Prep N K g soft M q v) (D : Nat) :
    (words K D soft q v).Pairwise fun c d => ¬ Agree N c d := by
  rw [words_eq, List.pairwise_map]
  have hnd : ([] :: vis K D 0).Nodup := by
    rw [List.nodup_cons]
    refine ⟨fun h => ?_, nodup_vis _ _⟩
    have := ((mem_vis _ _ _).1 h).2.2.1
    simp at this
  refine List.Pairwise.imp_of_mem ?_ hnd
  intro A B hA hB hne hag
  apply hne
  obtain ⟨a1, a2, _⟩ := mem_nil_vis.1 hA
  obtain ⟨b1, b2, _⟩ := mem_nil_vis.1 hB
  rw [word_eq (nodup_of_lt a1) a2, word_eq (nodup_of_lt b1) b2] at hag
  refine a1.eq_of_mem_iff b1 fun j => ?_
  have hKN := P.KN
  have key : j < K → (j ∈ A ↔ j ∈ B) := by
    intro hj
    have h := hag (q j) (P.qlt j (by omega))
    rw [P.comb_at _ hj, P.comb_at _ hj] at h
    unfold coef at h
    have h := add_left_cancel h
    by_cases h1 : j ∈ A <;> by_cases h2 : j ∈ B <;> simp [h1, h2] at h ⊢
  constructor
  · intro h; exact (key (a2 j h)).1 h
  · intro h; exact (key (b2 j h)).2 h

end Verif.OSD
