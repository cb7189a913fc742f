import Verif.OSD.Props
/- The search of the ordered statistics decoders if a codeword is added to the word received. -/
namespace Verif.OSD
open Finset

variable {K N O : Nat} {g : Nat → Nat → ZMod 2} {soft soft' : List (BitVec 8)} {e : Nat → ZMod 2}

/-- The soft values of `soft'` are those of `soft`, with the signs changed at the ones of `e`. -/
def Flipped (N : Nat) (soft : List (BitVec 8)) (e : Nat → ZMod 2) (soft' : List (BitVec 8)) : Prop :=
  ∀ p, p < N → val soft' p = if e p = 0 then val soft p else - val soft p

theorem Flipped.abs (h : Flipped N soft e soft') {p : Nat} (hp : p < N) : |val soft' p| = |val soft p| := by
  rw [h p hp]; split
  · rfl
  · exact abs_neg _

theorem Flipped.before (h : Flipped N soft e soft') {p q : Nat} (hp : p < N) (hq : q < N) : Before soft' q p ↔ Before soft q p := by
  unfold Before
  rw [h.abs hp, h.abs hq]

theorem Flipped.basis (h : Flipped N soft e soft') (p : Nat) : Basis K N g soft' p ↔ Basis K N g soft p := by
  unfold Basis
  refine and_congr_right fun hp => exists_congr fun c => and_congr_right fun _ => and_congr_right fun _ => ?_
  exact forall_congr' fun q => forall_congr' fun hq => by rw [h.before hp hq]

theorem Flipped.hard (h : Flipped N soft e soft') {p : Nat} (hp : p < N) (hz : val soft p = 0 → e p = 0) :
    hardBit soft' p = hardBit soft p + e p := by
  have hk := h p hp
  unfold hardBit
  rcases z01 (e p) with he | he
  · rw [hk, if_pos he, he, add_zero]
  · rw [if_neg (by rw [he]; decide)] at hk
    rw [hk, he]
    have hne : val soft p ≠ 0 := fun h0 => by rw [hz h0] at he; exact absurd he (by decide)
    rcases lt_trichotomy (val soft p) 0 with hs | hs | hs
    · rw [if_neg (by omega), if_pos hs]; decide
    · exact absurd hs hne
    · rw [if_pos (by omega), if_neg (by omega)]; decide

theorem Flipped.corr (h : Flipped N soft e soft') {c c' : Nat → ZMod 2} (hc : Agree N c' (c + e)) : corr N soft' c' = corr N soft c := by
  unfold Verif.OSD.corr
  refine sum_congr rfl fun p hp => ?_
  rw [mem_range] at hp
  rw [hc p hp, h p hp, Pi.add_apply]
  rcases z01 (e p) with he | he <;> rcases z01 (c p) with hcp | hcp <;> rw [he, hcp] <;>
    simp [show (1 : ZMod 2) + 1 = 0 from rfl]

section
variable {M M' : Mem} {q q' : Nat → Nat} {v v' : Nat → Nat → ZMod 2} (P : Prep N K g soft M q v) (P' : Prep N K g soft' M' q' v') (h : Flipped N soft e soft')
include P P' h

/-- Both searches use the same basis, in the same order. -/
theorem same_basis : ∀ a, a < K → q' a = q a := by
  have hKN := P.KN
  intro a
  induction a using Nat.strong_induction_on with
  | _ a ih =>
    intro ha
    obtain ⟨b, hb, e1⟩ := (P'.basis (q a)).1 ((h.basis _).2 ((P.basis _).2 ⟨a, ha, rfl⟩))
    obtain ⟨c, hc, e2⟩ := (P.basis (q' a)).1 ((h.basis _).1 ((P'.basis _).2 ⟨a, ha, rfl⟩))
    rcases lt_trichotomy b a with hba | rfl | hba
    · have := P.qinj b a (by omega) (by omega) (by rw [← ih b hba hb, e1])
      omega
    · exact e1
    · rcases lt_trichotomy c a with hca | rfl | hca
      · have := P'.qinj c a (by omega) (by omega) (by rw [ih c hca hc, e2])
        omega
      · exact e2.symm
      · have h1 := P'.ord a b hba hb
        have h2 := P.ord a c hca hc
        rw [e1] at h1
        rw [e2] at h2
        exact absurd h2 (before_asymm ((h.before (P.qlt a (by omega)) (P'.qlt a (by omega))).1 h1))

/-- Both searches use the same rows. -/
theorem same_rows {a : Nat} (ha : a < K) : Agree N (v' a) (v a) := by
  have hin : InCode K N g (v' a) := by
    rw [P'.inCode]
    refine ⟨fun j => if j = a then 1 else 0, fun p _ => ?_⟩
    unfold comb
    rw [sum_ind (fun j => v' j p) ha]
  obtain ⟨m, hm⟩ := (P.inCode _).1 hin
  have hKN := P.KN
  have hmb : ∀ b, b < K → m b = if b = a then 1 else 0 := by
    intro b hb
    rw [← P.comb_at m hb, ← hm _ (P.qlt b (by omega)), ← same_basis P P' h b hb, P'.id a b ha hb]
    simp only [eq_comm]
  intro p hp
  rw [hm p hp]
  unfold comb
  rw [sum_congr rfl fun j hj => by rw [hmb j (mem_range.1 hj)]]
  exact sum_ind (fun j => v j p) ha

theorem same_sum {A : List Nat} (hA : ∀ a ∈ A, a < K) : Agree N (sumV v' A) (sumV v A) := by
  intro p hp
  induction A with
  | nil => rfl
  | cons a A ih =>
    have h1 : ∀ v : Nat → Nat → ZMod 2, sumV v (a :: A) p = v a p + sumV v A p := by
      intro v; unfold sumV; rw [List.map_cons, List.sum_cons, Pi.add_apply]
    rw [h1, h1, same_rows P P' h (hA a (by simp)) p hp, ih fun b hb => hA b (by simp [hb])]

/-- The first word is the former one plus the codeword. -/
theorem same_base (he : InCode K N g e) (hz : ∀ p, Basis K N g soft p → val soft p = 0 → e p = 0) :
    Agree N (base K soft' q' v') (base K soft q v + e) := by
  have hKN := P.KN
  obtain ⟨m, hm⟩ := (P.inCode _).1 he
  intro p hp
  rw [Pi.add_apply, hm p hp]
  unfold base comb
  rw [← sum_add_distrib]
  refine sum_congr rfl fun j hj => ?_
  rw [mem_range] at hj
  have hq := P.qlt j (by omega)
  rw [same_basis P P' h j hj, same_rows P P' h hj p hp, h.hard hq (hz _ ((P.basis _).2 ⟨j, hj, rfl⟩)), ← P.comb_at m hj, ← hm _ hq]
  ring

/-- Every word visited is the former one plus the codeword. -/
theorem same_word (he : InCode K N g e) (hz : ∀ p, Basis K N g soft p → val soft p = 0 → e p = 0) {A : List Nat} (hA : ∀ a ∈ A, a < K) :
    Agree N (base K soft' q' v' + sumV v' A) (base K soft q v + sumV v A + e) := by
  intro p hp
  simp only [Pi.add_apply]
  rw [same_base P P' h he hz p hp, same_sum P P' h hA p hp, Pi.add_apply]
  ring

theorem run_shift (he : InCode K N g e) (hz : ∀ p, Basis K N g soft p → val soft p = 0 → e p = 0) :
    Agree N (run K N O soft' q' v').1 ((run K N O soft q v).1 + e) ∧ (run K N O soft' q' v').2 = (run K N O soft q v).2 := by
  unfold run
  have hv : ∀ A ∈ vis K (min O 6) 0, ∀ a ∈ A, a < K := fun A hA a ha => (((mem_vis _ _ _).1 hA).2.1 a ha).2
  have hb := same_base P P' h he hz
  generalize vis K (min O 6) 0 = l at hv
  have key : ∀ (l : List (List Nat)) (x x' : Trk), (∀ A ∈ l, ∀ a ∈ A, a < K) → Agree N x'.1 (x.1 + e) → x'.2 = x.2 →
      Agree N (l.foldl (fun x A => step (corr N soft') (base K soft' q' v' + sumV v' A) x) x').1
        ((l.foldl (fun x A => step (corr N soft) (base K soft q v + sumV v A) x) x).1 + e) ∧
      (l.foldl (fun x A => step (corr N soft') (base K soft' q' v' + sumV v' A) x) x').2 =
        (l.foldl (fun x A => step (corr N soft) (base K soft q v + sumV v A) x) x).2 := by
    intro l
    induction l with
    | nil => exact fun x x' _ h1 h2 => ⟨h1, h2⟩
    | cons A l ih =>
      intro x x' hA h1 h2
      rw [List.foldl_cons, List.foldl_cons]
      have hw := same_word P P' h he hz (hA A (by simp))
      have hc := h.corr hw
      refine ih _ _ (fun B hB => hA B (by simp [hB])) ?_ ?_
      · unfold step
        rw [hc, h2]
        split
        · exact hw
        · split
          · exact h1
          · exact h1
      · unfold step
        rw [hc, h2]
        split
        · rfl
        · split
          · rfl
          · exact h2
  exact key l _ _ hv hb (by rw [h.corr hb])

end

end Verif.OSD
