import Verif.OSD.Props
/- The list decoder. -/
namespace Verif.OSD
open Finset
open Verif.RS (sb)
open Verif.BCH (beBit setBe_bit b2)
open Verif.Bits (setBe)

variable {K N L : Nat} {g : Nat → Nat → ZMod 2} {soft : List (BitVec 8)} {M : Mem} {q : Nat → Nat} {v : Nat → Nat → ZMod 2}

theorem sink_ok (met : Int) : ∀ (j0 : Nat) (score : List Int) (cperm : List Nat), j0 < score.length → j0 < cperm.length →
    ∃ j score' cperm', sink met j0 (score, cperm) = some (j, score', cperm') ∧ j ≤ j0 ∧
      score'.length = score.length ∧ cperm'.length = cperm.length ∧
      (∀ i, (i < j ∨ j0 < i) → score'.getD i 0 = score.getD i 0 ∧ cperm'.getD i 0 = cperm.getD i 0) ∧
      (∀ i, j < i → i ≤ j0 → score'.getD i 0 = score.getD (i - 1) 0 ∧ cperm'.getD i 0 = cperm.getD (i - 1) 0) ∧
      (∀ i, j ≤ i → i < j0 → score.getD i 0 < met) ∧ (j = 0 ∨ met ≤ score.getD (j - 1) 0) := by
  intro j0
  induction j0 with
  | zero =>
    intro score cperm h1 h2
    exact ⟨0, score, cperm, rfl, Nat.le_refl _, rfl, rfl, fun i _ => ⟨rfl, rfl⟩, fun i h3 h4 => by omega, fun i h3 h4 => by omega, Or.inl rfl⟩
  | succ j0 ih =>
    intro score cperm h1 h2
    unfold sink
    rw [rd_of_lt (show j0 < score.length by omega), getElem_eq_getD (show j0 < score.length by omega) 0, sb]
    by_cases h : met > score.getD j0 0
    · rw [if_pos h, wr_of_lt h1, sb, rd_of_lt (show j0 < cperm.length by omega), getElem_eq_getD (show j0 < cperm.length by omega) 0, sb,
        wr_of_lt h2, sb]
      obtain ⟨j, s', c', e1, e2, e3, e4, e5, e6, e7, e8⟩ := ih (score.set (j0 + 1) (score.getD j0 0)) (cperm.set (j0 + 1) (cperm.getD j0 0))
        (by rw [List.length_set]; omega) (by rw [List.length_set]; omega)
      rw [List.length_set] at e3 e4
      refine ⟨j, s', c', e1, by omega, e3, e4, ?_, ?_, ?_, ?_⟩
      · intro i hi
        have := e5 i (by omega)
        rw [this.1, this.2, getD_set, getD_set, if_neg (by omega), if_neg (by omega)]
        exact ⟨rfl, rfl⟩
      · intro i hi1 hi2
        by_cases hij : i = j0 + 1
        · have := e5 i (by omega)
          rw [this.1, this.2, getD_set, getD_set, if_pos (by omega), if_pos (by omega), hij, Nat.add_sub_cancel]
          exact ⟨rfl, rfl⟩
        · have := e6 i hi1 (by omega)
          rw [this.1, this.2, getD_set, getD_set, if_neg (by omega), if_neg (by omega)]
          exact ⟨rfl, rfl⟩
      · intro i hi1 hi2
        by_cases hij : i = j0
        · subst hij; exact h
        · have := e7 i hi1 (by omega)
          rwa [getD_set, if_neg (by omega)] at this
      · rcases e8 with e8 | e8
        · exact Or.inl e8
        · right
          rwa [getD_set, if_neg (by omega)] at e8
    · rw [if_neg h]
      exact ⟨j0 + 1, score, cperm, rfl, Nat.le_refl _, rfl, rfl, fun i _ => ⟨rfl, rfl⟩, fun i h3 h4 => by omega, fun i h3 h4 => by omega,
        Or.inr (by rw [Nat.add_sub_cancel]; omega)⟩

/-- Slot `c` of the candidates holds the word `w`. -/
def Slot (N : Nat) (q : Nat → Nat) (cand : List (BitVec 8)) (c : Nat) (w : Nat → ZMod 2) : Prop :=
  ∀ i, i < N → cand.getD (c * W N + i) 0 = bv (w (q i))

/-- What is known about the list after the words `l`: the first `n` entries are those with a
non-negative score, entry `j` being word number `k j`; of words with the same correlation the first ones are kept, in their order. -/
structure LInv (N L : Nat) (soft : List (BitVec 8)) (q : Nat → Nat) (l : List (Nat → ZMod 2)) (s : Lst) (n : Nat) (k : Nat → Nat) : Prop where
  lc : s.candidate.length = W N * L
  ls : s.score.length = L
  lp : s.cperm.length = L
  plt : ∀ j, j < L → s.cperm.getD j 0 < L
  pinj : ∀ i j, i < L → j < L → s.cperm.getD i 0 = s.cperm.getD j 0 → i = j
  nL : n ≤ L
  score : ∀ j, j < n → s.score.getD j 0 = corr N soft (l.getD (k j) 0)
  nonneg : ∀ j, j < n → 0 ≤ s.score.getD j 0
  klt : ∀ j, j < n → k j < l.length
  kinj : ∀ i j, i < n → j < n → k i = k j → i = j
  slot : ∀ j, j < n → Slot N q s.candidate (s.cperm.getD j 0) (l.getD (k j) 0)
  neg : ∀ j, n ≤ j → j < L → s.score.getD j 0 < 0
  sorted : ∀ i j, i < j → j < n → s.score.getD j 0 ≤ s.score.getD i 0
  complete : ∀ t, t < l.length → 0 ≤ corr N soft (l.getD t 0) → (∃ j, j < n ∧ k j = t) ∨
    (n = L ∧ ∀ j, j < n → corr N soft (l.getD t 0) ≤ s.score.getD j 0)
  stable : ∀ i j, i < j → j < n → s.score.getD j 0 = s.score.getD i 0 → k i < k j
  late : ∀ t, t < l.length → 0 ≤ corr N soft (l.getD t 0) → (∃ j, j < n ∧ k j = t) ∨
    ∀ j, j < n → corr N soft (l.getD t 0) = s.score.getD j 0 → k j < t
  head : ∃ w ∈ l, s.score.getD 0 0 = corr N soft w ∧ Slot N q s.candidate (s.cperm.getD 0 0) w

theorem getD_append_lt {α : Type} (l : List α) (x d : α) {i : Nat} (h : i < l.length) : (l ++ [x]).getD i d = l.getD i d := by
  rw [List.getD_eq_getElem?_getD, List.getElem?_append_left h, ← List.getD_eq_getElem?_getD]

theorem getD_append_len {α : Type} (l : List α) (x d : α) : (l ++ [x]).getD l.length d = x := by
  rw [List.getD_eq_getElem?_getD, List.getElem?_append_right (Nat.le_refl _), Nat.sub_self]; rfl

theorem LInv.skip_word {l : List (Nat → ZMod 2)} {s : Lst} {n : Nat} {k : Nat → Nat} (I : LInv N L soft q l s n k) (c : Nat → ZMod 2)
    (hc : 0 ≤ corr N soft c → n = L ∧ ∀ j, j < n → corr N soft c ≤ s.score.getD j 0) : LInv N L soft q (l ++ [c]) s n k := by
  have e : ∀ j, j < n → (l ++ [c]).getD (k j) 0 = l.getD (k j) 0 := fun j hj => getD_append_lt _ _ _ (I.klt j hj)
  refine ⟨I.lc, I.ls, I.lp, I.plt, I.pinj, I.nL, fun j hj => by rw [e j hj]; exact I.score j hj, I.nonneg, ?_, I.kinj,
    fun j hj => by rw [e j hj]; exact I.slot j hj, I.neg, I.sorted, ?_, I.stable, ?_, ?_⟩
  · intro j hj; have := I.klt j hj; rw [List.length_append]; omega
  · intro t ht h0
    by_cases h : t < l.length
    · rw [getD_append_lt _ _ _ h] at h0 ⊢
      exact I.complete t h h0
    · rw [List.length_append, List.length_singleton] at ht
      have : t = l.length := by omega
      subst this
      rw [getD_append_len] at h0 ⊢
      exact Or.inr (hc h0)
  · intro t ht h0
    by_cases h : t < l.length
    · rw [getD_append_lt _ _ _ h] at h0 ⊢
      exact I.late t h h0
    · exact Or.inr fun j hj _ => by have := I.klt j hj; omega
  · obtain ⟨w, hw, h⟩ := I.head
    exact ⟨w, List.mem_append_left _ hw, h⟩

/-- Copying the codeword to slot `pos`. -/
theorem copySlot_ok {cand cw : List (BitVec 8)} {pos : Nat} (hl : cand.length = W N * L) (hp : pos < L) (hc : cw.length = W N) :
    Ok (forUp 0 (W N) cand fun i cand => do
        let x ← rd cw i
        wr cand (pos * W N + i) x) (fun c => c.length = cand.length ∧
      ∀ a i, i < W N → c.getD (a * W N + i) 0 = if a = pos then cw.getD i 0 else cand.getD (a * W N + i) 0) := by
  refine Ok.mono (forUp_inv (fun t (c : List (BitVec 8)) => c.length = cand.length ∧
    ∀ a i, i < W N → c.getD (a * W N + i) 0 = if a = pos ∧ i < t then cw.getD i 0 else cand.getD (a * W N + i) 0) (Nat.zero_le _)
    ⟨rfl, fun a i _ => by rw [if_neg (by omega)]⟩ ?_) ?_
  · rintro t c1 _ ht ⟨l1, h1⟩
    have hb : pos * W N + t < c1.length := by
      rw [l1, hl, Nat.mul_comm pos]; exact idx_lt hp ht
    rw [rd_of_lt (show t < cw.length by omega), getElem_eq_getD (show t < cw.length by omega) 0, sb]
    refine Ok.wr hb ⟨by rw [List.length_set]; exact l1, ?_⟩
    intro a i hi
    rw [getD_set]
    by_cases h : a = pos ∧ i = t
    · obtain ⟨rfl, rfl⟩ := h
      rw [if_pos ⟨rfl, hb⟩, if_pos ⟨rfl, by omega⟩]
    · rw [if_neg, h1 a i hi]
      · by_cases h2 : a = pos ∧ i < t
        · rw [if_pos h2, if_pos ⟨h2.1, by omega⟩]
        · rw [if_neg h2, if_neg (by omega)]
      · rintro ⟨h3, _⟩
        rw [Nat.mul_comm pos, Nat.mul_comm a] at h3
        have := idx_inj ht hi h3
        exact h ⟨this.1.symm, this.2.symm⟩
  · rintro c1 ⟨l1, h1⟩
    refine ⟨l1, fun a i hi => ?_⟩
    rw [h1 a i hi]
    by_cases h : a = pos
    · rw [if_pos ⟨h, hi⟩, if_pos h]
    · rw [if_neg (by omega), if_neg h]

/-- Relation between the members and the words visited. -/
def RLst (N L : Nat) (soft : List (BitVec 8)) (q : Nat → Nat) (c : Nat → ZMod 2) (l : List (Nat → ZMod 2)) (s : Lst) : Prop :=
  s.codeword.length = W N ∧ Holds N q s.codeword c ∧ ∃ n k, LInv N L soft q l s n k

theorem updateL_ok (P : Prep N K g soft M q v) (hL : 1 ≤ L) {c : Nat → ZMod 2} {l : List (Nat → ZMod 2)} {s : Lst}
    (R : RLst N L soft q c l s) : Ok (updateL N L M.softperm s) (RLst N L soft q c (l ++ [c])) := by
  obtain ⟨r1, r2, n, k, I⟩ := R
  have hW := N_le_W N
  unfold updateL
  rw [metric_ok P r1 r2, sb, rd_of_lt (show L - 1 < s.score.length by rw [I.ls]; omega),
    getElem_eq_getD (show L - 1 < s.score.length by rw [I.ls]; omega) 0, sb]
  set met := corr N soft c with hmet
  by_cases hle : met ≤ s.score.getD (L - 1) 0
  · rw [if_pos hle]
    refine Ok.some ⟨r1, r2, n, k, I.skip_word c fun h0 => ?_⟩
    have hn : n = L := by
      by_contra hne
      have := I.nL
      have := I.neg (L - 1) (by omega) (by omega)
      omega
    refine ⟨hn, fun j hj => ?_⟩
    by_cases h : j = L - 1
    · rw [h]; exact hle
    · have := I.sorted j (L - 1) (by omega) (by omega)
      omega
  · rw [if_neg hle, rd_of_lt (show L - 1 < s.cperm.length by rw [I.lp]; omega),
      getElem_eq_getD (show L - 1 < s.cperm.length by rw [I.lp]; omega) 0, sb]
    set pos := s.cperm.getD (L - 1) 0 with hpos
    have hposL : pos < L := I.plt _ (by omega)
    refine Ok.bind' (copySlot_ok I.lc hposL r1) ?_
    rintro cand ⟨lcand, hcand⟩
    obtain ⟨j, sc, cp, e1, e2, e3, e4, e5, e6, e7, e8⟩ := sink_ok met (L - 1) s.score s.cperm (by rw [I.ls]; omega) (by rw [I.lp]; omega)
    rw [e1, sb]
    dsimp only
    rw [I.ls] at e3
    rw [I.lp] at e4
    rw [wr_of_lt (show j < sc.length by omega), sb, wr_of_lt (show j < cp.length by omega), sb]
    refine Ok.some ⟨r1, r2, ?_⟩
    -- the new arrays
    have hsc : ∀ i, i < L → (sc.set j met).getD i 0 = if i = j then met else if i < j then s.score.getD i 0 else s.score.getD (i - 1) 0 := by
      intro i hi
      rw [getD_set]
      by_cases h : j = i
      · rw [if_pos ⟨h, by omega⟩, if_pos h.symm]
      · rw [if_neg (by omega), if_neg (by omega)]
        by_cases h2 : i < j
        · rw [if_pos h2, (e5 i (Or.inl h2)).1]
        · rw [if_neg h2, (e6 i (by omega) (by omega)).1]
    have hcp : ∀ i, i < L → (cp.set j pos).getD i 0 = if i = j then pos else if i < j then s.cperm.getD i 0 else s.cperm.getD (i - 1) 0 := by
      intro i hi
      rw [getD_set]
      by_cases h : j = i
      · rw [if_pos ⟨h, by omega⟩, if_pos h.symm]
      · rw [if_neg (by omega), if_neg (by omega)]
        by_cases h2 : i < j
        · rw [if_pos h2, (e5 i (Or.inl h2)).2]
        · rw [if_neg h2, (e6 i (by omega) (by omega)).2]
    -- the old index of a new entry
    set old : Nat → Nat := fun i => if i = j then L - 1 else if i < j then i else i - 1 with hold
    have hold_lt : ∀ i, i < L → old i < L := by
      intro i hi; rw [hold]; dsimp only; split
      · omega
      · split <;> omega
    have hcp' : ∀ i, i < L → (cp.set j pos).getD i 0 = s.cperm.getD (old i) 0 := by
      intro i hi
      rw [hcp i hi, hold]
      dsimp only
      split
      · rfl
      · split <;> rfl
    have hold_inj : ∀ a b, a < L → b < L → old a = old b → a = b := by
      intro a b ha hb h
      rw [hold] at h
      dsimp only at h
      split at h <;> split at h <;> (try split at h) <;> (try split at h) <;> omega
    have hold_ne : ∀ i, i < L → i ≠ j → old i ≠ L - 1 := by
      intro i hi hne
      rw [hold]; dsimp only
      rw [if_neg hne]
      split <;> omega
    have hslot : ∀ i, i < L → i ≠ j → ∀ w, Slot N q s.candidate (s.cperm.getD (old i) 0) w → Slot N q cand ((cp.set j pos).getD i 0) w := by
      intro i hi hne w hw
      rw [hcp' i hi]
      intro p hp
      rw [hcand _ _ (by omega), if_neg]
      · exact hw p hp
      · intro h
        exact hold_ne i hi hne (I.pinj _ _ (hold_lt i hi) (by omega) h)
    have hslotj : Slot N q cand ((cp.set j pos).getD j 0) c := by
      rw [hcp j (by omega), if_pos rfl]
      intro p hp
      rw [hcand _ _ (by omega), if_pos rfl, r2 p hp]
    have hplt : ∀ i, i < L → (cp.set j pos).getD i 0 < L := fun i hi => by rw [hcp' i hi]; exact I.plt _ (hold_lt i hi)
    have hpinj : ∀ a b, a < L → b < L → (cp.set j pos).getD a 0 = (cp.set j pos).getD b 0 → a = b := by
      intro a b ha hb h
      rw [hcp' a ha, hcp' b hb] at h
      exact hold_inj a b ha hb (I.pinj _ _ (hold_lt a ha) (hold_lt b hb) h)
    have hhead : ∃ w ∈ l ++ [c], (sc.set j met).getD 0 0 = corr N soft w ∧ Slot N q cand ((cp.set j pos).getD 0 0) w := by
      by_cases hj : j = 0
      · subst hj
        exact ⟨c, by simp, by rw [hsc 0 (by omega), if_pos rfl], hslotj⟩
      · obtain ⟨w, hw, h1, h2⟩ := I.head
        refine ⟨w, List.mem_append_left _ hw, by rw [hsc 0 (by omega), if_neg (by omega), if_pos (by omega), h1], ?_⟩
        refine hslot 0 (by omega) (by omega) w ?_
        have : old 0 = 0 := by rw [hold]; dsimp only; rw [if_neg (by omega), if_pos (by omega)]
        rw [this]; exact h2
    have hnL := I.nL
    have hlen : (l ++ [c]).length = l.length + 1 := by rw [List.length_append, List.length_singleton]
    by_cases hneg : met < 0
    · -- among the negative entries
      have hjn : n ≤ j := by
        by_contra h
        by_cases h2 : j = L - 1
        · have := I.nonneg (L - 1) (by omega); omega
        · have := e7 j (Nat.le_refl _) (by omega)
          have := I.nonneg j (by omega)
          omega
      have hnL' : n < L := by
        by_contra h
        have := I.nonneg (L - 1) (by omega); omega
      have hs' : ∀ i, i < n → (sc.set j met).getD i 0 = s.score.getD i 0 := by
        intro i hi; rw [hsc i (by omega), if_neg (by omega), if_pos (by omega)]
      have e : ∀ i, i < n → (l ++ [c]).getD (k i) 0 = l.getD (k i) 0 := fun i hi => getD_append_lt _ _ _ (I.klt i hi)
      refine ⟨n, k, lcand.trans I.lc, by rw [List.length_set]; exact e3, by rw [List.length_set]; exact e4, hplt, hpinj, hnL, ?_, ?_, ?_, I.kinj, ?_, ?_, ?_, ?_, ?_, ?_, hhead⟩
      · intro i hi; rw [e i hi]; exact (hs' i hi).trans (I.score i hi)
      · intro i hi; exact (hs' i hi).symm ▸ I.nonneg i hi
      · intro i hi; have := I.klt i hi; omega
      · intro i hi
        rw [e i hi]
        refine hslot i (by omega) (by omega) _ ?_
        have : old i = i := by rw [hold]; dsimp only; rw [if_neg (by omega), if_pos (by omega)]
        rw [this]; exact I.slot i hi
      · intro i hi1 hi2
        show (sc.set j met).getD i 0 < 0
        rw [hsc i hi2]
        split
        · exact hneg
        · split
          · exact I.neg i hi1 hi2
          · exact I.neg (i - 1) (by omega) (by omega)
      · intro a b hab hb
        show (sc.set j met).getD b 0 ≤ (sc.set j met).getD a 0
        rw [hs' a (by omega), hs' b hb]; exact I.sorted a b hab hb
      · intro t ht h0
        by_cases h : t < l.length
        · rw [getD_append_lt _ _ _ h] at h0 ⊢
          rcases I.complete t h h0 with h1 | ⟨h1, _⟩
          · exact Or.inl h1
          · omega
        · have : t = l.length := by omega
          subst this
          rw [getD_append_len] at h0
          omega
      · intro a b hab hb
        show (sc.set j met).getD b 0 = (sc.set j met).getD a 0 → _
        rw [hs' a (by omega), hs' b hb]; exact I.stable a b hab hb
      · intro t ht h0
        by_cases h : t < l.length
        · rw [getD_append_lt _ _ _ h] at h0 ⊢
          rcases I.late t h h0 with h1 | h1
          · exact Or.inl h1
          · refine Or.inr fun i hi => ?_
            show _ = (sc.set j met).getD i 0 → _
            rw [hs' i hi]; exact h1 i hi
        · have : t = l.length := by omega
          subst this
          rw [getD_append_len] at h0
          omega
    · -- a new non-negative entry
      have hjn : j ≤ n := by
        rcases e8 with h | h
        · omega
        · by_contra h2
          have := I.neg (j - 1) (by omega) (by omega)
          omega
      set n' := min (n + 1) L with hn'
      set k' : Nat → Nat := fun i => if i = j then l.length else if i < j then k i else k (i - 1) with hk'
      have holdn : ∀ i, i < n' → i ≠ j → old i < n ∧ (sc.set j met).getD i 0 = s.score.getD (old i) 0 ∧ k' i = k (old i) := by
        intro i hi hne
        rw [hsc i (by omega), hold, hk']
        dsimp only
        rw [if_neg hne, if_neg hne, if_neg hne]
        by_cases h : i < j
        · rw [if_pos h, if_pos h, if_pos h]; exact ⟨by omega, rfl, rfl⟩
        · rw [if_neg h, if_neg h, if_neg h]; exact ⟨by omega, rfl, rfl⟩
      have hsj : (sc.set j met).getD j 0 = met := by rw [hsc j (by omega), if_pos rfl]
      have hkj : k' j = l.length := by rw [hk']; dsimp only; rw [if_pos rfl]
      have hmono : ∀ a b, a < b → b < n' → a ≠ j → b ≠ j → old a < old b := by
        intro a b hab hb ha hb'
        rw [hold]; dsimp only
        rw [if_neg ha, if_neg hb']
        split <;> split <;> omega
      refine ⟨n', k', lcand.trans I.lc, by rw [List.length_set]; exact e3, by rw [List.length_set]; exact e4, hplt, hpinj, by omega, ?_, ?_, ?_, ?_, ?_, ?_, ?_, ?_, ?_, ?_, hhead⟩
      · intro i hi
        show (sc.set j met).getD i 0 = _
        by_cases h : i = j
        · subst h; rw [hsj, hkj, getD_append_len]
        · obtain ⟨h1, h2, h3⟩ := holdn i hi h
          rw [h2, h3, getD_append_lt _ _ _ (I.klt _ h1)]; exact I.score _ h1
      · intro i hi
        show 0 ≤ (sc.set j met).getD i 0
        by_cases h : i = j
        · subst h; rw [hsj]; omega
        · obtain ⟨h1, h2, h3⟩ := holdn i hi h
          rw [h2]; exact I.nonneg _ h1
      · intro i hi
        by_cases h : i = j
        · subst h; rw [hkj]; omega
        · obtain ⟨h1, h2, h3⟩ := holdn i hi h
          rw [h3]; have := I.klt _ h1; omega
      · intro a b ha hb hab
        by_cases h : a = j
        · by_cases h' : b = j
          · omega
          · obtain ⟨h1, _, h3⟩ := holdn b hb h'
            have := I.klt _ h1
            rw [h, hkj, h3] at hab; omega
        · obtain ⟨h1, _, h3⟩ := holdn a ha h
          by_cases h' : b = j
          · have := I.klt _ h1
            rw [h', hkj, h3] at hab; omega
          · obtain ⟨h1', _, h3'⟩ := holdn b hb h'
            rw [h3, h3'] at hab
            exact hold_inj a b (by omega) (by omega) (I.kinj _ _ h1 h1' hab)
      · intro i hi
        by_cases h : i = j
        · subst h; rw [hkj, getD_append_len]; exact hslotj
        · obtain ⟨h1, h2, h3⟩ := holdn i hi h
          rw [h3, getD_append_lt _ _ _ (I.klt _ h1)]
          exact hslot i (by omega) h _ (I.slot _ h1)
      · intro i hi1 hi2
        show (sc.set j met).getD i 0 < 0
        rw [hsc i hi2, if_neg (by omega), if_neg (by omega)]
        exact I.neg (i - 1) (by omega) (by omega)
      · intro a b hab hb
        show (sc.set j met).getD b 0 ≤ (sc.set j met).getD a 0
        by_cases h : a = j
        · rw [h, hsj, hsc b (by omega), if_neg (by omega), if_neg (by omega)]
          have := e7 (b - 1) (by omega) (by omega)
          omega
        · obtain ⟨h1, h2, _⟩ := holdn a (by omega) h
          by_cases h' : b = j
          · rw [h', hsj, h2]
            have e : old a = a := by rw [hold]; dsimp only; rw [if_neg h, if_pos (by omega)]
            rw [e]
            have h9 := e8.resolve_left (by omega)
            by_cases h8 : a = j - 1
            · rw [h8]; exact h9
            · have := I.sorted a (j - 1) (by omega) (by omega)
              omega
          · obtain ⟨h1', h2', _⟩ := holdn b hb h'
            rw [h2, h2']
            exact I.sorted _ _ (hmono a b hab hb h h') h1'
      · intro t ht h0
        by_cases h : t < l.length
        · rw [getD_append_lt _ _ _ h] at h0 ⊢
          rcases I.complete t h h0 with ⟨i, hi, rfl⟩ | ⟨h1, h2⟩
          · by_cases hij : i < j
            · exact Or.inl ⟨i, by omega, by rw [hk']; dsimp only; rw [if_neg (by omega), if_pos hij]⟩
            · by_cases hi2 : i + 1 < n'
              · exact Or.inl ⟨i + 1, hi2, by rw [hk']; dsimp only; rw [if_neg (by omega), if_neg (by omega), Nat.add_sub_cancel]⟩
              · right
                have hiL : i = L - 1 := by omega
                refine ⟨by omega, fun a ha => ?_⟩
                show _ ≤ (sc.set j met).getD a 0
                rw [← I.score i hi, hiL]
                by_cases haj : a = j
                · rw [haj, hsj]; omega
                · obtain ⟨h1, h2, _⟩ := holdn a ha haj
                  rw [h2]
                  have := hold_ne a (by omega) haj
                  exact I.sorted _ _ (by omega) (by omega)
          · right
            refine ⟨by omega, fun a ha => ?_⟩
            show _ ≤ (sc.set j met).getD a 0
            by_cases haj : a = j
            · rw [haj, hsj]
              have := h2 (L - 1) (by omega)
              omega
            · obtain ⟨h3, h4, _⟩ := holdn a ha haj
              rw [h4]; exact h2 _ h3
        · have : t = l.length := by omega
          subst this
          exact Or.inl ⟨j, by omega, hkj⟩
      · intro a b hab hb
        show (sc.set j met).getD b 0 = (sc.set j met).getD a 0 → _
        by_cases h : a = j
        · rw [h, hsj, hsc b (by omega), if_neg (by omega), if_neg (by omega)]
          have := e7 (b - 1) (by omega) (by omega)
          omega
        · obtain ⟨h1, h2, h3⟩ := holdn a (by omega) h
          by_cases h' : b = j
          · intro _
            rw [h', hkj, h3]
            exact I.klt _ h1
          · obtain ⟨h1', h2', h3'⟩ := holdn b hb h'
            rw [h2, h2', h3, h3']
            exact I.stable _ _ (hmono a b hab hb h h') h1'
      · intro t ht h0
        by_cases h : t < l.length
        · rw [getD_append_lt _ _ _ h] at h0 ⊢
          rcases I.late t h h0 with ⟨i, hi, rfl⟩ | h2
          · by_cases hij : i < j
            · exact Or.inl ⟨i, by omega, by rw [hk']; dsimp only; rw [if_neg (by omega), if_pos hij]⟩
            · by_cases hi2 : i + 1 < n'
              · exact Or.inl ⟨i + 1, hi2, by rw [hk']; dsimp only; rw [if_neg (by omega), if_neg (by omega), Nat.add_sub_cancel]⟩
              · right
                have hiL : i = L - 1 := by omega
                intro a ha
                show _ = (sc.set j met).getD a 0 → _
                rw [← I.score i hi]
                by_cases haj : a = j
                · rw [haj, hsj, hiL]; omega
                · obtain ⟨h1, h2, h3⟩ := holdn a ha haj
                  rw [h2, h3]
                  have := hold_ne a (by omega) haj
                  exact I.stable _ _ (by omega) (by omega)
          · by_cases hin : ∃ i, i < n ∧ k i = t
            · obtain ⟨i, hi, rfl⟩ := hin
              by_cases hij : i < j
              · exact Or.inl ⟨i, by omega, by rw [hk']; dsimp only; rw [if_neg (by omega), if_pos hij]⟩
              · have := h2 i hi (by rw [I.score i hi])
                omega
            · right
              intro a ha
              show _ = (sc.set j met).getD a 0 → _
              rcases I.complete t h h0 with h7 | ⟨h7, h8⟩
              · exact absurd h7 hin
              · by_cases haj : a = j
                · rw [haj, hsj]
                  have := h8 (L - 1) (by omega)
                  omega
                · obtain ⟨h3, h4, h5⟩ := holdn a ha haj
                  rw [h4, h5]; exact h2 _ h3
        · have : t = l.length := by omega
          subst this
          exact Or.inl ⟨j, by omega, hkj⟩

end Verif.OSD
