import Verif.OSD.ListRun
/- C47: the ordered statistics list decoder. -/
namespace Verif.OSD
open Finset
open Verif.BCH (beBit)

variable {K N O L : Nat}

/-- Word number `j` of the output: each word starts at a new byte. -/
def outWord (N : Nat) (out : List (BitVec 8)) (j : Nat) (p : Nat) : ZMod 2 := bitsZ out (8 * (j * ((N + 7) / 8)) + p)

/-- For every generator matrix of full rank, every order and list length, every soft input and every
previous content of the members (of the declared extents) the decoder succeeds and there is a number
`n ≤ L` such that the first `n` words of the output are different codewords of the search set with
non-negative, non-increasing correlation; every codeword of the search set with a non-negative
correlation is among them, or the list is full and no word of the list has a smaller correlation.  The
ranks start at 0 and grow by one exactly where the correlation drops (also behind the last of the `n`
words).  The first word is always a codeword of the search set.  Nothing else is written. -/
theorem C47_decode {M : Mem} {s0 : Lst} {rank : List Nat} {hard soft genmat : List (BitVec 8)} (hM : Valid N K M)
    (hs0 : ValidL N L s0) (hL : 1 ≤ L) (hK : 1 ≤ K)
    (h01 : ∀ x ∈ genmat, x = 0#8 ∨ x = 1#8) (hg : N * K ≤ genmat.length) (hs : N ≤ soft.length)
    (hrk : L ≤ rank.length) (hh : L * ((N + 7) / 8) ≤ hard.length)
    (hr : FullRank K N (entry N genmat)) :
    ∃ rank' out M' s', decodeL N K O L M s0 rank hard soft genmat = some (rank', out, M', s') ∧
      Valid N K M' ∧ ValidL N L s' ∧ rank'.length = rank.length ∧ out.length = hard.length ∧
      (∀ j, L ≤ j → rank'.getD j 0 = rank.getD j 0) ∧
      (∀ x, x < 8 * hard.length → (∀ j, j < L → x < 8 * (j * ((N + 7) / 8)) ∨ 8 * (j * ((N + 7) / 8)) + N ≤ x) →
        beBit out x = beBit hard x) ∧
      Tested K N O (entry N genmat) soft (outWord N out 0) ∧
      ∃ n, n ≤ L ∧
        (∀ j, j < n → Tested K N O (entry N genmat) soft (outWord N out j) ∧ 0 ≤ corr N soft (outWord N out j)) ∧
        (∀ i j, i < j → j < n → ¬ Agree N (outWord N out i) (outWord N out j) ∧
          corr N soft (outWord N out j) ≤ corr N soft (outWord N out i)) ∧
        (∀ c, Tested K N O (entry N genmat) soft c → 0 ≤ corr N soft c →
          (∃ j, j < n ∧ Agree N c (outWord N out j)) ∨ (n = L ∧ ∀ j, j < n → corr N soft c ≤ corr N soft (outWord N out j))) ∧
        rank'.getD 0 0 = 0 ∧
        (∀ j, j + 1 < n → rank'.getD (j + 1) 0 = rank'.getD j 0 +
          if corr N soft (outWord N out j) = corr N soft (outWord N out (j + 1)) then 0 else 1) ∧
        (1 ≤ n → n < L → rank'.getD n 0 = rank'.getD (n - 1) 0 + 1) := by
  obtain ⟨rank', out, M', s, e, v1, v2, M1, q, v, n, k, P, I, f1, f2, f3, f4, f5, f6, f7⟩ :=
    decodeL_ok (O := O) hM hs0 hL hK h01 hg hs hrk hh hr
  have hnL := I.nL
  have hword : ∀ j w, j < L → Slot N q s.candidate (s.cperm.getD j 0) w → Agree N (outWord N out j) w := by
    intro j w hj hw p hp
    obtain ⟨i, hi, rfl⟩ := P.qsur hp
    unfold outWord bitsZ
    rw [f6 j i hj hi, hw i hi]
    rcases z01 (w (q i)) with h | h <;> rw [h] <;> decide
  have hA : ∀ j, j < n → Agree N (outWord N out j) ((words K (min O 6) soft q v).getD (k j) 0) :=
    fun j hj => hword j _ (by omega) (I.slot j hj)
  have hmem : ∀ j, j < n → (words K (min O 6) soft q v).getD (k j) 0 ∈ words K (min O 6) soft q v := by
    intro j hj
    rw [← getElem_eq_getD (I.klt j hj) 0]
    exact List.getElem_mem _
  have hcorr : ∀ j, j < n → corr N soft (outWord N out j) = s.score.getD j 0 := by
    intro j hj; rw [corr_congr (hA j hj), I.score j hj]
  have htest : ∀ j w, Agree N (outWord N out j) w → w ∈ words K (min O 6) soft q v → Tested K N O (entry N genmat) soft (outWord N out j) :=
    fun j w h hw => tested_congr (fun p hp => (h p hp).symm) (P.tested_of_mem hw)
  refine ⟨rank', out, M', s, e, v1, v2, f1, f2, f5, f7, ?_, n, hnL, ?_, ?_, ?_, f3 (by omega), ?_, ?_⟩
  · obtain ⟨w, hw, _, h⟩ := I.head
    exact htest 0 w (hword 0 w (by omega) h) hw
  · intro j hj
    exact ⟨htest j _ (hA j hj) (hmem j hj), by rw [hcorr j hj]; exact I.nonneg j hj⟩
  · intro i j hij hj
    refine ⟨fun h => ?_, by rw [hcorr i (by omega), hcorr j hj]; exact I.sorted i j hij hj⟩
    have hd := List.pairwise_iff_getElem.1 (P.words_distinct (min O 6))
    have h' : Agree N ((words K (min O 6) soft q v).getD (k i) 0) ((words K (min O 6) soft q v).getD (k j) 0) :=
      fun p hp => ((hA i (by omega) p hp).symm.trans (h p hp)).trans (hA j hj p hp)
    rw [← getElem_eq_getD (I.klt i (by omega)) 0, ← getElem_eq_getD (I.klt j hj) 0] at h'
    rcases Nat.lt_trichotomy (k i) (k j) with h1 | h1 | h1
    · exact hd _ _ _ _ h1 h'
    · have := I.kinj i j (by omega) hj h1
      omega
    · exact hd _ _ _ _ h1 fun p hp => (h' p hp).symm
  · intro c hc h0
    obtain ⟨w, hw, hag⟩ := P.mem_of_tested hc
    obtain ⟨t, ht, rfl⟩ := List.mem_iff_getElem.1 hw
    rw [getElem_eq_getD ht 0] at hag
    rw [corr_congr hag] at h0 ⊢
    rcases I.complete t ht h0 with ⟨j, hj, rfl⟩ | ⟨h1, h2⟩
    · exact Or.inl ⟨j, hj, fun p hp => (hag p hp).trans (hA j hj p hp).symm⟩
    · exact Or.inr ⟨h1, fun j hj => by rw [hcorr j hj]; exact h2 j hj⟩
  · intro j hj
    rw [f4 j (by omega), hcorr j (by omega), hcorr (j + 1) hj]
  · intro h1 h2
    have := f4 (n - 1) (by omega)
    rw [Nat.sub_add_cancel h1, if_neg] at this
    · exact this
    · have := I.nonneg (n - 1) (by omega)
      have := I.neg n (Nat.le_refl _) h2
      omega

/-- If the search set has at least `L` codewords with a non-negative correlation, the list is full. -/
theorem C47_full {M : Mem} {s0 : Lst} {rank : List Nat} {hard soft genmat : List (BitVec 8)} (hM : Valid N K M)
    (hs0 : ValidL N L s0) (hL : 1 ≤ L) (hK : 1 ≤ K)
    (h01 : ∀ x ∈ genmat, x = 0#8 ∨ x = 1#8) (hg : N * K ≤ genmat.length) (hs : N ≤ soft.length)
    (hrk : L ≤ rank.length) (hh : L * ((N + 7) / 8) ≤ hard.length)
    (hr : FullRank K N (entry N genmat)) (w : Nat → Nat → ZMod 2)
    (hw : ∀ j, j < L → Tested K N O (entry N genmat) soft (w j) ∧ 0 ≤ corr N soft (w j))
    (hne : ∀ i j, i < j → j < L → ¬ Agree N (w i) (w j)) :
    ∃ rank' out M' s', decodeL N K O L M s0 rank hard soft genmat = some (rank', out, M', s') ∧
      (∀ j, j < L → Tested K N O (entry N genmat) soft (outWord N out j)) ∧
      (∀ i j, i < j → j < L → ¬ Agree N (outWord N out i) (outWord N out j) ∧
        corr N soft (outWord N out j) ≤ corr N soft (outWord N out i)) ∧
      (∀ c, Tested K N O (entry N genmat) soft c → (∀ j, j < L → ¬ Agree N c (outWord N out j)) →
        ∀ j, j < L → corr N soft c ≤ corr N soft (outWord N out j)) ∧
      rank'.getD 0 0 = 0 ∧
      (∀ j, j + 1 < L → rank'.getD (j + 1) 0 = rank'.getD j 0 +
        if corr N soft (outWord N out j) = corr N soft (outWord N out (j + 1)) then 0 else 1) := by
  obtain ⟨rank', out, M', s', e, _, _, _, _, _, _, _, n, hn, h1, h2, h3, h4, h5, _⟩ :=
    C47_decode (O := O) hM hs0 hL hK h01 hg hs hrk hh hr
  have hnL : n = L := by
    by_contra hne'
    have hmap : ∀ i, i < L → ∃ j, j < n ∧ Agree N (w i) (outWord N out j) := by
      intro i hi
      rcases h3 (w i) (hw i hi).1 (hw i hi).2 with h | ⟨h, _⟩
      · exact h
      · exact absurd h hne'
    choose! f hf using hmap
    have : (range L).card ≤ (range n).card := by
      refine Finset.card_le_card_of_injOn f (fun i hi => ?_) ?_
      · rw [Finset.mem_coe, mem_range] at *
        exact (hf i hi).1
      · intro i hi j hj hij
        rw [Finset.mem_coe, mem_range] at hi hj
        have ha : Agree N (w i) (w j) := fun p hp => by
          rw [(hf i hi).2 p hp, (hf j hj).2 p hp, hij]
        rcases Nat.lt_trichotomy i j with h | h | h
        · exact absurd ha (hne i j h hj)
        · exact h
        · exact absurd (fun p hp => (ha p hp).symm) (hne j i h hi)
    rw [card_range, card_range] at this
    omega
  subst hnL
  refine ⟨rank', out, M', s', e, fun j hj => (h1 j hj).1, h2, ?_, h4, h5⟩
  intro c hc hno j hj
  by_cases h0 : 0 ≤ corr N soft c
  · rcases h3 c hc h0 with ⟨i, hi, ha⟩ | ⟨_, h⟩
    · exact absurd ha (hno i hi)
    · exact h j hj
  · have := (h1 j hj).2
    omega

/-! ### Examples -/

def lst0 (N L : Nat) : Lst := ⟨[], List.replicate (W N * L) 9, List.replicate L 9, List.replicate L 9⟩

example : ValidL 7 4 (lst0 7 4) := by constructor <;> simp [lst0, W]

/-- Four words of the Hamming code, two of them with the same correlation and rank; the last bit of
each byte, the fifth byte and the fifth rank are not written. -/
example : (decodeL 7 4 1 4 (mem0 7 4) (lst0 7 4) [9, 9, 9, 9, 9] [0xFF, 0xFF, 0xFF, 0xFF, 0xFF]
    (i8s [-10, 9, 2, 9, 3, 3, -3]) hamming).map (fun r => (r.1, r.2.1, r.2.2.2.score)) =
    some ([0, 1, 1, 2, 9], [171, 147, 141, 1, 255], [29, 21, 21, 13]) := by decide +kernel

/-- The search set of `C46_missed_tie` has four words, all with the correlation -2, but the list of two
holds only one of them: the second word is what the members held before, although its rank is written
as if it were an entry. -/
theorem C47_unfilled :
    (decodeL 10 3 1 2 (mem0 10 3) ⟨[], List.replicate 32 9, [0, 0], [0, 0]⟩ [9, 9] [0, 0, 0, 0] soft10 code10).map
      (fun r => (r.1, r.2.1)) = some ([0, 1], [0, 0, 0xFF, 0xC0]) ∧
    (decodeL 10 3 1 2 (mem0 10 3) ⟨[], List.replicate 32 0, [0, 0], [0, 0]⟩ [9, 9] [0, 0, 0, 0] soft10 code10).map
      (fun r => (r.1, r.2.1)) = some ([0, 1], [0, 0, 0, 0]) ∧
    Tie 3 10 1 (entry 10 code10) soft10 (bitsZ [0, 0]) :=
  ⟨by decide +kernel, by decide +kernel, C46_missed_tie.2.2⟩

/-- The hypotheses of `C47_full` can be met: all soft values equal, the zero word and a row. -/
example : ∃ w : Nat → Nat → ZMod 2, (∀ j, j < 2 → Tested 4 7 1 (entry 7 hamming) (i8s [10, 10, 10, 10, 10, 10, 10]) (w j) ∧
    0 ≤ corr 7 (i8s [10, 10, 10, 10, 10, 10, 10]) (w j)) ∧ ∀ i j, i < j → j < 2 → ¬ Agree 7 (w i) (w j) := by
  have hid : ∀ a b, a < 4 → b < 4 → entry 7 hamming a b = if a = b then 1 else 0 := eq_of_forall10 (by decide)
  refine ⟨fun j => if j = 0 then 0 else entry 7 hamming 0, ?_, ?_⟩
  · intro j hj
    refine ⟨⟨?_, ?_⟩, ?_⟩
    · interval_cases j
      · exact ⟨0, fun p _ => by simp⟩
      · exact ⟨fun j => if j = 0 then 1 else 0, fun x _ => (sum_ind (K := 4) (fun j => entry 7 hamming j x) (by norm_num)).symm⟩
    · classical
      unfold dist
      refine le_trans (Finset.card_le_card (t := {0}) ?_) (le_of_eq rfl)
      intro p hp
      rw [mem_filter, basis_id (by norm_num) hid (eq_of_forall10 (by decide +kernel))] at hp
      obtain ⟨_, hp, hne⟩ := hp
      rw [mem_singleton]
      interval_cases j <;> interval_cases p <;> first | rfl | exact absurd (by decide) hne
    · interval_cases j <;> decide +kernel
  · intro i j hij hj h
    have h1 : i = 0 := by omega
    have h2 : j = 1 := by omega
    subst h1 h2
    exact absurd (h 0 (by norm_num)) (by decide)

end Verif.OSD
