import Verif.OSD.PropsList
/- C46, C47: what the decoders of ordered statistics return if one codeword of the search set is strictly the best. -/
namespace Verif.OSD
open Verif.BCH (beBit)

variable {N K O L : Nat}

/-- `c` is in the search set, and correlates better with the soft values than every other word of it. -/
def StrictlyBest (K N O : Nat) (g : Nat → Nat → ZMod 2) (soft : List (BitVec 8)) (c : Nat → ZMod 2) : Prop :=
  Tested K N O g soft c ∧ ∀ d, Tested K N O g soft d → ¬ Agree N d c → corr N soft d < corr N soft c

theorem corr_agree {soft : List (BitVec 8)} {c d : Nat → ZMod 2} (h : Agree N c d) : corr N soft c = corr N soft d :=
  Finset.sum_congr rfl fun p hp => by rw [h p (Finset.mem_range.1 hp)]

/-- **C46** (strictly best word): a codeword of the search set that correlates strictly better than the others, and not negatively, is returned, with true. -/
theorem C46_best {M : Mem} {cand hard soft genmat : List (BitVec 8)} (hM : Valid N K M) (hcand : cand.length = W N) (hK : 1 ≤ K)
    (h01 : ∀ x ∈ genmat, x = 0#8 ∨ x = 1#8) (hg : N * K ≤ genmat.length) (hs : N ≤ soft.length) (hh : N ≤ 8 * hard.length) (hr : FullRank K N (entry N genmat))
    {c : Nat → ZMod 2} (hc : StrictlyBest K N O (entry N genmat) soft c) (h0 : 0 ≤ corr N soft c) :
    ∃ out M' cand', decode N K O M cand hard soft genmat = some (true, out, M', cand') ∧ Agree N (bitsZ out) c := by
  obtain ⟨r, out, M', cand', h1, -, -, -, -, h6, h7, h8, h9⟩ := C46_decode (O := O) hM hcand hK h01 hg hs hh hr
  have hA : Agree N (bitsZ out) c := by
    by_contra hn
    have := hc.2 _ h6 hn
    have := h7 _ hc.1
    omega
  have he := corr_agree (soft := soft) hA
  have hT : ¬ Tie K N O (entry N genmat) soft (bitsZ out) := by
    rintro ⟨d, d1, d2, d3⟩
    have := hc.2 d d1 fun h => d3 fun p hp => by rw [h p hp, hA p hp]
    omega
  have : r = true := by
    by_contra hr'
    have hr'' : r = false := by simpa using hr'
    by_cases hex : ∃ c, InCode K N (entry N genmat) c ∧ dist K N (entry N genmat) soft c = 0 ∧ corr N soft c = corr N soft (bitsZ out)
    · rcases (h9 hex).1 hr'' with h | ⟨-, h⟩
      · omega
      · exact hT h
    · exact hT ((h8 hex).1 hr'')
  subst this
  exact ⟨out, M', cand', h1, hA⟩

/-- **C47** (strictly best word): such a codeword comes first in the list, and alone in its rank. -/
theorem C47_best {M : Mem} {s0 : Lst} {rank : List Nat} {hard soft genmat : List (BitVec 8)} (hM : Valid N K M) (hs0 : ValidL N L s0) (hL : 2 ≤ L) (hK : 1 ≤ K)
    (h01 : ∀ x ∈ genmat, x = 0#8 ∨ x = 1#8) (hg : N * K ≤ genmat.length) (hs : N ≤ soft.length) (hrk : L ≤ rank.length) (hh : L * ((N + 7) / 8) ≤ hard.length)
    (hr : FullRank K N (entry N genmat)) {c : Nat → ZMod 2} (hc : StrictlyBest K N O (entry N genmat) soft c) (h0 : 0 ≤ corr N soft c) :
    ∃ rank' out M' s', decodeL N K O L M s0 rank hard soft genmat = some (rank', out, M', s') ∧ Agree N (outWord N out 0) c ∧ rank'.getD 0 0 = 0 ∧ rank'.getD 1 0 = 1 := by
  obtain ⟨rank', out, M', s', h1, -, -, -, -, -, -, h2, n, h3, h4, h5, h6, h7, h8, h9⟩ := C47_decode (O := O) hM hs0 (by omega) hK h01 hg hs hrk hh hr
  have hn : 1 ≤ n := by
    rcases h6 c hc.1 h0 with ⟨j, hj, -⟩ | ⟨h, -⟩ <;> omega
  have hle : corr N soft c ≤ corr N soft (outWord N out 0) := by
    rcases h6 c hc.1 h0 with ⟨j, hj, hA⟩ | ⟨-, h⟩
    · rw [corr_agree hA]
      rcases Nat.eq_zero_or_pos j with rfl | hj0
      · exact le_refl _
      · exact (h5 0 j hj0 hj).2
    · exact h 0 (by omega)
  have hA : Agree N (outWord N out 0) c := by
    by_contra hn
    have := hc.2 _ h2 hn
    omega
  refine ⟨rank', out, M', s', h1, hA, h7, ?_⟩
  by_cases h : n = 1
  · subst h
    rw [h9 (le_refl _) (by omega), h7]
  · rw [h8 0 (by omega), h7, if_neg]
    intro he
    have h10 := (h5 0 1 (by omega) (by omega)).1
    have := hc.2 _ (h4 1 (by omega)).1 fun h => h10 fun p hp => by rw [hA p hp, h p hp]
    rw [corr_agree hA, Nat.zero_add] at he
    omega

/-- Hard decisions without zeros that form a codeword make it strictly the best. -/
theorem strictlyBest_hard {soft : List (BitVec 8)} {g : Nat → Nat → ZMod 2} (hnz : ∀ p, p < N → val soft p ≠ 0) (hc : InCode K N g (hardBit soft)) :
    StrictlyBest K N O g soft (hardBit soft) ∧ 0 ≤ corr N soft (hardBit soft) := by
  have hd : dist K N g soft (hardBit soft) = 0 := by
    classical
    unfold dist
    rw [Finset.card_eq_zero, Finset.filter_eq_empty_iff]
    rintro p _ ⟨_, h⟩
    exact h rfl
  refine ⟨⟨⟨hc, by rw [hd]; exact Nat.zero_le _⟩, fun d _ hn => lt_of_le_of_ne (corr_le _ _) fun he => hn (corr_eq hnz he)⟩, corr_hard_nonneg soft⟩

/-- **C47** (hard decisions): if no soft value is zero and the hard decisions form a codeword, it comes first, and alone in its rank. -/
theorem C47_hard_decisions {M : Mem} {s0 : Lst} {rank : List Nat} {hard soft genmat : List (BitVec 8)} (hM : Valid N K M) (hs0 : ValidL N L s0) (hL : 2 ≤ L) (hK : 1 ≤ K)
    (h01 : ∀ x ∈ genmat, x = 0#8 ∨ x = 1#8) (hg : N * K ≤ genmat.length) (hs : N ≤ soft.length) (hrk : L ≤ rank.length) (hh : L * ((N + 7) / 8) ≤ hard.length)
    (hr : FullRank K N (entry N genmat)) (hnz : ∀ p, p < N → val soft p ≠ 0) (hc : InCode K N (entry N genmat) (hardBit soft)) :
    ∃ rank' out M' s', decodeL N K O L M s0 rank hard soft genmat = some (rank', out, M', s') ∧ Agree N (outWord N out 0) (hardBit soft) ∧ rank'.getD 0 0 = 0 ∧ rank'.getD 1 0 = 1 :=
  C47_best hM hs0 hL hK h01 hg hs hrk hh hr (strictlyBest_hard (O := O) hnz hc).1 (strictlyBest_hard (O := O) hnz hc).2

/-- A strictly best codeword (correlation 19) with one difference, at the most reliable position. -/
example : (decodeL 7 4 1 2 (mem0 7 4) ⟨[], List.replicate 16 9, [0, 0], [0, 0]⟩ [9, 9] [0, 0] (i8s [-5, 4, 4, 4, 4, 4, 4]) hamming).map (fun r => (r.1, r.2.1)) = some ([0, 1], [0, 0x8C]) := by
  decide +kernel

end Verif.OSD
