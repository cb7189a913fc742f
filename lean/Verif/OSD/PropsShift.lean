import Verif.OSD.ShiftList
/- C82 (osd.hh): the result of the ordered statistics decoder does not depend on the codeword sent. -/
namespace Verif.OSD
open Finset
open Verif.BCH (beBit)

variable {K N O : Nat}

/-- Two calls of the decoder, on any members and buffers: the second on soft values with the signs changed by a codeword `e`.  The second result is the first one plus
`e`, and the returned value, true unless there seems to be a tie, is the same.  Soft values may be 0, except on the basis where `e` is 1, since the decoder takes 0 for a
0 bit; so the theorem covers erasures as long as the positions that are left determine the codeword. -/
theorem C82_osd {M M2 : Mem} {cand cand2 hard hard2 soft soft' genmat : List (BitVec 8)} {e : Nat → ZMod 2}
    (hM : Valid N K M) (hcand : cand.length = W N) (hM2 : Valid N K M2) (hcand2 : cand2.length = W N) (hK : 1 ≤ K)
    (h01 : ∀ x ∈ genmat, x = 0#8 ∨ x = 1#8) (hg : N * K ≤ genmat.length) (hs : N ≤ soft.length) (hs' : N ≤ soft'.length)
    (hh : N ≤ 8 * hard.length) (hh2 : N ≤ 8 * hard2.length) (hr : FullRank K N (entry N genmat))
    (he : InCode K N (entry N genmat) e) (hf : Flipped N soft e soft')
    (hz : ∀ p, Basis K N (entry N genmat) soft p → val soft p = 0 → e p = 0) :
    ∃ r out out' M' M2' cand' cand2', decode N K O M cand hard soft genmat = some (r, out, M', cand') ∧
      decode N K O M2 cand2 hard2 soft' genmat = some (r, out', M2', cand2') ∧
      ∀ p, p < N → bitsZ out' p = bitsZ out p + e p := by
  obtain ⟨r, out, M', cand', h1, -, -, -, -, M1, q, v, P, h2, h3⟩ := decode_fold (O := O) hM hcand hK h01 hg hs hh hr
  obtain ⟨r', out', M2', cand2', h1', -, -, -, -, M1', q', v', P', h2', h3'⟩ := decode_fold (O := O) hM2 hcand2 hK h01 hg hs' hh2 hr
  obtain ⟨k1, k2⟩ := run_shift (O := O) P P' hf he hz
  have : r' = r := by rw [h3, h3', k2]
  subst this
  refine ⟨r', out, out', M', M2', cand', cand2', h1, h1', fun p hp => ?_⟩
  rw [h2' p hp, k1 p hp, Pi.add_apply, h2 p hp]

/-- The list decoder, for two calls as above.  The first `n` entries of the list are the codewords of the search set with non-negative correlations, all of them or as many as
fit (C47); these entries of the second result are the first ones plus `e`, in the same order and with the same ranks.  (Entries behind them are what the members held before.) -/
theorem C82_osl {M M2 : Mem} {s0 s02 : Lst} {rank rank2 : List Nat} {hard hard2 soft soft' genmat : List (BitVec 8)} {e : Nat → ZMod 2} {L : Nat}
    (hM : Valid N K M) (hs0 : ValidL N L s0) (hM2 : Valid N K M2) (hs02 : ValidL N L s02) (hL : 1 ≤ L) (hK : 1 ≤ K)
    (h01 : ∀ x ∈ genmat, x = 0#8 ∨ x = 1#8) (hg : N * K ≤ genmat.length) (hs : N ≤ soft.length) (hs' : N ≤ soft'.length)
    (hrk : L ≤ rank.length) (hrk2 : L ≤ rank2.length) (hh : L * ((N + 7) / 8) ≤ hard.length) (hh2 : L * ((N + 7) / 8) ≤ hard2.length)
    (hr : FullRank K N (entry N genmat)) (he : InCode K N (entry N genmat) e) (hf : Flipped N soft e soft')
    (hz : ∀ p, Basis K N (entry N genmat) soft p → val soft p = 0 → e p = 0) :
    ∃ r r' out out' M' M2' s' s2', decodeL N K O L M s0 rank hard soft genmat = some (r, out, M', s') ∧
      decodeL N K O L M2 s02 rank2 hard2 soft' genmat = some (r', out', M2', s2') ∧
      ∃ n, n ≤ L ∧ (∀ j, j < n → Tested K N O (entry N genmat) soft (outWord N out j) ∧ 0 ≤ corr N soft (outWord N out j)) ∧
        (∀ c, Tested K N O (entry N genmat) soft c → 0 ≤ corr N soft c → (∃ j, j < n ∧ Agree N c (outWord N out j)) ∨ n = L) ∧
        ∀ j, j < n → r'.getD j 0 = r.getD j 0 ∧ ∀ p, p < N → outWord N out' j p = outWord N out j p + e p := by
  obtain ⟨r, out, M', s, h1, -, -, M1, q, v, n, k, P, I, -, -, f3, f4, -, f6, -⟩ := decodeL_ok (O := O) hM hs0 hL hK h01 hg hs hrk hh hr
  obtain ⟨r', out', M2', s2, h1', -, -, M1', q', v', n', k', P', I', -, -, f3', f4', -, f6', -⟩ := decodeL_ok (O := O) hM2 hs02 hL hK h01 hg hs' hrk2 hh2 hr
  obtain ⟨hn, hk⟩ := same_list P P' hf he hz I I'
  subst hn
  obtain ⟨hl, hw⟩ := same_words P P' hf he hz (min O 6)
  have hnL := I.nL
  have word : ∀ {soft : List (BitVec 8)} {q : Nat → Nat} {v : Nat → Nat → ZMod 2} {M : Mem} {s : Lst} {out : List (BitVec 8)} {j : Nat} {w : Nat → ZMod 2},
      Prep N K (entry N genmat) soft M q v → (∀ i, i < N → beBit out (8 * (j * By N) + q i) = (s.candidate.getD (s.cperm.getD j 0 * W N + i) 0 != 0#8)) →
      Slot N q s.candidate (s.cperm.getD j 0) w → Agree N (outWord N out j) w := by
    intro soft q v M s out j w P hb hw p hp
    obtain ⟨i, hi, rfl⟩ := P.qsur hp
    unfold outWord bitsZ
    rw [hb i hi, hw i hi]
    rcases z01 (w (q i)) with h | h <;> rw [h] <;> decide
  have hA : ∀ j, j < n' → Agree N (outWord N out j) ((words K (min O 6) soft q v).getD (k j) 0) := fun j hj => word P (fun i hi => f6 j i (by omega) hi) (I.slot j hj)
  have hA' : ∀ j, j < n' → Agree N (outWord N out' j) ((words K (min O 6) soft' q' v').getD (k' j) 0) :=
    fun j hj => word P' (fun i hi => f6' j i (by omega) hi) (I'.slot j hj)
  have hsc : ∀ j, j < n' → s2.score.getD j 0 = s.score.getD j 0 := fun j hj => by
    rw [I'.score j hj, I.score j hj, hk j hj]
    exact hf.corr (hw _ (I.klt j hj))
  refine ⟨r, r', out, out', M', M2', s, s2, h1, h1', n', hnL, fun j hj => ⟨?_, ?_⟩, fun c hc h0 => ?_, fun j hj => ⟨?_, fun p hp => ?_⟩⟩
  · refine tested_congr (fun p hp => (hA j hj p hp).symm) (P.tested_of_mem ?_)
    rw [← getElem_eq_getD (I.klt j hj) 0]
    exact List.getElem_mem _
  · rw [corr_congr (hA j hj), ← I.score j hj]; exact I.nonneg j hj
  · obtain ⟨w, hwm, hag⟩ := P.mem_of_tested hc
    obtain ⟨t, ht, rfl⟩ := List.mem_iff_getElem.1 hwm
    rw [getElem_eq_getD ht 0] at hag
    rw [corr_congr hag] at h0
    rcases I.complete t ht h0 with ⟨j, hj, rfl⟩ | ⟨h1, -⟩
    · exact Or.inl ⟨j, hj, fun p hp => (hag p hp).trans (hA j hj p hp).symm⟩
    · exact Or.inr h1
  · induction j with
    | zero => rw [f3 (by omega), f3' (by omega)]
    | succ j ih => rw [f4 j (by omega), f4' j (by omega), ih (by omega), hsc j (by omega), hsc (j + 1) hj]
  · rw [hA' j hj p hp, hk j hj, hw _ (I.klt j hj) p hp, Pi.add_apply, hA j hj p hp]

/-- The Hamming code: soft values with two erasures, which are not on the basis, and the same with the signs changed by the first row. -/
def softH : List (BitVec 8) := i8s [-5, 4, 3, 7, -2, 0, 0]

example : (decode 7 4 1 (mem0 7 4) (List.replicate 16 9) [0] softH hamming).map (fun r => (r.1, r.2.1)) = some (true, [0b10001100]) ∧
    (decode 7 4 1 (mem0 7 4) (List.replicate 16 9) [0] (i8s [5, 4, 3, 7, 2, 0, 0]) hamming).map (fun r => (r.1, r.2.1)) = some (true, [0]) := by decide +kernel

example : (decodeL 7 4 1 3 (mem0 7 4) (lst0 7 3) [9, 9, 9] [0, 0, 0] softH hamming).map (fun r => (r.1, r.2.1)) = some ([0, 1, 2], [140, 170, 198]) ∧
    (decodeL 7 4 1 3 (mem0 7 4) (lst0 7 3) [9, 9, 9] [0, 0, 0] (i8s [5, 4, 3, 7, 2, 0, 0]) hamming).map (fun r => (r.1, r.2.1)) = some ([0, 1, 2], [0, 38, 74]) := by decide +kernel

example : InCode 4 7 (entry 7 hamming) (entry 7 hamming 0) ∧ Flipped 7 softH (entry 7 hamming 0) (i8s [5, 4, 3, 7, 2, 0, 0]) ∧
    ∀ p, Basis 4 7 (entry 7 hamming) softH p → val softH p = 0 → entry 7 hamming 0 p = 0 := by
  refine ⟨⟨fun j => if j = 0 then 1 else 0, fun x _ => (sum_ind (K := 4) (fun j => entry 7 hamming j x) (by norm_num)).symm⟩, by unfold Flipped; decide +kernel, ?_⟩
  rintro p ⟨h7, c, ⟨m, hm⟩, h1, hq⟩ h0
  interval_cases p <;> first | rfl | exact absurd h0 (by decide) | skip
  have hb : ∀ q, q < 4 → c q = 0 := fun q h => hq q (by omega) (by
    unfold Before
    interval_cases q <;> decide)
  have e0 := hb 0 (by norm_num); have e1 := hb 1 (by norm_num); have e2 := hb 2 (by norm_num); have e3 := hb 3 (by norm_num)
  rw [hm _ (by norm_num)] at e0 e1 e2 e3 h1
  simp only [sum_range_succ, sum_range_zero, zero_add] at e0 e1 e2 e3 h1
  generalize m 0 = m0 at *; generalize m 1 = m1 at *; generalize m 2 = m2 at *; generalize m 3 = m3 at *
  clear hm hq hb h0 h7
  revert m0 m1 m2 m3
  decide +kernel

end Verif.OSD
