import Verif.OSD.PropsBest
/- C80 (osd.hh): the decoders of ordered statistics on the erasure channel. -/
namespace Verif.OSD
open Verif.BCH (beBit)
open Finset

variable {N K O L : Nat}

/-! ### Specification -/

/-- The received soft values: 0 at the erased positions, values of the sign of the sent bit (negative for a 1) at the others. -/
def Received (N : Nat) (E : Finset Nat) (c : Nat → ZMod 2) (soft : List (BitVec 8)) : Prop :=
  ∀ p, p < N → if p ∈ E then soft.getD p 0 = 0#8 else (c p = 0 → 0 < (soft.getD p 0).toInt) ∧ (c p ≠ 0 → (soft.getD p 0).toInt < 0)

/-- `d` is the same as `c` at all positions that are not erased. -/
def Fits (N : Nat) (E : Finset Nat) (c d : Nat → ZMod 2) : Prop := ∀ p, p < N → p ∉ E → d p = c p

/-- The erased bits follow from the others: no other codeword fits. -/
def Fillable (K N : Nat) (g : Nat → Nat → ZMod 2) (E : Finset Nat) (c : Nat → ZMod 2) : Prop :=
  ∀ d, InCode K N g d → Fits N E c d → Agree N d c

/-! ### Proofs -/

theorem InCode.add {g : Nat → Nat → ZMod 2} {c d : Nat → ZMod 2} (hc : InCode K N g c) (hd : InCode K N g d) : InCode K N g fun p => c p + d p := by
  obtain ⟨m, hm⟩ := hc
  obtain ⟨n, hn⟩ := hd
  refine ⟨fun j => m j + n j, fun p hp => ?_⟩
  dsimp only
  rw [hm p hp, hn p hp, ← sum_add_distrib]
  exact sum_congr rfl fun j _ => by ring

theorem z2 (x : ZMod 2) : x = 0 ∨ x = 1 := by revert x; decide
theorem z2_add {x y : ZMod 2} : x + y = 0 ↔ x = y := by revert x y; decide

theorem val_of_zero {soft : List (BitVec 8)} {p : Nat} (h : soft.getD p 0 = 0#8) : val soft p = 0 := by unfold val; rw [h]; rfl

theorem val_pos {soft : List (BitVec 8)} {p : Nat} : 0 < val soft p ↔ 0 < (soft.getD p 0).toInt := by unfold val; omega
theorem val_neg {soft : List (BitVec 8)} {p : Nat} : val soft p < 0 ↔ (soft.getD p 0).toInt < 0 := by unfold val; omega

section
variable {E : Finset Nat} {c : Nat → ZMod 2} {soft : List (BitVec 8)} {g : Nat → Nat → ZMod 2}

theorem hard_of_kept (h : Received N E c soft) {p : Nat} (hp : p < N) (hE : p ∉ E) : hardBit soft p = c p ∧ val soft p ≠ 0 := by
  have := h p hp
  rw [if_neg hE] at this
  unfold hardBit
  rcases z2 (c p) with e | e
  · have := val_pos.2 (this.1 e)
    rw [e, if_neg (by omega)]
    exact ⟨rfl, by omega⟩
  · have := val_neg.2 (this.2 (by rw [e]; decide))
    rw [e, if_pos this]
    exact ⟨rfl, by omega⟩

theorem corr_fits (h : Received N E c soft) (d : Nat → ZMod 2) : corr N soft d = corr N soft (hardBit soft) ↔ Fits N E c d := by
  have hle : ∀ p ∈ range N, (if d p = 0 then val soft p else - val soft p) ≤ if hardBit soft p = 0 then val soft p else - val soft p := by
    intro p _
    unfold hardBit
    by_cases h : val soft p < 0
    · rw [if_pos h, if_neg (by decide : ¬ (1 : ZMod 2) = 0)]
      split <;> omega
    · rw [if_neg h, if_pos rfl]
      split <;> omega
  unfold corr
  rw [sum_eq_sum_iff_of_le hle]
  simp only [mem_range]
  refine forall_congr' fun p => forall_congr' fun hp => ?_
  by_cases hE : p ∈ E
  · have := h p hp
    rw [if_pos hE] at this
    rw [val_of_zero this]
    simp [hE]
  · obtain ⟨h1, h2⟩ := hard_of_kept h hp hE
    rw [h1]
    simp only [hE, not_false_eq_true, forall_true_left]
    rcases z2 (c p) with e | e <;> rcases z2 (d p) with f | f <;> rw [e, f]
    · simp
    · simp; omega
    · simp; omega
    · simp

/-- Below any nonzero position of a word there is a first one in the order of reliability. -/
theorem first_nonzero (soft : List (BitVec 8)) (d : Nat → ZMod 2) {P : Nat → Prop} {p0 : Nat} (hp0 : p0 < N) (hP : P p0) (hd : d p0 ≠ 0) :
    ∃ p, p < N ∧ P p ∧ d p ≠ 0 ∧ ∀ q, q < N → Before soft q p → P q → d q = 0 := by
  classical
  obtain ⟨p, hp, hmin⟩ := exists_min_image ((range N).filter fun p => P p ∧ d p ≠ 0) (fun p => (-|val soft p|) * N + p) ⟨p0, by simp [hp0, hP, hd]⟩
  simp only [mem_filter, mem_range] at hp hmin
  refine ⟨p, hp.1, hp.2.1, hp.2.2, fun q hq hb hPq => ?_⟩
  by_contra hne
  have := hmin q ⟨hq, hPq, hne⟩
  rcases hb with hb | ⟨hb, hqp⟩
  · have h1 : (N : Int) * (|val soft q| - |val soft p|) ≥ N * 1 := mul_le_mul_of_nonneg_left (by omega) (by omega)
    nlinarith
  · rw [hb] at this
    omega

/-- A codeword that is zero on the basis positions that are left is zero on all positions that are left. -/
theorem kept_zero (h : Received N E c soft) {d : Nat → ZMod 2} (hd : InCode K N g d) (hz : ∀ p, Basis K N g soft p → p ∉ E → d p = 0) : ∀ p, p < N → p ∉ E → d p = 0 := by
  intro p0 hp0 hE0
  by_contra hne
  obtain ⟨p, hp, hE, hdp, hmin⟩ := first_nonzero soft d (P := fun p => p ∉ E) hp0 hE0 hne
  refine hdp (hz p ⟨hp, d, hd, (z2 (d p)).resolve_left hdp, fun q hq hb => ?_⟩ hE)
  by_cases hqE : q ∈ E
  · exfalso
    have hv := (hard_of_kept h hp hE).2
    have := h q hq
    rw [if_pos hqE] at this
    have := val_of_zero this
    unfold Before at hb
    rw [this] at hb
    simp only [abs_zero] at hb
    have := abs_pos.2 hv
    omega
  · exact hmin q hq hb hqE

theorem fits_of_basis (h : Received N E c soft) (hc : InCode K N g c) {d : Nat → ZMod 2} (hd : InCode K N g d)
    (hz : ∀ p, Basis K N g soft p → p ∉ E → d p = hardBit soft p) : Fits N E c d := by
  have := kept_zero h (hd.add hc) fun p hp hE => by
    rw [hz p hp hE, (hard_of_kept h hp.1 hE).1, z2_add]
  intro p hp hE
  exact z2_add.1 (this p hp hE)

theorem dist_zero {d : Nat → ZMod 2} (hz : ∀ p, Basis K N g soft p → d p = hardBit soft p) : dist K N g soft d = 0 := by
  classical
  unfold dist
  rw [card_eq_zero, filter_eq_empty_iff]
  rintro p _ ⟨h1, h2⟩
  exact h2 (hz p h1)

end

section
variable {E : Finset Nat} {c : Nat → ZMod 2} {soft genmat : List (BitVec 8)}

/-- The codeword with the hard decisions on the basis fits. -/
theorem base_word (hN : N ≤ 2 ^ 15) (hK : 1 ≤ K) (h01 : ∀ x ∈ genmat, x = 0#8 ∨ x = 1#8) (hg : N * K ≤ genmat.length) (hs : N ≤ soft.length)
    (hr : FullRank K N (entry N genmat)) (hc : InCode K N (entry N genmat) c) (h : Received N E c soft) :
    ∃ d, (∀ O, Tested K N O (entry N genmat) soft d) ∧ Fits N E c d := by
  obtain ⟨-, hb, -⟩ := C46_basis hN hK h01 hg hs hr
  obtain ⟨d, d1, d2⟩ := hb (hardBit soft)
  exact ⟨d, fun O => ⟨d1, by rw [dist_zero d2]; omega⟩, fits_of_basis h hc d1 fun p hp _ => d2 p hp⟩

/-- If another codeword fits, then flipping an erased bit of the basis gives a second word that fits. -/
theorem second_word (hN : N ≤ 2 ^ 15) (hK : 1 ≤ K) (h01 : ∀ x ∈ genmat, x = 0#8 ∨ x = 1#8) (hg : N * K ≤ genmat.length) (hs : N ≤ soft.length)
    (hr : FullRank K N (entry N genmat)) (hc : InCode K N (entry N genmat) c) (h : Received N E c soft) (hO : 1 ≤ O)
    (hf : ¬ Fillable K N (entry N genmat) E c) :
    ∃ d e, Tested K N O (entry N genmat) soft d ∧ Tested K N O (entry N genmat) soft e ∧ Fits N E c d ∧ Fits N E c e ∧ ¬ Agree N d e := by
  classical
  obtain ⟨-, hb, -⟩ := C46_basis hN hK h01 hg hs hr
  unfold Fillable Agree at hf
  push Not at hf
  obtain ⟨z, z1, z2', p0, hp0, hz0⟩ := hf
  obtain ⟨p, hp, -, hdp, hmin⟩ := first_nonzero soft (fun p => z p + c p) (P := fun _ => True) hp0 trivial fun h => hz0 (z2_add.1 h)
  have hpE : p ∈ E := by
    by_contra hE
    exact hdp (z2_add.2 (z2' p hp hE))
  have hB : Basis K N (entry N genmat) soft p := ⟨hp, fun p => z p + c p, z1.add hc, (z2 _).resolve_left hdp, fun q hq hb => hmin q hq hb trivial⟩
  obtain ⟨d, d1, d2⟩ := hb (hardBit soft)
  obtain ⟨e, e1, e2⟩ := hb (fun q => if q = p then hardBit soft p + 1 else hardBit soft q)
  refine ⟨d, e, ⟨d1, by rw [dist_zero d2]; omega⟩, ⟨e1, ?_⟩, fits_of_basis h hc d1 fun p hp _ => d2 p hp, fits_of_basis h hc e1 fun q hq hE => ?_, fun hA => ?_⟩
  · have : dist K N (entry N genmat) soft e ≤ 1 := by
      unfold dist
      rw [show (1 : Nat) = ({p} : Finset Nat).card from rfl]
      refine card_le_card fun q hq => ?_
      simp only [mem_filter, mem_range, mem_singleton] at hq ⊢
      by_contra hne
      refine hq.2.2 ?_
      rw [e2 q hq.2.1, if_neg hne]
    omega
  · rw [e2 q hq, if_neg]
    rintro rfl
    exact hE hpE
  · have := hA p hp
    rw [d2 p hB, e2 p hB, if_pos rfl] at this
    revert this
    rcases z2 (hardBit soft p) with e | e <;> rw [e] <;> decide

theorem best_fillable (hN : N ≤ 2 ^ 15) (hK : 1 ≤ K) (h01 : ∀ x ∈ genmat, x = 0#8 ∨ x = 1#8) (hg : N * K ≤ genmat.length) (hs : N ≤ soft.length)
    (hr : FullRank K N (entry N genmat)) (hc : InCode K N (entry N genmat) c) (h : Received N E c soft) (hf : Fillable K N (entry N genmat) E c) :
    StrictlyBest K N O (entry N genmat) soft c ∧ 0 ≤ corr N soft c := by
  classical
  have hcc : corr N soft c = corr N soft (hardBit soft) := (corr_fits h c).2 fun _ _ _ => rfl
  obtain ⟨d, d1, d2⟩ := base_word hN hK h01 hg hs hr hc h
  have hA := hf d (d1 0).1 d2
  refine ⟨⟨⟨hc, ?_⟩, fun e he hne => ?_⟩, by rw [hcc]; exact corr_hard_nonneg soft⟩
  · have : dist K N (entry N genmat) soft c = dist K N (entry N genmat) soft d := by
      unfold dist
      congr 1
      refine filter_congr fun p hp => ?_
      rw [hA p (mem_range.1 hp)]
    rw [this]
    exact (d1 O).2
  · rw [hcc]
    refine lt_of_le_of_ne (corr_le _ _) fun he' => hne (hf e he.1 ((corr_fits h e).1 he'))

end

/-! ### C80 -/

/-- The OSD decoder of any order on the erasure channel: the result is a codeword that fits the bits that are left.  If no other codeword fits it is the one sent, and
true is returned; otherwise false is returned if the order is at least 1 (a decoder of order 0 tests only one word and always returns true). -/
theorem C80_osd {M : Mem} {cand hard soft genmat : List (BitVec 8)} (hM : Valid N K M) (hcand : cand.length = W N) (hK : 1 ≤ K)
    (h01 : ∀ x ∈ genmat, x = 0#8 ∨ x = 1#8) (hg : N * K ≤ genmat.length) (hs : N ≤ soft.length) (hh : N ≤ 8 * hard.length) (hr : FullRank K N (entry N genmat))
    {E : Finset Nat} {c : Nat → ZMod 2} (hc : InCode K N (entry N genmat) c) (h : Received N E c soft) :
    ∃ r out M' cand', decode N K O M cand hard soft genmat = some (r, out, M', cand') ∧ InCode K N (entry N genmat) (bitsZ out) ∧ Fits N E c (bitsZ out) ∧
      (Fillable K N (entry N genmat) E c → r = true ∧ Agree N (bitsZ out) c) ∧
      (¬ Fillable K N (entry N genmat) E c → 1 ≤ O → r = false) ∧ (O = 0 → r = true) := by
  have hN : N ≤ 2 ^ 15 := hM.int16
  obtain ⟨r, out, M', cand', h1, -, -, -, -, h6, h7, h8, h9⟩ := C46_decode (O := O) hM hcand hK h01 hg hs hh hr
  obtain ⟨d, d1, d2⟩ := base_word hN hK h01 hg hs hr hc h
  have hmax : corr N soft (bitsZ out) = corr N soft (hardBit soft) := le_antisymm (corr_le _ _) (by rw [← (corr_fits h d).2 d2]; exact h7 d (d1 O))
  have hnn := corr_hard_nonneg (N := N) soft
  have hrr : r = false ↔ Tie K N O (entry N genmat) soft (bitsZ out) := by
    by_cases hex : ∃ c, InCode K N (entry N genmat) c ∧ dist K N (entry N genmat) soft c = 0 ∧ corr N soft c = corr N soft (bitsZ out)
    · rw [h9 hex]
      constructor
      · rintro (h | ⟨-, h⟩)
        · omega
        · exact h
      · exact fun h => Or.inr ⟨by omega, h⟩
    · exact h8 hex
  refine ⟨r, out, M', cand', h1, h6.1, (corr_fits h _).1 hmax, fun hf => ?_, fun hf hO => ?_, fun hO => ?_⟩
  · obtain ⟨b1, b2⟩ := best_fillable (O := O) hN hK h01 hg hs hr hc h hf
    obtain ⟨out', M'', cand'', e, hA⟩ := C46_best hM hcand hK h01 hg hs hh hr b1 b2
    rw [h1] at e
    cases e
    exact ⟨rfl, hA⟩
  · obtain ⟨a, b, a1, b1, a2, b2, hne⟩ := second_word hN hK h01 hg hs hr hc h hO hf
    refine hrr.2 ?_
    by_cases hA : Agree N a (bitsZ out)
    · exact ⟨b, b1, by rw [hmax]; exact (corr_fits h b).2 b2, fun hB => hne fun p hp => by rw [hA p hp, hB p hp]⟩
    · exact ⟨a, a1, by rw [hmax]; exact (corr_fits h a).2 a2, hA⟩
  · by_contra hrf
    have hrf' : r = false := by simpa using hrf
    obtain ⟨e, e1, -, e3⟩ := hrr.1 hrf'
    refine e3 ?_
    obtain ⟨-, -, hb⟩ := C46_basis hN hK h01 hg hs hr
    classical
    have hz : ∀ w, Tested K N O (entry N genmat) soft w → ∀ p, Basis K N (entry N genmat) soft p → w p = hardBit soft p := by
      intro w hw p hp
      have h0 : dist K N (entry N genmat) soft w = 0 := by have := hw.2; subst hO; omega
      unfold dist at h0
      rw [card_eq_zero, filter_eq_empty_iff] at h0
      by_contra hne
      exact h0 (mem_range.2 hp.1) ⟨hp, hne⟩
    exact hb e (bitsZ out) e1.1 h6.1 fun p hp => by rw [hz e e1 p hp, hz _ h6 p hp]

/-- The list decoder: the first word fits; if no other codeword fits it is the one sent, and alone in its rank; otherwise (order at least 1) the second word fits too, and has the
same rank. -/
theorem C80_osld {M : Mem} {s0 : Lst} {rank : List Nat} {hard soft genmat : List (BitVec 8)} (hM : Valid N K M) (hs0 : ValidL N L s0) (hL : 2 ≤ L) (hK : 1 ≤ K)
    (h01 : ∀ x ∈ genmat, x = 0#8 ∨ x = 1#8) (hg : N * K ≤ genmat.length) (hs : N ≤ soft.length) (hrk : L ≤ rank.length) (hh : L * ((N + 7) / 8) ≤ hard.length)
    (hr : FullRank K N (entry N genmat)) {E : Finset Nat} {c : Nat → ZMod 2} (hc : InCode K N (entry N genmat) c) (h : Received N E c soft) :
    ∃ rank' out M' s', decodeL N K O L M s0 rank hard soft genmat = some (rank', out, M', s') ∧ InCode K N (entry N genmat) (outWord N out 0) ∧
      Fits N E c (outWord N out 0) ∧ rank'.getD 0 0 = 0 ∧
      (Fillable K N (entry N genmat) E c → Agree N (outWord N out 0) c ∧ rank'.getD 1 0 = 1) ∧
      (¬ Fillable K N (entry N genmat) E c → 1 ≤ O → InCode K N (entry N genmat) (outWord N out 1) ∧ Fits N E c (outWord N out 1) ∧
        ¬ Agree N (outWord N out 0) (outWord N out 1) ∧ rank'.getD 1 0 = 0) := by
  have hN : N ≤ 2 ^ 15 := hM.int16
  obtain ⟨rank', out, M', s', h1, -, -, -, -, -, -, h2, n, h3, h4, h5, h6, h7, h8, h9⟩ := C47_decode (O := O) hM hs0 (by omega) hK h01 hg hs hrk hh hr
  have hnn := corr_hard_nonneg (N := N) soft
  have top : ∀ w, Tested K N O (entry N genmat) soft w → Fits N E c w → 1 ≤ n ∧ corr N soft (outWord N out 0) = corr N soft (hardBit soft) := by
    intro w w1 w2
    have hw := (corr_fits h w).2 w2
    rcases h6 w w1 (by omega) with ⟨j, hj, hA⟩ | ⟨hn, hj⟩
    · refine ⟨by omega, le_antisymm (corr_le _ _) ?_⟩
      rw [← hw, corr_agree hA]
      rcases Nat.eq_zero_or_pos j with rfl | hj0
      · exact le_refl _
      · exact (h5 0 j hj0 hj).2
    · exact ⟨by omega, le_antisymm (corr_le _ _) (by rw [← hw]; exact hj 0 (by omega))⟩
  obtain ⟨d, d1, d2⟩ := base_word hN hK h01 hg hs hr hc h
  obtain ⟨hn1, htop⟩ := top d (d1 O) d2
  refine ⟨rank', out, M', s', h1, h2.1, (corr_fits h _).1 htop, h7, fun hf => ?_, fun hf hO => ?_⟩
  · obtain ⟨b1, b2⟩ := best_fillable (O := O) hN hK h01 hg hs hr hc h hf
    obtain ⟨_, _, _, _, e, hA, -, q⟩ := C47_best hM hs0 hL hK h01 hg hs hrk hh hr b1 b2
    rw [h1] at e
    cases e
    exact ⟨hA, q⟩
  · obtain ⟨a, b, a1, b1, a2, b2, hne⟩ := second_word hN hK h01 hg hs hr hc h hO hf
    obtain ⟨w, w1, w2, w3⟩ : ∃ w, Tested K N O (entry N genmat) soft w ∧ Fits N E c w ∧ ¬ Agree N w (outWord N out 0) := by
      by_cases hA : Agree N a (outWord N out 0)
      · exact ⟨b, b1, b2, fun hB => hne fun p hp => by rw [hA p hp, hB p hp]⟩
      · exact ⟨a, a1, a2, hA⟩
    have hw := (corr_fits h w).2 w2
    have key : 2 ≤ n ∧ corr N soft (outWord N out 1) = corr N soft (hardBit soft) := by
      rcases h6 w w1 (by omega) with ⟨j, hj, hA⟩ | ⟨hn, hj⟩
      · have hj0 : j ≠ 0 := by rintro rfl; exact w3 hA
        refine ⟨by omega, le_antisymm (corr_le _ _) ?_⟩
        rw [← hw, corr_agree hA]
        rcases Nat.lt_or_ge 1 j with hj1 | hj1
        · exact (h5 1 j hj1 hj).2
        · rw [show j = 1 by omega]
      · exact ⟨by omega, le_antisymm (corr_le _ _) (by rw [← hw]; exact hj 1 (by omega))⟩
    obtain ⟨hn2, hc1⟩ := key
    refine ⟨(h4 1 (by omega)).1.1, (corr_fits h _).1 hc1, (h5 0 1 (by omega) (by omega)).1, ?_⟩
    rw [h8 0 (by omega), h7, if_pos]
    rw [htop, hc1]

/-! ### Cases -/

theorem entry_row (j : Nat) (hj : j < 4) : InCode 4 7 (entry 7 hamming) (entry 7 hamming j) := by
  refine ⟨fun k => if k = j then 1 else 0, fun p _ => ?_⟩
  simp [hj]

/-- The Hamming code, the first row of the matrix sent: the first two bits are erased, and follow from the others. -/
example : Received 7 {0, 1} (entry 7 hamming 0) (i8s [0, 0, 12, 13, -24, -25, 16]) ∧ Fillable 4 7 (entry 7 hamming) {0, 1} (entry 7 hamming 0) := by
  refine ⟨by unfold Received; decide, ?_⟩
  rintro d ⟨m, hm⟩ hf
  have e : ∀ p, p < 7 → d p = m 0 * entry 7 hamming 0 p + m 1 * entry 7 hamming 1 p + m 2 * entry 7 hamming 2 p + m 3 * entry 7 hamming 3 p := by
    intro p hp
    rw [hm p hp]
    simp [sum_range_succ]
  have key : ∀ a b c d : ZMod 2,
      (∀ p, p < 7 → p ∉ ({0, 1} : Finset Nat) → a * entry 7 hamming 0 p + b * entry 7 hamming 1 p + c * entry 7 hamming 2 p + d * entry 7 hamming 3 p = entry 7 hamming 0 p) →
      ∀ p, p < 7 → a * entry 7 hamming 0 p + b * entry 7 hamming 1 p + c * entry 7 hamming 2 p + d * entry 7 hamming 3 p = entry 7 hamming 0 p := by decide +kernel
  intro p hp
  rw [e p hp]
  exact key (m 0) (m 1) (m 2) (m 3) (fun p hp hE => by rw [← e p hp]; exact hf p hp hE) p hp

example : (decode 7 4 0 (mem0 7 4) (List.replicate 8 9) [0xFF] (i8s [0, 0, 12, 13, -24, -25, 16]) hamming).map (fun r => (r.1, r.2.1)) = some (true, [0b10001101]) := by decide +kernel

/-- All its ones are erased: the zero word fits too. -/
example : Received 7 {0, 4, 5} (entry 7 hamming 0) (i8s [0, 10, 12, 13, 0, 0, 16]) ∧ ¬ Fillable 4 7 (entry 7 hamming) {0, 4, 5} (entry 7 hamming 0) := by
  refine ⟨by unfold Received; decide, fun h => ?_⟩
  have := h (fun _ => 0) ⟨fun _ => 0, by simp⟩ (by unfold Fits; decide) 0 (by omega)
  revert this
  decide

example : (decode 7 4 1 (mem0 7 4) (List.replicate 8 9) [0xFF] (i8s [0, 10, 12, 13, 0, 0, 16]) hamming).map (fun r => (r.1, r.2.1)) = some (false, [1]) := by decide +kernel
example : (decode 7 4 0 (mem0 7 4) (List.replicate 8 9) [0xFF] (i8s [0, 10, 12, 13, 0, 0, 16]) hamming).map (fun r => (r.1, r.2.1)) = some (true, [1]) := by decide +kernel
example : (decodeL 7 4 1 2 (mem0 7 4) ⟨[], List.replicate 16 9, [0, 0], [0, 0]⟩ [9, 9] [0, 0] (i8s [0, 10, 12, 13, 0, 0, 16]) hamming).map (fun r => (r.1, r.2.1)) = some ([0, 0], [0, 0b10001100]) := by
  decide +kernel

end Verif.OSD
