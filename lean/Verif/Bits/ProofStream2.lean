import Verif.Bits.ProofStream
namespace Verif.Bits

theorem rd_none {α} {a : List α} {i : Nat} (h : a.length ≤ i) : rd a i = none := by
  simp [rd, h]

theorem rd_getD {a : List (BitVec 8)} {i : Nat} (h : i < a.length) :
    rd a i = some (a.getD i 0#8) := by
  rw [rd_of_lt h, getElem_eq_getD h 0#8]

theorem putbit_val (x : BitVec 8) (b : Bool) (bit j : Nat) (hb : bit < 8) (hj : j < 8) :
    ((~~~(1#8 <<< bit) &&& x) ||| (if b then 1#8 else 0#8) <<< bit).getLsbD j =
      if bit ≤ j ∧ j < bit + 1 then b else x.getLsbD j := by
  simp only [BitVec.getLsbD_or, BitVec.getLsbD_and, BitVec.getLsbD_not, one_bit bit hb j hj]
  have : ((if b then 1#8 else 0#8) <<< bit).getLsbD j = (b && decide (j = bit)) := by
    cases b
    · simp
    · simp [one_bit bit hb j hj]
  rw [this]
  by_cases h : j = bit
  · subst h; simp
  · rw [if_neg (by omega)]; simp [h, hj]

theorem put_lo (x b : BitVec 8) (bit j : Nat) (hb : bit < 8) (hj : j < 8) :
    ((((1#8 <<< bit) - 1#8) &&& x) ||| b <<< bit).getLsbD j =
      if bit ≤ j then b.getLsbD (j - bit) else x.getLsbD j := by
  simp only [BitVec.getLsbD_or, BitVec.getLsbD_and, mask_bit bit (by omega) j hj,
    BitVec.getLsbD_shiftLeft, hj]
  by_cases h : bit ≤ j
  · rw [if_pos h]; simp [show ¬ j < bit by omega]
  · rw [if_neg h]; simp [show j < bit by omega]

theorem put_hi (y b : BitVec 8) (bit j : Nat) (hb : bit < 8) (hj : j < 8) :
    ((~~~((1#8 <<< bit) - 1#8) &&& y) ||| b >>> (8 - bit)).getLsbD j =
      if j < bit then b.getLsbD (8 - bit + j) else y.getLsbD j := by
  simp only [BitVec.getLsbD_or, BitVec.getLsbD_and, BitVec.getLsbD_not, mask_bit bit (by omega) j hj,
    BitVec.getLsbD_ushiftRight, hj]
  by_cases h : j < bit
  · rw [if_pos h]; simp [h]
  · rw [if_neg h, BitVec.getLsbD_of_ge b _ (by omega)]; simp [h]

theorem bitsLE_split (b : BitVec 8) (bit : Nat) :
    bitsLE b = (bitsLE b).take (8 - bit) ++ (bitsLE b).drop (8 - bit) := by
  rw [List.take_append_drop]

theorem getD_take (l : List Bool) (n i : Nat) : (l.take n).getD i false =
    if i < n then l.getD i false else false := by
  simp only [List.getD_eq_getElem?_getD, List.getElem?_take]
  split <;> simp

theorem getD_drop (l : List Bool) (n i : Nat) : (l.drop n).getD i false = l.getD (n + i) false := by
  simp only [List.getD_eq_getElem?_getD, List.getElem?_drop]

theorem putUnaligned_eq (buf : List (BitVec 8)) (byte bit : Nat) (b : BitVec 8) (h0 : 0 < bit)
    (h8 : bit < 8) :
    (putUnaligned buf byte bit b).map flat =
      if 8 * byte + bit + 8 ≤ 8 * buf.length then
        some (overwrite (flat buf) (8 * byte + bit) (bitsLE b)) else none := by
  unfold putUnaligned
  by_cases hin : 8 * byte + bit + 8 ≤ 8 * buf.length
  · rw [if_pos hin]
    have hb1 : byte < buf.length := by omega
    have hb2 : byte + 1 < buf.length := by omega
    simp only [rd_getD hb1, Option.bind_eq_bind, Option.bind_some, wr_of_lt hb1]
    rw [rd_getD (by simpa using hb2)]
    simp only [Option.bind_some]
    rw [wr_of_lt (by simpa using hb2), Option.map_some]
    congr 1
    rw [flat_set _ (byte + 1) 0 _ ((bitsLE b).drop (8 - bit))]
    · rw [flat_set _ byte bit _ ((bitsLE b).take (8 - bit)) hb1]
      · have e : 8 * (byte + 1) + 0 = 8 * byte + bit + ((bitsLE b).take (8 - bit)).length := by
          simp [length_bitsLE]; omega
        rw [e, overwrite_overwrite, List.take_append_drop]
        simp only [List.length_take, List.length_drop, length_bitsLE, length_flat]
        omega
      · simp [length_bitsLE]; omega
      · intro j hj
        rw [put_lo _ _ _ _ h8 hj]
        simp only [List.length_take, length_bitsLE, getD_take, getD_bitsLE]
        by_cases hc : bit ≤ j
        · rw [if_pos hc, if_pos (by omega), if_pos (by omega)]
        · rw [if_neg hc, if_neg (by omega)]
    · simpa using hb2
    · simp [length_bitsLE]
    · intro j hj
      rw [put_hi _ _ _ _ h8 hj]
      simp only [List.length_drop, length_bitsLE, getD_drop, getD_bitsLE]
      by_cases hc : j < bit
      · rw [if_pos hc, if_pos (by omega)]; congr 1
      · rw [if_neg hc, if_neg (by omega)]
  · rw [if_neg hin]
    by_cases hb1 : byte < buf.length
    · simp only [rd_getD hb1, Option.bind_eq_bind, Option.bind_some, wr_of_lt hb1]
      rw [rd_none (by simp; omega)]; rfl
    · rw [rd_none (by omega)]; rfl

theorem getUnaligned_eq (buf : List (BitVec 8)) (byte bit : Nat) (h0 : 0 < bit)
    (h8 : bit < 8) :
    (getUnaligned buf byte bit).map bitsLE =
      if 8 * byte + bit + 8 ≤ 8 * buf.length then
        some (((flat buf).drop (8 * byte + bit)).take 8) else none := by
  unfold getUnaligned
  by_cases hin : 8 * byte + bit + 8 ≤ 8 * buf.length
  · rw [if_pos hin]
    have hb1 : byte < buf.length := by omega
    have hb2 : byte + 1 < buf.length := by omega
    simp only [rd_getD hb1, rd_getD hb2, Option.bind_eq_bind, Option.bind_some]
    change some _ = _
    congr 1
    apply ext_getD false
    · simp [length_bitsLE, length_flat]; omega
    · intro i hi
      rw [length_bitsLE] at hi
      rw [getD_bitsLE, getD_take, if_pos hi, getD_drop, getD_flat]
      simp only [BitVec.getLsbD_or, BitVec.getLsbD_shiftLeft, BitVec.getLsbD_ushiftRight, hi]
      unfold bitAt
      by_cases hc : bit + i < 8
      · rw [show (8 * byte + bit + i) / 8 = byte by omega,
          show (8 * byte + bit + i) % 8 = bit + i by omega]
        simp [show i < 8 - bit by omega]
      · rw [show (8 * byte + bit + i) / 8 = byte + 1 by omega,
          show (8 * byte + bit + i) % 8 = i - (8 - bit) by omega,
          BitVec.getLsbD_of_ge (buf.getD byte 0#8) (bit + i) (by omega)]
        simp [show ¬ i < 8 - bit by omega]
  · rw [if_neg hin]
    by_cases hb1 : byte < buf.length
    · simp only [rd_getD hb1, Option.bind_eq_bind, Option.bind_some]
      rw [rd_none (by omega)]; rfl
    · rw [rd_none (by omega)]; rfl

theorem putAligned_eq (buf : List (BitVec 8)) (byte : Nat) (b : BitVec 8) :
    (wr buf byte b).map flat =
      if 8 * byte + 8 ≤ 8 * buf.length then
        some (overwrite (flat buf) (8 * byte) (bitsLE b)) else none := by
  by_cases h : byte < buf.length
  · rw [wr_of_lt h, if_pos (by omega), Option.map_some, flat_set _ byte 0 _ (bitsLE b) h]
    · rfl
    · simp [length_bitsLE]
    · intro j hj
      rw [if_pos (by simp [length_bitsLE]; omega), getD_bitsLE]; rfl
  · rw [if_neg (by omega)]; simp [wr, h]

theorem getAligned_eq (buf : List (BitVec 8)) (byte : Nat) :
    (rd buf byte).map bitsLE =
      if 8 * byte + 8 ≤ 8 * buf.length then
        some (((flat buf).drop (8 * byte)).take 8) else none := by
  by_cases h : byte < buf.length
  · rw [rd_getD h, if_pos (by omega), Option.map_some]
    congr 1
    apply ext_getD false
    · simp [length_bitsLE, length_flat]; omega
    · intro i hi
      rw [length_bitsLE] at hi
      rw [getD_bitsLE, getD_take, if_pos hi, getD_drop, getD_flat]
      unfold bitAt
      rw [show (8 * byte + i) / 8 = byte by omega, show (8 * byte + i) % 8 = i by omega]
  · rw [if_neg (by omega), rd_none (by omega)]; rfl

/-- One byte written at any bit position, by `putbyte`/`writebytes`. -/
theorem putAny_eq (buf : List (BitVec 8)) (pos : Nat) (b : BitVec 8) :
    (if pos % 8 ≠ 0 then putUnaligned buf (pos / 8) (pos % 8) b else wr buf (pos / 8) b).map flat =
      if pos + 8 ≤ 8 * buf.length then some (overwrite (flat buf) pos (bitsLE b)) else none := by
  by_cases h : pos % 8 ≠ 0
  · rw [if_pos h, putUnaligned_eq _ _ _ _ (by omega) (by omega)]
    rw [show 8 * (pos / 8) + pos % 8 = pos by omega]
  · rw [if_neg h, putAligned_eq, show 8 * (pos / 8) = pos by omega]

theorem getAny_eq (buf : List (BitVec 8)) (pos : Nat) :
    (if pos % 8 ≠ 0 then getUnaligned buf (pos / 8) (pos % 8) else rd buf (pos / 8)).map bitsLE =
      if pos + 8 ≤ 8 * buf.length then some (((flat buf).drop pos).take 8) else none := by
  by_cases h : pos % 8 ≠ 0
  · rw [if_pos h, getUnaligned_eq _ _ _ (by omega) (by omega)]
    rw [show 8 * (pos / 8) + pos % 8 = pos by omega]
  · rw [if_neg h, getAligned_eq, show 8 * (pos / 8) = pos by omega]

end Verif.Bits
