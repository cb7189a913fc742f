import Verif.Bits.Model
import Mathlib.Data.List.GetD
import Mathlib.Tactic.ByContra
namespace Verif.Bits

/-- bit `i` of a byte array: bit `i % 8` of byte `i / 8`. -/
def bitAt (buf : List (BitVec 8)) (i : Nat) : Bool := (buf.getD (i / 8) 0#8).getLsbD (i % 8)

/-- The flat little-endian bit array of a byte array. -/
def flat (buf : List (BitVec 8)) : List Bool := (List.range (8 * buf.length)).map (bitAt buf)

/-- The bits of a word, least significant first. -/
def bitsLE {n : Nat} (x : BitVec n) : List Bool := (List.range n).map fun i => x.getLsbD i

/-- Replace the bits from position `p` on by `new`. -/
def overwrite (l : List Bool) (p : Nat) (new : List Bool) : List Bool :=
  l.take p ++ new ++ l.drop (p + new.length)

theorem length_flat (buf : List (BitVec 8)) : (flat buf).length = 8 * buf.length := by simp [flat]

theorem length_bitsLE {n : Nat} (x : BitVec n) : (bitsLE x).length = n := by simp [bitsLE]

theorem getD_bitsLE {n : Nat} (x : BitVec n) (i : Nat) : (bitsLE x).getD i false = x.getLsbD i := by
  by_cases h : i < n
  · rw [List.getD_eq_getElem _ _ (by simpa [bitsLE] using h)]; simp [bitsLE]
  · rw [List.getD_eq_default _ _ (by simp [bitsLE]; omega), BitVec.getLsbD_of_ge _ _ (by omega)]

theorem getD_flat (buf : List (BitVec 8)) (i : Nat) : (flat buf).getD i false = bitAt buf i := by
  by_cases h : i < 8 * buf.length
  · rw [List.getD_eq_getElem _ _ (by simpa [flat] using h)]; simp [flat]
  · rw [List.getD_eq_default _ _ (by simp [flat]; omega)]
    unfold bitAt
    rw [List.getD_eq_default _ _ (by omega)]; simp

theorem length_overwrite (l : List Bool) (p : Nat) (new : List Bool)
    (h : p + new.length ≤ l.length) : (overwrite l p new).length = l.length := by
  simp [overwrite]; omega

theorem getD_overwrite (l : List Bool) (p : Nat) (new : List Bool) (i : Nat)
    (h : p + new.length ≤ l.length) :
    (overwrite l p new).getD i false =
      if p ≤ i ∧ i < p + new.length then new.getD (i - p) false else l.getD i false := by
  unfold overwrite
  simp only [List.getD_eq_getElem?_getD, List.append_assoc]
  by_cases h1 : i < p
  · rw [if_neg (by omega), List.getElem?_append_left (by simp; omega), List.getElem?_take,
      if_pos h1]
  · rw [List.getElem?_append_right (by simp; omega)]
    have hl : (l.take p).length = p := by simp; omega
    rw [hl]
    by_cases h2 : i < p + new.length
    · rw [if_pos (by omega), List.getElem?_append_left (by omega)]
    · rw [if_neg (by omega), List.getElem?_append_right (by omega), List.getElem?_drop]
      congr 2; omega

theorem overwrite_overwrite (l : List Bool) (p : Nat) (a b : List Bool)
    (h : p + a.length + b.length ≤ l.length) :
    overwrite (overwrite l p a) (p + a.length) b = overwrite l p (a ++ b) := by
  have h1 : p + a.length ≤ l.length := by omega
  have h2 : p + a.length + b.length ≤ (overwrite l p a).length := by
    rw [length_overwrite _ _ _ h1]; exact h
  apply ext_getD false
  · rw [length_overwrite _ _ _ h2, length_overwrite _ _ _ h1,
      length_overwrite _ _ _ (by simp; omega)]
  · intro i _
    rw [getD_overwrite _ _ _ _ h2, getD_overwrite _ _ _ _ h1,
      getD_overwrite _ _ _ _ (by simp; omega)]
    simp only [List.length_append]
    by_cases c1 : p + a.length ≤ i ∧ i < p + a.length + b.length
    · rw [if_pos c1, if_pos (by omega)]
      simp only [List.getD_eq_getElem?_getD]
      rw [List.getElem?_append_right (by omega)]
      congr 2; omega
    · rw [if_neg c1]
      by_cases c2 : p ≤ i ∧ i < p + a.length
      · rw [if_pos c2, if_pos (by omega)]
        simp only [List.getD_eq_getElem?_getD]
        rw [List.getElem?_append_left (by omega)]
      · rw [if_neg c2, if_neg (by omega)]

/-- Updating one byte overwrites a run of bits inside it. -/
theorem flat_set (buf : List (BitVec 8)) (k s : Nat) (V : BitVec 8) (new : List Bool)
    (hk : k < buf.length) (hs : s + new.length ≤ 8)
    (hV : ∀ j, j < 8 → V.getLsbD j = if s ≤ j ∧ j < s + new.length then new.getD (j - s) false
      else (buf.getD k 0#8).getLsbD j) :
    flat (buf.set k V) = overwrite (flat buf) (8 * k + s) new := by
  have hle : 8 * k + s + new.length ≤ (flat buf).length := by rw [length_flat]; omega
  apply ext_getD false
  · rw [length_overwrite _ _ _ hle, length_flat, length_flat, List.length_set]
  · intro i _
    rw [getD_overwrite _ _ _ _ hle, getD_flat, getD_flat]
    unfold bitAt
    rw [getD_set]
    by_cases h : k = i / 8
    · rw [if_pos ⟨h, hk⟩, hV _ (by omega), h]
      by_cases c : s ≤ i % 8 ∧ i % 8 < s + new.length
      · rw [if_pos c, if_pos (by omega)]
        congr 1; omega
      · rw [if_neg c, if_neg (by omega)]
    · rw [if_neg (by omega), if_neg (by omega)]

/-! Byte-level facts, by enumeration of the shift counts (0..8) and bit numbers. -/

theorem mask_bit : ∀ c, c < 9 → ∀ j, j < 8 → ((1#8 <<< c) - 1#8).getLsbD j = decide (j < c) := by
  decide

theorem one_bit : ∀ c, c < 8 → ∀ j, j < 8 → (1#8 <<< c).getLsbD j = decide (j = c) := by
  decide

end Verif.Bits
