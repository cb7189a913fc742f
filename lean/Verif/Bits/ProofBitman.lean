import Verif.Bits.Model
import Mathlib.Tactic.ByContra
import Mathlib.Tactic.IntervalCases
namespace Verif.Bits

theorem tdiv8 (n : Nat) : ((n : Int).tdiv 8) = ((n / 8 : Nat) : Int) := (Int.ofNat_tdiv n 8).symm
theorem tmod8 (n : Nat) : ((n : Int).tmod 8) = ((n % 8 : Nat) : Int) := (Int.ofNat_tmod n 8).symm

theorem rdZ_nat {α} (a : List α) (n : Nat) : rdZ a (n : Int) = a[n]? := by
  unfold rdZ; simp
theorem wrZ_nat {α} (a : List α) (n : Nat) (v : α) : wrZ a (n : Int) v = wr a n v := by
  unfold wrZ; simp

theorem shCount_nat (n : Nat) (h : n < 32) : shCount (n : Int) = some n := by
  unfold shCount; simp; omega

theorem sh_be (n : Nat) : shCount (7 - ((n : Int).tmod 8)) = some (7 - n % 8) := by
  rw [tmod8]
  have : (7 : Int) - ((n % 8 : Nat) : Int) = ((7 - n % 8 : Nat) : Int) := by omega
  rw [this, shCount_nat _ (by omega)]

theorem sh_le (n : Nat) : shCount ((n : Int).tmod 8) = some (n % 8) := by
  rw [tmod8, shCount_nat _ (by omega)]

theorem bit_and_one (x : BitVec 8) (s : Nat) :
    (((x.setWidth 32 >>> s) &&& 1#32) != 0#32) = x.getLsbD s := by
  have : (x.setWidth 32 >>> s) &&& 1#32 = if x.getLsbD s then 1#32 else 0#32 := by
    apply BitVec.eq_of_getLsbD_eq
    intro i hi
    simp only [BitVec.getLsbD_and, BitVec.getLsbD_ushiftRight, BitVec.getLsbD_setWidth,
      BitVec.getLsbD_one]
    by_cases h0 : i = 0
    · subst h0
      simp only [Nat.add_zero]
      by_cases hs : s < 32
      · cases x.getLsbD s <;> simp [hs]
      · rw [BitVec.getLsbD_of_ge x s (by omega)]; simp
    · cases x.getLsbD s <;> simp [h0]
  rw [this]; cases x.getLsbD s <;> rfl

theorem getLsbD_boolI (v : Bool) (i : Nat) : (boolI v).getLsbD i = (v && decide (i = 0)) := by
  unfold boolI; cases v <;> simp

theorem xor_val (x : BitVec 8) (v : Bool) (s j : Nat) (_hs : s < 8) (hj : j < 8) :
    ((x.setWidth 32 ^^^ (boolI v <<< s)).setWidth 8).getLsbD j =
      (x.getLsbD j ^^ (v && decide (j = s))) := by
  simp only [BitVec.getLsbD_setWidth, BitVec.getLsbD_xor, BitVec.getLsbD_shiftLeft, getLsbD_boolI,
    hj, decide_true, Bool.true_and]
  by_cases h : j = s
  · subst h; simp [show j < 32 by omega]
  · by_cases h2 : j < s
    · simp [h, h2]; omega
    · have : j - s ≠ 0 := by omega
      simp [h, this]; omega

theorem set_val (x : BitVec 8) (v : Bool) (s j : Nat) (_hs : s < 8) (hj : j < 8) :
    (((~~~ (1#32 <<< s) &&& x.setWidth 32) ||| (boolI v <<< s)).setWidth 8).getLsbD j =
      if j = s then v else x.getLsbD j := by
  have hj' : j < 32 := by omega
  simp only [BitVec.getLsbD_setWidth, BitVec.getLsbD_or, BitVec.getLsbD_and, BitVec.getLsbD_not,
    BitVec.getLsbD_shiftLeft, getLsbD_boolI, BitVec.getLsbD_one,
    hj, decide_true, Bool.true_and]
  by_cases h : j = s
  · subst h; simp [hj']
  · by_cases h2 : j < s
    · simp [h, h2, hj']
    · have : j - s ≠ 0 := by omega
      simp [h, h2, this, hj']

theorem getBe_eq (buf : List (BitVec 8)) (n : Nat) (h : n / 8 < buf.length) :
    getBe buf n = some ((buf.getD (n / 8) 0).getLsbD (7 - n % 8)) := by
  unfold getBe
  simp only [sh_be, tdiv8, rdZ_nat, bit_and_one]
  simp [h]

theorem getLe_eq (buf : List (BitVec 8)) (n : Nat) (h : n / 8 < buf.length) :
    getLe buf n = some ((buf.getD (n / 8) 0).getLsbD (n % 8)) := by
  unfold getLe
  simp only [sh_le, tdiv8, rdZ_nat, bit_and_one]
  simp [h]

/-- Shape shared by the four modifying functions. -/
theorem upd_eq (buf : List (BitVec 8)) (n sh : Nat) (f : BitVec 8 → Nat → BitVec 8)
    (h : n / 8 < buf.length) :
    ((some sh).bind fun sh => (rdZ buf ((n : Int).tdiv 8)).bind fun x =>
      wrZ buf ((n : Int).tdiv 8) (f x sh)) =
    some (buf.set (n / 8) (f (buf.getD (n / 8) 0) sh)) := by
  simp only [tdiv8, rdZ_nat, wrZ_nat, Option.bind_some]
  simp [h]

theorem setBe_eq (buf : List (BitVec 8)) (n : Nat) (v : Bool) (h : n / 8 < buf.length) :
    setBe buf n v = some (buf.set (n / 8) (((~~~ (1#32 <<< (7 - n % 8)) &&&
      (buf.getD (n / 8) 0).setWidth 32) ||| (boolI v <<< (7 - n % 8))).setWidth 8)) := by
  unfold setBe; rw [sh_be]
  exact upd_eq buf n (7 - n % 8)
    (fun x sh => ((~~~ (1#32 <<< sh) &&& x.setWidth 32) ||| (boolI v <<< sh)).setWidth 8) h

theorem setLe_eq (buf : List (BitVec 8)) (n : Nat) (v : Bool) (h : n / 8 < buf.length) :
    setLe buf n v = some (buf.set (n / 8) (((~~~ (1#32 <<< (n % 8)) &&&
      (buf.getD (n / 8) 0).setWidth 32) ||| (boolI v <<< (n % 8))).setWidth 8)) := by
  unfold setLe; rw [sh_le]
  exact upd_eq buf n (n % 8)
    (fun x sh => ((~~~ (1#32 <<< sh) &&& x.setWidth 32) ||| (boolI v <<< sh)).setWidth 8) h

theorem xorBe_eq (buf : List (BitVec 8)) (n : Nat) (v : Bool) (h : n / 8 < buf.length) :
    xorBe buf n v = some (buf.set (n / 8) (((buf.getD (n / 8) 0).setWidth 32 ^^^
      (boolI v <<< (7 - n % 8))).setWidth 8)) := by
  unfold xorBe; rw [sh_be]
  exact upd_eq buf n (7 - n % 8)
    (fun x sh => (x.setWidth 32 ^^^ (boolI v <<< sh)).setWidth 8) h

theorem xorLe_eq (buf : List (BitVec 8)) (n : Nat) (v : Bool) (h : n / 8 < buf.length) :
    xorLe buf n v = some (buf.set (n / 8) (((buf.getD (n / 8) 0).setWidth 32 ^^^
      (boolI v <<< (n % 8))).setWidth 8)) := by
  unfold xorLe; rw [sh_le]
  exact upd_eq buf n (n % 8)
    (fun x sh => (x.setWidth 32 ^^^ (boolI v <<< sh)).setWidth 8) h

theorem getBe_set (buf : List (BitVec 8)) (n q : Nat) (V : BitVec 8)
    (hn : n / 8 < buf.length) (hq : q / 8 < buf.length) (g : Bool)
    (hV : ∀ j, j < 8 → V.getLsbD j = if j = 7 - n % 8 then g else
      (buf.getD (n / 8) 0).getLsbD j) :
    getBe (buf.set (n / 8) V) q = if q = n then some g else getBe buf q := by
  rw [getBe_eq _ _ (by simpa using hq), getBe_eq _ _ hq, getD_set]
  by_cases h8 : n / 8 = q / 8
  · rw [if_pos ⟨h8, hn⟩, hV _ (by omega), h8]
    by_cases hqn : q = n
    · subst hqn; simp
    · rw [if_neg hqn, if_neg (by omega)]
  · rw [if_neg (by omega), if_neg (by rintro rfl; exact h8 rfl)]

theorem getLe_set (buf : List (BitVec 8)) (n q : Nat) (V : BitVec 8)
    (hn : n / 8 < buf.length) (hq : q / 8 < buf.length) (g : Bool)
    (hV : ∀ j, j < 8 → V.getLsbD j = if j = n % 8 then g else
      (buf.getD (n / 8) 0).getLsbD j) :
    getLe (buf.set (n / 8) V) q = if q = n then some g else getLe buf q := by
  rw [getLe_eq _ _ (by simpa using hq), getLe_eq _ _ hq, getD_set]
  by_cases h8 : n / 8 = q / 8
  · rw [if_pos ⟨h8, hn⟩, hV _ (by omega), h8]
    by_cases hqn : q = n
    · subst hqn; simp
    · rw [if_neg hqn, if_neg (by omega)]
  · rw [if_neg (by omega), if_neg (by rintro rfl; exact h8 rfl)]

/-- Out of range on the right. -/
theorem rdZ_none (buf : List (BitVec 8)) (n : Nat) (h : buf.length ≤ n / 8) :
    rdZ buf ((n : Int).tdiv 8) = none := by
  rw [tdiv8, rdZ_nat]; simp [h]

theorem rdZ_neg (buf : List (BitVec 8)) (p : Int) (h : p ≤ -8) : rdZ buf (p.tdiv 8) = none := by
  obtain ⟨n, rfl⟩ : ∃ n : Nat, p = -(n : Int) := ⟨p.natAbs, by omega⟩
  rw [Int.neg_tdiv, tdiv8]
  unfold rdZ; rw [if_pos (by omega)]

theorem sh_be_neg (p : Int) (h : -8 < p) (h0 : p < 0) :
    ∃ s, shCount (7 - p.tmod 8) = some s ∧ 8 ≤ s := by
  obtain ⟨n, rfl⟩ : ∃ n : Nat, p = -(n : Int) := ⟨p.natAbs, by omega⟩
  rw [Int.neg_tmod, tmod8]
  refine ⟨7 + n % 8, ?_, by omega⟩
  have : (7 : Int) - -((n % 8 : Nat) : Int) = ((7 + n % 8 : Nat) : Int) := by omega
  rw [this, shCount_nat _ (by omega)]

theorem tdiv_neg_small (p : Int) (h : -8 < p) (h0 : p < 0) : p.tdiv 8 = 0 := by
  obtain ⟨n, rfl⟩ : ∃ n : Nat, p = -(n : Int) := ⟨p.natAbs, by omega⟩
  rw [Int.neg_tdiv, tdiv8]; omega

theorem sh_le_neg (p : Int) (h : -8 < p) (h0 : p < 0) : shCount (p.tmod 8) = none := by
  obtain ⟨n, rfl⟩ : ∃ n : Nat, p = -(n : Int) := ⟨p.natAbs, by omega⟩
  rw [Int.neg_tmod, tmod8]; unfold shCount; rw [if_neg]; omega

end Verif.Bits
