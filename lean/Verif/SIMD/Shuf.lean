import Verif.SIMD.LaneLemmas
import Mathlib.Data.Fintype.Basic
/- Index arithmetic of the `vshuf` implementations, checked for all 256 index bytes. -/
namespace Verif.SIMD
namespace LL

/-- One byte of PSHUFB. -/
def sh (g : Nat → BitVec 8) (j : BitVec 8) : BitVec 8 := if j.msb then 0 else g (j.toNat % 16)
/-- One byte of TBL. -/
def tb (g : Nat → BitVec 8) (j : BitVec 8) : BitVec 8 := if j.toNat < 16 then g j.toNat else 0

theorem lane_pshufb (a b : BitVec 128) {k : Nat} (h : k < 16) : lane 8 (pshufb 128 a b) k = sh (lane 8 a) (lane 8 b k) := by
  rw [pshufb, lane_ofLanes _ (by omega), show k / 16 * 16 = 0 by omega]; simp [sh]
theorem lane_pshufb2 (a b : BitVec 256) {k : Nat} (h : k < 32) :
    lane 8 (pshufb 256 a b) k = sh (fun i => lane 8 a (k / 16 * 16 + i)) (lane 8 b k) := by
  rw [pshufb, lane_ofLanes _ (by omega)]; rfl
theorem lane_tbl1 (a b : BitVec 128) {k : Nat} (h : k < 16) : lane 8 (tbl1 a b) k = tb (lane 8 a) (lane 8 b k) := by
  rw [tbl1, lane_ofLanes _ (by omega)]; rfl

/-- The first block: indices below 16. -/
theorem sh_first (g : Nat → BitVec 8) : ∀ j : BitVec 8, sh g (j ||| I.cmpgt j 15) = if j.toNat < 16 then g j.toNat else 0 := by
  have h : ∀ j : BitVec 8, ((j ||| I.cmpgt j 15).msb = decide (16 ≤ j.toNat)) ∧ (j.toNat < 16 → (j ||| I.cmpgt j 15).toNat % 16 = j.toNat) := by
    decide +kernel
  intro j
  obtain ⟨h1, h2⟩ := h j
  unfold sh
  rw [h1]
  by_cases h3 : j.toNat < 16
  · rw [if_neg (by simp; omega), if_pos h3, h2 h3]
  · rw [if_pos (by simp; omega), if_neg h3]

/-- The last block: indices from `c` below 128. -/
theorem sh_last (g : Nat → BitVec 8) (c : BitVec 8) (hc : c ∈ [16, 32, 48]) (j : BitVec 8) (hj : j.toNat < c.toNat + 16 ∨ c.toNat + 128 ≤ j.toNat) :
    sh g (j - c) = if c.toNat ≤ j.toNat ∧ j.toNat < c.toNat + 16 then g (j.toNat - c.toNat) else 0 := by
  have h : ∀ c ∈ [16, 32, 48], ∀ j : BitVec 8, (j.toNat < c.toNat + 16 ∨ c.toNat + 128 ≤ j.toNat) →
      ((j - c : BitVec 8).msb = ! decide (c.toNat ≤ j.toNat ∧ j.toNat < c.toNat + 16)) ∧
      (c.toNat ≤ j.toNat ∧ j.toNat < c.toNat + 16 → (j - c).toNat % 16 = j.toNat - c.toNat) := by
    decide +kernel
  obtain ⟨h1, h2⟩ := h c hc j hj
  unfold sh
  rw [h1]
  by_cases h3 : c.toNat ≤ j.toNat ∧ j.toNat < c.toNat + 16
  · rw [if_neg (by simp [h3]), if_pos h3, h2 h3]
  · rw [if_pos (by simp only [h3, decide_false, Bool.not_false]), if_neg h3]

/-- A middle block: indices from `c` to `c + 15`. -/
theorem sh_mid (g : Nat → BitVec 8) (c d : BitVec 8) (hc : (c, d) ∈ [((16 : BitVec 8), (31 : BitVec 8)), (32, 47)]) (j : BitVec 8) (hj : j.toNat < 128 ∨ c.toNat + 128 ≤ j.toNat) :
    sh g (j - c ||| I.cmpgt j d) = if c.toNat ≤ j.toNat ∧ j.toNat < c.toNat + 16 then g (j.toNat - c.toNat) else 0 := by
  have h : ∀ p ∈ [((16 : BitVec 8), (31 : BitVec 8)), (32, 47)], ∀ j : BitVec 8, (j.toNat < 128 ∨ p.1.toNat + 128 ≤ j.toNat) →
      ((j - p.1 ||| I.cmpgt j p.2).msb = ! decide (p.1.toNat ≤ j.toNat ∧ j.toNat < p.1.toNat + 16)) ∧
      (p.1.toNat ≤ j.toNat ∧ j.toNat < p.1.toNat + 16 → (j - p.1 ||| I.cmpgt j p.2).toNat % 16 = j.toNat - p.1.toNat) := by
    decide +kernel
  obtain ⟨h1, h2⟩ := h (c, d) hc j hj
  unfold sh
  dsimp only at h1 h2
  rw [h1]
  by_cases h3 : c.toNat ≤ j.toNat ∧ j.toNat < c.toNat + 16
  · rw [if_neg (by simp [h3]), if_pos h3, h2 h3]
  · rw [if_pos (by simp only [h3, decide_false, Bool.not_false]), if_neg h3]

/-- A later block with TBL. -/
theorem tb_last (g : Nat → BitVec 8) (c : BitVec 8) (hc : c ∈ [16, 32, 48]) (j : BitVec 8) :
    tb g (j - c) = if c.toNat ≤ j.toNat ∧ j.toNat < c.toNat + 16 then g (j.toNat - c.toNat) else 0 := by
  have h : ∀ c ∈ [16, 32, 48], ∀ j : BitVec 8, ((j - c : BitVec 8).toNat < 16 ↔ c.toNat ≤ j.toNat ∧ j.toNat < c.toNat + 16) ∧
      (c.toNat ≤ j.toNat ∧ j.toNat < c.toNat + 16 → (j - c).toNat = j.toNat - c.toNat) := by
    decide +kernel
  obtain ⟨h1, h2⟩ := h c hc j
  unfold tb
  by_cases h3 : c.toNat ≤ j.toNat ∧ j.toNat < c.toNat + 16
  · rw [if_pos (h1.2 h3), if_pos h3, h2 h3]
  · rw [if_neg (fun h => h3 (h1.1 h)), if_neg h3]

end LL
end Verif.SIMD
namespace Verif.SIMD
namespace LL

theorem sh_congr {g g' : Nat → BitVec 8} (h : ∀ i < 16, g i = g' i) (j : BitVec 8) : sh g j = sh g' j := by
  unfold sh; rw [h _ (Nat.mod_lt _ (by omega))]

theorem lane_lane {N : Nat} (a : BitVec N) (h i : Nat) (hi : i < 16) : lane 8 (lane 128 a h) i = lane 8 a (h * 16 + i) := by
  apply BitVec.eq_of_getLsbD_eq
  intro j hj
  simp only [lane, BitVec.getLsbD_extractLsb', hj, decide_true, Bool.true_and, show i * 8 + j < 128 by omega]
  congr 1; omega
theorem lane_lane64 (a : BitVec 128) (h i : Nat) (hi : i < 8) : lane 8 (lane 64 a h) i = lane 8 a (h * 8 + i) := by
  apply BitVec.eq_of_getLsbD_eq
  intro j hj
  simp only [lane, BitVec.getLsbD_extractLsb', hj, decide_true, Bool.true_and, show i * 8 + j < 64 by omega]
  congr 1; omega

theorem lane_big (g : Nat → BitVec 128) {q i : Nat} (hi : i < 16) (hq : q < 2) : lane 8 (ofLanes 256 128 g) (q * 16 + i) = lane 8 (g q) i := by
  rw [← lane_lane _ q i hi, lane_ofLanes _ (by omega)]
theorem lane_big64 (g : Nat → BitVec 64) {k : Nat} (hk : k < 16) : lane 8 (ofLanes 128 64 g) k = lane 8 (g (k / 8)) (k % 8) := by
  have h := lane_lane64 (ofLanes 128 64 g) (k / 8) (k % 8) (by omega)
  rw [lane_ofLanes _ (by omega)] at h
  rw [h]; congr 1; omega

theorem lane_tbl2 (a : BitVec 128) (b : BitVec 64) {k : Nat} (h : k < 8) : lane 8 (tbl2 (lane 64 a 0, lane 64 a 1) b) k = tb (lane 8 a) (lane 8 b k) := by
  rw [tbl2, lane_ofLanes _ (by omega)]
  unfold tb
  dsimp only
  by_cases h1 : (lane 8 b k).toNat < 8
  · rw [if_pos h1, if_pos (by omega), lane_lane64 _ _ _ h1]; congr 1; omega
  · rw [if_neg h1]
    by_cases h2 : (lane 8 b k).toNat < 16
    · rw [if_pos h2, if_pos h2, lane_lane64 _ _ _ (by omega)]; congr 1; omega
    · rw [if_neg h2, if_neg h2]

/-- PSHUFB after a broadcast of the lower half. -/
theorem lane_low (a d : BitVec 256) {k : Nat} (h : k < 32) : lane 8 (pshufb 256 (ofLanes 256 128 fun i => sel128 a a (0 / 16 ^ i % 16)) d) k =
    sh (lane 8 a) (lane 8 d k) := by
  rw [lane_pshufb2 _ _ h]
  apply sh_congr
  intro i hi
  rw [lane_big _ hi (by omega), Nat.zero_div]
  change lane 8 (lane 128 a 0) i = _
  rw [lane_lane _ _ _ hi]; congr 1; omega
/-- PSHUFB after a broadcast of the upper half. -/
theorem lane_high (a d : BitVec 256) {k : Nat} (h : k < 32) : lane 8 (pshufb 256 (ofLanes 256 128 fun i => sel128 a a (17 / 16 ^ i % 16)) d) k =
    sh (fun i => lane 8 a (16 + i)) (lane 8 d k) := by
  rw [lane_pshufb2 _ _ h]
  apply sh_congr
  intro i hi
  rw [lane_big _ hi (by omega)]
  have e : sel128 a a (17 / 16 ^ (k / 16) % 16) = lane 128 a 1 := by
    have : k / 16 = 0 ∨ k / 16 = 1 := by omega
    rcases this with h | h <;> rw [h] <;> rfl
  rw [e, lane_lane _ _ _ hi]

/-! ### combination of the blocks -/
theorem comb1 (g : Nat → BitVec 8) (j : BitVec 8) (h : j.toNat < 16 ∨ 128 ≤ j.toNat) : sh g j = if j.toNat < 16 then g j.toNat else 0 := by
  unfold sh
  rw [BitVec.msb_eq_decide]
  rcases h with h | h
  · rw [if_neg (by simp; omega), if_pos h, Nat.mod_eq_of_lt h]
  · rw [if_pos (by simp; omega), if_neg (by omega)]

theorem comb2 (g : Nat → Nat → BitVec 8) (j : BitVec 8) (h : j.toNat < 32 ∨ 144 ≤ j.toNat) :
    sh (g 0) (j ||| I.cmpgt j 15) ||| sh (g 1) (j - 16) = if j.toNat < 32 then g (j.toNat / 16) (j.toNat % 16) else 0 := by
  rw [sh_first, sh_last _ 16 (by decide) _ (by simp; omega)]
  simp only [BitVec.reduceToNat]
  generalize j.toNat = x at *
  by_cases h1 : x < 16
  · rw [if_pos h1, if_neg (by omega), if_pos (by omega), Nat.div_eq_of_lt h1, Nat.mod_eq_of_lt h1]; simp
  · by_cases h2 : x < 32
    · rw [if_neg h1, if_pos (by omega), if_pos h2, show x / 16 = 1 by omega, show x % 16 = x - 16 by omega]; simp
    · rw [if_neg h1, if_neg (by omega), if_neg h2]; simp

theorem comb3 (g : Nat → Nat → BitVec 8) (j : BitVec 8) (h : j.toNat < 48 ∨ 160 ≤ j.toNat) :
    (sh (g 0) (j ||| I.cmpgt j 15) ||| sh (g 1) (j - 16 ||| I.cmpgt j 31)) ||| sh (g 2) (j - 32) =
      if j.toNat < 48 then g (j.toNat / 16) (j.toNat % 16) else 0 := by
  rw [sh_first, sh_mid _ 16 31 (by decide) _ (by simp; omega), sh_last _ 32 (by decide) _ (by simp; omega)]
  simp only [BitVec.reduceToNat]
  generalize j.toNat = x at *
  by_cases h1 : x < 16
  · rw [if_pos h1, if_neg (by omega), if_neg (by omega), if_pos (by omega), Nat.div_eq_of_lt h1, Nat.mod_eq_of_lt h1]; simp
  · by_cases h2 : x < 32
    · rw [if_neg h1, if_pos (by omega), if_neg (by omega), if_pos (by omega), show x / 16 = 1 by omega, show x % 16 = x - 16 by omega]; simp
    · by_cases h3 : x < 48
      · rw [if_neg h1, if_neg (by omega), if_pos (by omega), if_pos (by omega), show x / 16 = 2 by omega, show x % 16 = x - 32 by omega]; simp
      · rw [if_neg h1, if_neg (by omega), if_neg (by omega), if_neg h3]; simp

theorem comb4 (g : Nat → Nat → BitVec 8) (j : BitVec 8) (h : j.toNat < 64 ∨ 176 ≤ j.toNat) :
    ((sh (g 0) (j ||| I.cmpgt j 15) ||| sh (g 1) (j - 16 ||| I.cmpgt j 31)) ||| sh (g 2) (j - 32 ||| I.cmpgt j 47)) ||| sh (g 3) (j - 48) =
      if j.toNat < 64 then g (j.toNat / 16) (j.toNat % 16) else 0 := by
  rw [sh_first, sh_mid _ 16 31 (by decide) _ (by simp; omega), sh_mid _ 32 47 (by decide) _ (by simp; omega),
    sh_last _ 48 (by decide) _ (by simp; omega)]
  simp only [BitVec.reduceToNat]
  generalize j.toNat = x at *
  by_cases h1 : x < 16
  · rw [if_pos h1, if_neg (by omega), if_neg (by omega), if_neg (by omega), if_pos (by omega), Nat.div_eq_of_lt h1, Nat.mod_eq_of_lt h1]; simp
  · by_cases h2 : x < 32
    · rw [if_neg h1, if_pos (by omega), if_neg (by omega), if_neg (by omega), if_pos (by omega), show x / 16 = 1 by omega, show x % 16 = x - 16 by omega]; simp
    · by_cases h3 : x < 48
      · rw [if_neg h1, if_neg (by omega), if_pos (by omega), if_neg (by omega), if_pos (by omega), show x / 16 = 2 by omega, show x % 16 = x - 32 by omega]; simp
      · by_cases h4 : x < 64
        · rw [if_neg h1, if_neg (by omega), if_neg (by omega), if_pos (by omega), if_pos (by omega), show x / 16 = 3 by omega, show x % 16 = x - 48 by omega]; simp
        · rw [if_neg h1, if_neg (by omega), if_neg (by omega), if_neg (by omega), if_neg h4]; simp

theorem combT2 (g : Nat → Nat → BitVec 8) (j : BitVec 8) :
    tb (g 0) j ||| tb (g 1) (j - 16) = if j.toNat < 32 then g (j.toNat / 16) (j.toNat % 16) else 0 := by
  rw [tb_last _ 16 (by decide), tb]
  simp only [BitVec.reduceToNat]
  generalize j.toNat = x at *
  by_cases h1 : x < 16
  · rw [if_pos h1, if_neg (by omega), if_pos (by omega), Nat.div_eq_of_lt h1, Nat.mod_eq_of_lt h1]; simp
  · by_cases h2 : x < 32
    · rw [if_neg h1, if_pos (by omega), if_pos h2, show x / 16 = 1 by omega, show x % 16 = x - 16 by omega]; simp
    · rw [if_neg h1, if_neg (by omega), if_neg h2]; simp

theorem combT3 (g : Nat → Nat → BitVec 8) (j : BitVec 8) :
    (tb (g 0) j ||| tb (g 1) (j - 16)) ||| tb (g 2) (j - 32) = if j.toNat < 48 then g (j.toNat / 16) (j.toNat % 16) else 0 := by
  rw [combT2, tb_last _ 32 (by decide)]
  simp only [BitVec.reduceToNat]
  generalize j.toNat = x at *
  by_cases h2 : x < 32
  · rw [if_pos h2, if_neg (by omega), if_pos (by omega)]; simp
  · by_cases h3 : x < 48
    · rw [if_neg h2, if_pos (by omega), if_pos h3, show x / 16 = 2 by omega, show x % 16 = x - 32 by omega]; simp
    · rw [if_neg h2, if_neg (by omega), if_neg h3]; simp

theorem combT4 (g : Nat → Nat → BitVec 8) (j : BitVec 8) :
    ((tb (g 0) j ||| tb (g 1) (j - 16)) ||| tb (g 2) (j - 32)) ||| tb (g 3) (j - 48) =
      if j.toNat < 64 then g (j.toNat / 16) (j.toNat % 16) else 0 := by
  rw [combT3, tb_last _ 48 (by decide)]
  simp only [BitVec.reduceToNat]
  generalize j.toNat = x at *
  by_cases h2 : x < 48
  · rw [if_pos h2, if_neg (by omega), if_pos (by omega)]; simp
  · by_cases h3 : x < 64
    · rw [if_neg h2, if_pos (by omega), if_pos h3, show x / 16 = 3 by omega, show x % 16 = x - 48 by omega]; simp
    · rw [if_neg h2, if_neg (by omega), if_neg h3]; simp

/-- VPERMD on two registers. -/
theorem combD (g : Nat → Nat → BitVec 32) (j : BitVec 32) (h : j.toNat < 16) :
    (g 0 (j.toNat % 8) &&& I.cmpgt 8 j) ||| (g 1 ((j - 8).toNat % 8) &&& I.cmpgt j 7) = if j.toNat < 16 then g (j.toNat / 8) (j.toNat % 8) else 0 := by
  have hi : j.toInt = j.toNat := by rw [BitVec.toInt_eq_toNat_cond]; rw [if_pos (by omega)]
  unfold I.cmpgt
  rw [hi, if_pos h]
  simp only [BitVec.reduceToInt, gt_iff_lt]
  by_cases h1 : j.toNat < 8
  · rw [if_pos (by omega), if_neg (by omega), Nat.div_eq_of_lt h1]
    change (_ &&& BitVec.allOnes 32) ||| (_ &&& 0#32) = _
    rw [BitVec.and_allOnes, BitVec.and_zero, BitVec.or_zero]
  · rw [if_neg (by omega), if_pos (by omega), show j.toNat / 8 = 1 by omega]
    have e : (j - 8).toNat = j.toNat - 8 := BitVec.toNat_sub_of_le (by rw [BitVec.le_def]; simpa using by omega)
    rw [e, show (j.toNat - 8) % 8 = j.toNat % 8 by omega]
    change (_ &&& 0#32) ||| (_ &&& BitVec.allOnes 32) = _
    rw [BitVec.and_allOnes, BitVec.and_zero, BitVec.zero_or]

end LL
end Verif.SIMD
namespace Verif.SIMD
namespace LL

/-- The two halves of a 256 bit register. -/
def blk2 (a : BitVec 256) : Nat → Nat → BitVec 8
  | 0 => lane 8 a
  | _ => fun i => lane 8 a (16 + i)

theorem blk2_eq (a b : BitVec 256) (k : Nat) :
    (if (lane 8 b k).toNat < 32 then blk2 a ((lane 8 b k).toNat / 16) ((lane 8 b k).toNat % 16) else 0) = P.vshuf 32 (lane 8 a) (lane 8 b) k := by
  unfold P.vshuf
  generalize (lane 8 b k).toNat = x
  by_cases h : x < 32
  · rw [if_pos h, if_pos h]
    have h2 : x / 16 = 0 ∨ x / 16 = 1 := by omega
    rcases h2 with h2 | h2 <;> rw [h2]
    · change lane 8 a (x % 16) = _; rw [show x % 16 = x by omega]
    · change lane 8 a (16 + x % 16) = _; rw [show 16 + x % 16 = x by omega]
  · rw [if_neg h, if_neg h]

/-- The four halves of two 256 bit registers. -/
def blk4 (a : Nat → BitVec 256) : Nat → Nat → BitVec 8
  | 0 => lane 8 (a 0)
  | 1 => fun i => lane 8 (a 0) (16 + i)
  | 2 => lane 8 (a 1)
  | _ => fun i => lane 8 (a 1) (16 + i)

theorem blk4_eq (a b : Nat → BitVec 256) (k : Nat) :
    (if (vw 256 8 b k).toNat < 64 then blk4 a ((vw 256 8 b k).toNat / 16) ((vw 256 8 b k).toNat % 16) else 0) = P.vshuf 64 (vw 256 8 a) (vw 256 8 b) k := by
  unfold P.vshuf
  generalize (vw 256 8 b k).toNat = x
  by_cases h : x < 64
  · rw [if_pos h, if_pos h]
    unfold vw
    rw [show 256 / 8 = 32 from rfl]
    have h2 : x / 16 = 0 ∨ x / 16 = 1 ∨ x / 16 = 2 ∨ x / 16 = 3 := by omega
    rcases h2 with h2 | h2 | h2 | h2 <;> rw [h2]
    · change lane 8 (a 0) (x % 16) = _; rw [show x / 32 = 0 by omega, show x % 16 = x % 32 by omega]
    · change lane 8 (a 0) (16 + x % 16) = _; rw [show x / 32 = 0 by omega, show 16 + x % 16 = x % 32 by omega]
    · change lane 8 (a 1) (x % 16) = _; rw [show x / 32 = 1 by omega, show x % 16 = x % 32 by omega]
    · change lane 8 (a 1) (16 + x % 16) = _; rw [show x / 32 = 1 by omega, show 16 + x % 16 = x % 32 by omega]
  · rw [if_neg h, if_neg h]

end LL
end Verif.SIMD
