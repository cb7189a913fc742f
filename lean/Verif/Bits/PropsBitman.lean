import Verif.Bits.ProofBitman
/-
Property C08 (bitman.hh).
-/
namespace Verif.Bits

/-- **C08** big-endian: reading gives bit `7 - pos%8` of byte `pos/8`. -/
theorem C08_get_be (buf : List (BitVec 8)) (pos : Nat) (h : pos < 8 * buf.length) :
    ∃ x, buf[pos / 8]? = some x ∧ getBe buf pos = some (x.getLsbD (7 - pos % 8)) := by
  have h' : pos / 8 < buf.length := by omega
  refine ⟨buf[pos / 8], by simp [h'], ?_⟩
  rw [getBe_eq _ _ h', getElem_eq_getD h' 0]

/-- **C08** little-endian: reading gives bit `pos%8` of byte `pos/8`. -/
theorem C08_get_le (buf : List (BitVec 8)) (pos : Nat) (h : pos < 8 * buf.length) :
    ∃ x, buf[pos / 8]? = some x ∧ getLe buf pos = some (x.getLsbD (pos % 8)) := by
  have h' : pos / 8 < buf.length := by omega
  refine ⟨buf[pos / 8], by simp [h'], ?_⟩
  rw [getLe_eq _ _ h', getElem_eq_getD h' 0]

/-- **C08** big-endian set: the bit reads back as written, every other bit is unchanged. -/
theorem C08_set_be (buf : List (BitVec 8)) (pos : Nat) (v : Bool) (h : pos < 8 * buf.length) :
    ∃ buf', setBe buf pos v = some buf' ∧ buf'.length = buf.length ∧
      ∀ q : Nat, q < 8 * buf.length →
        getBe buf' q = if q = pos then some v else getBe buf q := by
  refine ⟨_, setBe_eq buf pos v (by omega), by simp, fun q hq => ?_⟩
  exact getBe_set _ _ _ _ (by omega) (by omega) _ fun j hj => set_val _ _ _ _ (by omega) hj

/-- **C08** little-endian set. -/
theorem C08_set_le (buf : List (BitVec 8)) (pos : Nat) (v : Bool) (h : pos < 8 * buf.length) :
    ∃ buf', setLe buf pos v = some buf' ∧ buf'.length = buf.length ∧
      ∀ q : Nat, q < 8 * buf.length →
        getLe buf' q = if q = pos then some v else getLe buf q := by
  refine ⟨_, setLe_eq buf pos v (by omega), by simp, fun q hq => ?_⟩
  exact getLe_set _ _ _ _ (by omega) (by omega) _ fun j hj => set_val _ _ _ _ (by omega) hj

/-- **C08** big-endian xor: the addressed bit is xored with `v`, every other one unchanged. -/
theorem C08_xor_be (buf : List (BitVec 8)) (pos : Nat) (v : Bool) (h : pos < 8 * buf.length) :
    ∃ buf', xorBe buf pos v = some buf' ∧ buf'.length = buf.length ∧
      ∀ q : Nat, q < 8 * buf.length →
        getBe buf' q = if q = pos then (getBe buf pos).map (xor v) else getBe buf q := by
  refine ⟨_, xorBe_eq buf pos v (by omega), by simp, fun q hq => ?_⟩
  rw [getBe_eq buf pos (by omega), Option.map_some]
  refine getBe_set _ _ _ _ (by omega) (by omega) _ fun j hj => ?_
  rw [xor_val _ _ _ _ (by omega) hj]
  split
  · rename_i h; subst h; simp [Bool.xor_comm]
  · rename_i h; simp [h]

/-- **C08** little-endian xor. -/
theorem C08_xor_le (buf : List (BitVec 8)) (pos : Nat) (v : Bool) (h : pos < 8 * buf.length) :
    ∃ buf', xorLe buf pos v = some buf' ∧ buf'.length = buf.length ∧
      ∀ q : Nat, q < 8 * buf.length →
        getLe buf' q = if q = pos then (getLe buf pos).map (xor v) else getLe buf q := by
  refine ⟨_, xorLe_eq buf pos v (by omega), by simp, fun q hq => ?_⟩
  rw [getLe_eq buf pos (by omega), Option.map_some]
  refine getLe_set _ _ _ _ (by omega) (by omega) _ fun j hj => ?_
  rw [xor_val _ _ _ _ (by omega) hj]
  split
  · rename_i h; subst h; simp [Bool.xor_comm]
  · rename_i h; simp [h]

example : 13 < 8 * [0x0f#8, 0xf0#8].length := by decide

/-- **C08** bounds: positions at or past the end, and positions at most -8, are undefined
behaviour for every one of the six functions (they touch a byte outside the array). -/
theorem C08_out_of_bounds (buf : List (BitVec 8)) (pos : Int) (v : Bool)
    (h : 8 * buf.length ≤ pos ∨ pos ≤ -8) :
    getBe buf pos = none ∧ getLe buf pos = none ∧ setBe buf pos v = none ∧
    setLe buf pos v = none ∧ xorBe buf pos v = none ∧ xorLe buf pos v = none := by
  have hr : rdZ buf (pos.tdiv 8) = none := by
    rcases h with h | h
    · obtain ⟨n, rfl⟩ : ∃ n : Nat, pos = n := ⟨pos.toNat, by omega⟩
      exact rdZ_none buf n (by omega)
    · exact rdZ_neg buf pos h
  simp only [getBe, getLe, setBe, setLe, xorBe, xorLe, hr]
  cases shCount (7 - pos.tmod 8) <;> cases shCount (pos.tmod 8) <;> simp

/-- **C08** positions -7..-1: undefined for the little-endian functions; for the big-endian
ones (on a non-empty array) reads give 0 and writes change nothing.  (The BCH encoder
relies on this for position -1.) -/
theorem C08_small_negative (buf : List (BitVec 8)) (pos : Int) (v : Bool) (hb : buf ≠ [])
    (h : -8 < pos) (h0 : pos < 0) :
    getBe buf pos = some false ∧ setBe buf pos v = some buf ∧ xorBe buf pos v = some buf ∧
    getLe buf pos = none ∧ setLe buf pos v = none ∧ xorLe buf pos v = none := by
  obtain ⟨s, hs, h8⟩ := sh_be_neg pos h h0
  obtain ⟨x, t, rfl⟩ := List.exists_cons_of_ne_nil hb
  have hx : ∀ V : BitVec 32, (V <<< s).setWidth 8 = 0#8 := by
    intro V
    apply BitVec.eq_of_getLsbD_eq
    intro i hi
    simp [BitVec.getLsbD_setWidth, BitVec.getLsbD_shiftLeft, show i < s by omega]
  have h1 : ((~~~ (1#32 <<< s) &&& x.setWidth 32) ||| (boolI v <<< s)).setWidth 8 = x := by
    rw [BitVec.setWidth_or, BitVec.setWidth_and, hx, BitVec.or_zero]
    apply BitVec.eq_of_getLsbD_eq
    intro i hi
    simp [BitVec.getLsbD_setWidth, BitVec.getLsbD_shiftLeft, show i < s by omega, hi,
      show i < 32 by omega]
  have h2 : (x.setWidth 32 ^^^ (boolI v <<< s)).setWidth 8 = x := by
    rw [BitVec.setWidth_xor, hx, BitVec.xor_zero]; simp
  have hsl := sh_le_neg pos h h0
  refine ⟨?_, ?_, ?_, ?_, ?_, ?_⟩
  · simp only [getBe, hs, tdiv_neg_small pos h h0, bit_and_one, rdZ]
    simp [BitVec.getLsbD_of_ge x s h8]
  · simp only [setBe, hs, tdiv_neg_small pos h h0, rdZ, wrZ]
    simp only [Int.lt_irrefl, if_false, Int.toNat_zero, List.getElem?_cons_zero,
      Option.bind_eq_bind, Option.bind_some, h1, wr]
    simp
  · simp only [xorBe, hs, tdiv_neg_small pos h h0, rdZ, wrZ]
    simp only [Int.lt_irrefl, if_false, Int.toNat_zero, List.getElem?_cons_zero,
      Option.bind_eq_bind, Option.bind_some, h2, wr]
    simp
  · simp [getLe, hsl]
  · simp [setLe, hsl]
  · simp [xorLe, hsl]

end Verif.Bits
