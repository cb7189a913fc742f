import Verif.Crc.Proof
/-
Properties C01, C02, C03 (crc.hh).
-/
namespace Verif.Crc
variable {w : Nat}

/-! ### Specification -/

/-- The textbook reflected CRC step: the feedback bit is the low register bit xor the data
bit; shift right, and add the polynomial if the feedback bit is set. -/
def specBit (poly s : BitVec w) (d : Bool) : BitVec w :=
  if s.getLsbD 0 ≠ d then (s >>> 1) ^^^ poly else s >>> 1

/-- The register after a string of bits. -/
def specBits (poly s : BitVec w) (bits : List Bool) : BitVec w := bits.foldl (specBit poly) s

/-- The bits of a word, least significant first. -/
def bitsLE {n : Nat} (x : BitVec n) : List Bool := (List.range n).map fun i => x.getLsbD i

/-- The public calls on a CRC object. -/
inductive Op (w : Nat) where
  | reset (v : BitVec w)
  | get
  | bit (d : Bool)
  | byte (d : BitVec 8)
  | word16 (d : BitVec 16)
  | word32 (d : BitVec 32)
  | word64 (d : BitVec 64)

/-- One public call on the model: new object and value returned (`reset` returns nothing). -/
def CRC.call (c : CRC w) : Op w → Option (CRC w × Option (BitVec w))
  | .reset v => some (c.reset v, none)
  | .get => some (c, some c.value)
  | .bit d => some ((c.bit d).1, some (c.bit d).2)
  | .byte d => (c.byte d).map fun r => (r.1, some r.2)
  | .word16 d => (c.word16 d).map fun r => (r.1, some r.2)
  | .word32 d => (c.word32 d).map fun r => (r.1, some r.2)
  | .word64 d => (c.word64 d).map fun r => (r.1, some r.2)

/-- A history of calls: final object and all returned values. -/
def CRC.run (c : CRC w) : List (Op w) → Option (CRC w × List (Option (BitVec w)))
  | [] => some (c, [])
  | o :: os => do
    let (c, r) ← c.call o
    let (c, rs) ← c.run os
    return (c, r :: rs)

/-- Specification of one call: the state is just the register, and every data item is
its string of bits. -/
def specCall (poly s : BitVec w) : Op w → BitVec w × Option (BitVec w)
  | .reset v => (v, none)
  | .get => (s, some s)
  | .bit d => let r := specBit poly s d; (r, some r)
  | .byte d => let r := specBits poly s (bitsLE d); (r, some r)
  | .word16 d => let r := specBits poly s (bitsLE d); (r, some r)
  | .word32 d => let r := specBits poly s (bitsLE d); (r, some r)
  | .word64 d => let r := specBits poly s (bitsLE d); (r, some r)

/-- Specification of a history. -/
def specRun (poly s : BitVec w) : List (Op w) → BitVec w × List (Option (BitVec w))
  | [] => (s, [])
  | o :: os =>
    let (s, r) := specCall poly s o
    let (s, rs) := specRun poly s os
    (s, r :: rs)

/-! ### Auxiliary -/

theorem update_eq_spec (p s : BitVec w) (d : Bool) : update p s d = specBit p s d := by
  rcases Nat.eq_zero_or_pos w with rfl | hw
  · exact Subsingleton.elim _ _
  apply BitVec.eq_of_getLsbD_eq
  intro i hi
  rw [getLsbD_update _ _ _ _ hi]
  unfold specBit
  cases h : s.getLsbD 0 <;> cases d <;> simp [Nat.add_comm 1 i]

theorem feed_eq_spec (p s : BitVec w) (l : List Bool) : feed p s l = specBits p s l := by
  have : update p = specBit p := by funext a b; exact update_eq_spec p a b
  simp only [feed, specBits, this]

theorem lutEntry_eq (p : BitVec w) (j : Nat) :
    lutEntry p j = some (shift0 p 8 (BitVec.ofNat w j)) := rfl

/-- The object the constructor builds. -/
def objOf (p s : BitVec w) : CRC w :=
  { lut := (List.range 256).map fun j => shift0 p 8 (BitVec.ofNat w j), poly := p, crc := s }

theorem new_eq (p s : BitVec w) : CRC.new p s = some (objOf p s) := by
  unfold CRC.new
  rw [forUp_fill (g := fun j => shift0 p 8 (BitVec.ofNat w j)) (Nat.le_of_eq (List.length_replicate).symm)]
  · rw [List.drop_eq_nil_of_le (Nat.le_of_eq List.length_replicate), List.append_nil]; rfl
  · intro j l hj hl
    rw [List.length_replicate] at hl
    rw [lutEntry_eq, Option.bind_eq_bind, Option.bind_some, wr_of_lt (by rw [hl]; exact hj)]

theorem pack_bitsLE (d : BitVec 8) (hw : 8 ≤ w) : pack w (bitsLE d) = d.setWidth w := by
  apply BitVec.eq_of_getLsbD_eq
  intro i hi
  rw [getLsbD_pack _ _ hi, BitVec.getLsbD_setWidth]
  simp only [hi, decide_true, Bool.true_and, bitsLE, List.getD_eq_getElem?_getD]
  by_cases h : i < 8
  · simp [h]
  · rw [getLsbD_eq_false_of_ge d (by omega)]; simp [h]

theorem shift0_one (p s : BitVec w) (h : s.getLsbD 0 = false) : update p s false = s >>> 1 := by
  rw [update_eq_spec]; unfold specBit; simp [h]

theorem shift0_low (p : BitVec w) : ∀ (n : Nat) (s : BitVec w),
    (∀ i, i < n → s.getLsbD i = false) → shift0 p n s = s >>> n
  | 0, s, _ => by simp [shift0]
  | n+1, s, h => by
    rw [shift0, shift0_one p s (h 0 (by omega)), shift0_low p n]
    · rw [← BitVec.shiftRight_add, Nat.add_comm]
    · intro i hi
      rw [BitVec.getLsbD_ushiftRight]
      exact h _ (by omega)

theorem shift0_split (p s : BitVec w) (hw : 8 ≤ w) :
    shift0 p 8 s = (s >>> 8) ^^^ shift0 p 8 (s &&& 255#w) := by
  have hlow : ∀ i, i < w → (255#w).getLsbD i = decide (i < 8) := by
    intro i hi
    have : (255#w) = BitVec.setWidth w (255#8) := by
      apply BitVec.eq_of_toNat_eq
      simp
    rw [this, BitVec.getLsbD_setWidth]
    by_cases h8 : i < 8
    · simp only [hi, decide_true, Bool.true_and, h8]
      have : ∀ i, i < 8 → (255#8).getLsbD i = true := by decide
      exact this i h8
    · rw [getLsbD_eq_false_of_ge (255#8) (by omega)]; simp [h8]
  have h1 : s = (s &&& ~~~ 255#w) ^^^ (s &&& 255#w) := by
    apply BitVec.eq_of_getLsbD_eq
    intro i hi
    simp only [BitVec.getLsbD_xor, BitVec.getLsbD_and, BitVec.getLsbD_not, hi]
    cases s.getLsbD i <;> cases (255#w).getLsbD i <;> rfl
  conv => lhs; rw [h1]
  rw [shift0_xor]
  congr 1
  rw [shift0_low]
  · apply BitVec.eq_of_getLsbD_eq
    intro i hi
    simp only [BitVec.getLsbD_ushiftRight, BitVec.getLsbD_and, BitVec.getLsbD_not]
    by_cases h : 8 + i < w
    · rw [hlow _ h]; simp [h]
    · simp [getLsbD_eq_false_of_ge s (by omega : w ≤ 8 + i)]
  · intro i hi
    simp [hlow i (by omega), hi]

theorem length_bitsLE {n : Nat} (x : BitVec n) : (bitsLE x).length = n := by simp [bitsLE]

theorem byteGeneric_eq (p s : BitVec w) (hw : 8 ≤ w) (d : BitVec 8) :
    (objOf p s).byteGeneric d =
      some (objOf p (specBits p s (bitsLE d)), specBits p s (bitsLE d)) := by
  have hidx : ((s ^^^ d.setWidth w) &&& 255#w).toNat < 256 := by
    rw [BitVec.toNat_and]
    refine Nat.lt_of_le_of_lt Nat.and_le_right ?_
    rw [BitVec.toNat_ofNat]
    exact Nat.lt_of_le_of_lt (Nat.mod_le _ _) (by omega)
  have hr : (s >>> 8) ^^^ shift0 p 8 ((s ^^^ d.setWidth w) &&& 255#w)
      = specBits p s (bitsLE d) := by
    rw [← feed_eq_spec, feed_eq_shift0 p _ _ (by rw [length_bitsLE]; exact hw), length_bitsLE,
      pack_bitsLE d hw, shift0_split p (s ^^^ d.setWidth w) hw]
    refine congrArg (fun y : BitVec w =>
      y ^^^ shift0 p 8 ((s ^^^ BitVec.setWidth w d) &&& 255#w)) ?_
    apply BitVec.eq_of_getLsbD_eq
    intro i hi
    simp [BitVec.getLsbD_ushiftRight, BitVec.getLsbD_setWidth]
  unfold CRC.byteGeneric
  simp only [objOf]
  rw [rd_of_lt (by simpa using hidx)]
  simp only [List.getElem_map, List.getElem_range, BitVec.ofNat_toNat, BitVec.setWidth_eq]
  rw [← hr]; rfl

theorem byte8_eq (p s : BitVec 8) (d : BitVec 8) :
    (objOf p s).byte8 d =
      some (objOf p (specBits p s (bitsLE d)), specBits p s (bitsLE d)) := by
  have := byteGeneric_eq p s (Nat.le_refl 8) d
  rw [← this]
  unfold CRC.byte8 CRC.byteGeneric
  have h1 : ∀ x : BitVec 8, x &&& 255#8 = x := by decide
  have h2 : s >>> 8 = 0#8 := by
    have : ∀ s : BitVec 8, s >>> 8 = 0#8 := by decide
    exact this s
  simp only [objOf, h1, h2, BitVec.setWidth_eq, BitVec.zero_xor]

theorem byte_eq (p s : BitVec w) (hw : 8 ≤ w) (d : BitVec 8) :
    (objOf p s).byte d =
      some (objOf p (specBits p s (bitsLE d)), specBits p s (bitsLE d)) := by
  unfold CRC.byte
  by_cases h : w = 8
  · subst h
    simp only [dite_true, byte8_eq]
  · simp only [h, dite_false, byteGeneric_eq p s hw d]

theorem byteD_eq (p s : BitVec w) (hw : 8 ≤ w) (d : BitVec 8) :
    (objOf p s).byte_ d = some (objOf p (specBits p s (bitsLE d))) := by
  simp [CRC.byte_, byte_eq p s hw d]

theorem specBits_append (p s : BitVec w) (a b : List Bool) :
    specBits p s (a ++ b) = specBits p (specBits p s a) b := by simp [specBits]

theorem bits16 (d : BitVec 16) : bitsLE d = bitsLE ((d &&& 255#16).setWidth 8) ++
    bitsLE (((d >>> 8) &&& 255#16).setWidth 8) := by
  have h : ∀ i, i < 8 → (255#16).getLsbD i = true := by decide
  simp [bitsLE, List.range_succ, BitVec.getLsbD_setWidth, BitVec.getLsbD_ushiftRight]

theorem bits32 (d : BitVec 32) : bitsLE d = bitsLE ((d &&& 255#32).setWidth 8) ++
    bitsLE (((d >>> 8) &&& 255#32).setWidth 8) ++ bitsLE (((d >>> 16) &&& 255#32).setWidth 8) ++
    bitsLE (((d >>> 24) &&& 255#32).setWidth 8) := by
  simp [bitsLE, List.range_succ, BitVec.getLsbD_setWidth, BitVec.getLsbD_ushiftRight]

theorem bits64 (d : BitVec 64) : bitsLE d = bitsLE ((d &&& 255#64).setWidth 8) ++
    bitsLE (((d >>> 8) &&& 255#64).setWidth 8) ++ bitsLE (((d >>> 16) &&& 255#64).setWidth 8) ++
    bitsLE (((d >>> 24) &&& 255#64).setWidth 8) ++
    bitsLE (((d >>> 32) &&& 255#64).setWidth 8) ++ bitsLE (((d >>> 40) &&& 255#64).setWidth 8) ++
    bitsLE (((d >>> 48) &&& 255#64).setWidth 8) ++ bitsLE (((d >>> 56) &&& 255#64).setWidth 8)
    := by
  simp [bitsLE, List.range_succ, BitVec.getLsbD_setWidth, BitVec.getLsbD_ushiftRight]

theorem word16_eq (p s : BitVec w) (hw : 8 ≤ w) (d : BitVec 16) :
    (objOf p s).word16 d = some (objOf p (specBits p s (bitsLE d)), specBits p s (bitsLE d)) := by
  simp only [CRC.word16, byteD_eq p _ hw, Option.bind_eq_bind, Option.bind_some, ← specBits_append,
    ← bits16]
  rfl

theorem word32_eq (p s : BitVec w) (hw : 8 ≤ w) (d : BitVec 32) :
    (objOf p s).word32 d = some (objOf p (specBits p s (bitsLE d)), specBits p s (bitsLE d)) := by
  simp only [CRC.word32, byteD_eq p _ hw, Option.bind_eq_bind, Option.bind_some, ← specBits_append,
    ← bits32]
  rfl

theorem word64_eq (p s : BitVec w) (hw : 8 ≤ w) (d : BitVec 64) :
    (objOf p s).word64 d = some (objOf p (specBits p s (bitsLE d)), specBits p s (bitsLE d)) := by
  simp only [CRC.word64, byteD_eq p _ hw, Option.bind_eq_bind, Option.bind_some, ← specBits_append,
    ← bits64]
  rfl

theorem call_eq (p s : BitVec w) (hw : 8 ≤ w) (o : Op w) :
    (objOf p s).call o = some (objOf p (specCall p s o).1, (specCall p s o).2) := by
  cases o with
  | reset v => rfl
  | get => rfl
  | bit d => simp only [CRC.call, specCall, CRC.bit]; simp only [objOf, update_eq_spec]
  | byte d => simp [CRC.call, specCall, byte_eq p s hw d]
  | word16 d => simp [CRC.call, specCall, word16_eq p s hw d]
  | word32 d => simp [CRC.call, specCall, word32_eq p s hw d]
  | word64 d => simp [CRC.call, specCall, word64_eq p s hw d]

theorem run_eq (p : BitVec w) (hw : 8 ≤ w) : ∀ (os : List (Op w)) (s : BitVec w),
    (objOf p s).run os = some (objOf p (specRun p s os).1, (specRun p s os).2)
  | [], s => rfl
  | o :: os, s => by
    simp only [CRC.run, specRun, call_eq p s hw o, Option.bind_eq_bind, Option.bind_some,
      run_eq p hw os]
    rfl

/-! ### Property theorems -/

/-- **C01.** For every register width of at least 8 bits, every polynomial, every start value
and every history of public calls (bits, bytes, words, resets): the constructor and all calls
are free of undefined behaviour, and the register and all returned values are those of the
bit-serial specification, in which a byte or word is nothing but its string of bits, least
significant first. -/
theorem C01_crc_calls_are_bit_serial (hw : 8 ≤ w) (poly init : BitVec w) (ops : List (Op w)) :
    ∃ c, CRC.new poly init = some c ∧
      ∃ c' outs, c.run ops = some (c', outs) ∧
        c'.value = (specRun poly init ops).1 ∧ outs = (specRun poly init ops).2 := by
  refine ⟨_, new_eq poly init, _, _, run_eq poly hw ops init, rfl, rfl⟩

/-- **C01**, default arguments: the register starts at 0 and `reset()` sets it to 0. -/
theorem C01_defaults (poly : BitVec w) (c : CRC w) :
    CRC.new poly = CRC.new poly 0#w ∧ c.reset.value = 0#w := ⟨rfl, rfl⟩

/-- **C01**, in terms of the API only: feeding a byte is feeding its eight bits. -/
theorem C01_crc_byte_eq_eight_bits (hw : 8 ≤ w) (poly init : BitVec w) (hist : List (Op w))
    (c c' : CRC w) (hc : CRC.new poly init = some c) (outs)
    (hh : c.run hist = some (c', outs)) (d : BitVec 8) :
    (c'.call (.byte d)).map Prod.fst =
      (c'.run ((bitsLE d).map Op.bit)).map Prod.fst := by
  rw [new_eq] at hc; cases hc
  rw [run_eq poly hw] at hh; cases hh
  rw [call_eq _ _ hw, run_eq _ hw]
  simp only [Option.map_some, Option.some.injEq]
  have : ∀ (l : List Bool) (s : BitVec w), (specRun poly s (l.map Op.bit)).1 =
      specBits poly s l := by
    intro l
    induction l with
    | nil => intro s; rfl
    | cons b l ih => intro s; simp [specRun, specCall, ih, specBits]
  rw [this]; rfl

example : ∃ c c' outs, CRC.new (0xA8F4#16) 0 = some c ∧
    c.run [.bit true, .byte 0x55, .word32 0xDEADBEEF] = some (c', outs) := by
  refine ⟨_, _, _, new_eq _ _, run_eq _ (by decide) _ _⟩

/-- **C02.** If the polynomial has its top register bit set, two different bit strings of the
same length all of whose differences lie in one window of `w` consecutive positions end in
different register values. -/
theorem C02_crc_detects_bursts (poly init : BitVec w) (hp : poly.msb = true)
    (a b : List Bool) (hlen : a.length = b.length) (hne : a ≠ b) (k : Nat)
    (hwin : ∀ i (ha : i < a.length) (hb : i < b.length), a[i] ≠ b[i] → k ≤ i ∧ i < k + w) :
    specBits poly init a ≠ specBits poly init b := by
  rw [← feed_eq_spec, ← feed_eq_spec]
  intro h
  have hx := feed_xor poly a b init init hlen
  rw [BitVec.xor_self, h, BitVec.xor_self] at hx
  obtain ⟨j, hja, hjb, hj⟩ : ∃ j, ∃ (ha : j < a.length) (hb : j < b.length), a[j] ≠ b[j] := by
    by_contra hc
    push Not at hc
    exact hne (List.ext_getElem hlen hc)
  have hget : ∀ i, (List.zipWith xor a b).getD i false = true →
      ∃ (ha : i < a.length) (hb : i < b.length), a[i] ≠ b[i] := by
    intro i hi
    by_cases hia : i < a.length
    · have hib : i < b.length := by omega
      refine ⟨hia, hib, ?_⟩
      rw [List.getD_eq_getElem _ _ (by simp; omega)] at hi
      simpa using hi
    · rw [List.getD_eq_default _ _ (by simp; omega)] at hi; simp at hi
  refine feed_burst_ne_zero poly hp (List.zipWith xor a b) k j ?_ ?_ hx
  · intro i hi
    obtain ⟨h1, h2, h3⟩ := hget i hi
    exact hwin i h1 h2 h3
  · rw [List.getD_eq_getElem _ _ (by simp; omega)]
    simpa using hj

/-- **C02** on the model: two objects built alike and fed bit by bit. -/
theorem C02_crc_object_detects_bursts (poly init : BitVec w) (hw : 8 ≤ w) (hp : poly.msb = true)
    (a b : List Bool) (hlen : a.length = b.length) (hne : a ≠ b) (k : Nat)
    (hwin : ∀ i (ha : i < a.length) (hb : i < b.length), a[i] ≠ b[i] → k ≤ i ∧ i < k + w)
    (c ca cb : CRC w) (hc : CRC.new poly init = some c) (oa ob)
    (ha : c.run (a.map Op.bit) = some (ca, oa)) (hb : c.run (b.map Op.bit) = some (cb, ob)) :
    ca.value ≠ cb.value := by
  rw [new_eq] at hc; cases hc
  rw [run_eq poly hw] at ha hb; cases ha; cases hb
  have : ∀ (l : List Bool) (s : BitVec w), (specRun poly s (l.map Op.bit)).1 =
      specBits poly s l := by
    intro l
    induction l with
    | nil => intro s; rfl
    | cons b l ih => intro s; simp [specRun, specCall, ih, specBits]
  simp only [CRC.value, objOf, this]
  exact C02_crc_detects_bursts poly init hp a b hlen hne k hwin

example : (0xA8F4#16).msb = true ∧ ([true, false, true] ≠ [true, true, false]) ∧
    (∀ i (ha : i < [true, false, true].length) (hb : i < [true, true, false].length),
      [true, false, true][i] ≠ [true, true, false][i] → 1 ≤ i ∧ i < 1 + 16) := by decide

theorem pack_bitsLE_self (x : BitVec w) : pack w (bitsLE x) = x := by
  apply BitVec.eq_of_getLsbD_eq
  intro i hi
  rw [getLsbD_pack _ _ hi]
  simp [bitsLE, List.getD_eq_getElem?_getD, hi]

/-- **C03** residue: feeding the register's own bits (least significant first) gives zero;
and, if the polynomial has its top bit set, only the register's own bits do. -/
theorem C03_crc_residue (poly s v : BitVec w) :
    specBits poly s (bitsLE s) = 0#w ∧
      (poly.msb = true → specBits poly s (bitsLE v) = 0#w → v = s) := by
  have key : ∀ v : BitVec w, specBits poly s (bitsLE v) = shift0 poly w (s ^^^ v) := by
    intro v
    rw [← feed_eq_spec, feed_eq_shift0 _ _ _ (by rw [length_bitsLE]; omega), length_bitsLE,
      pack_bitsLE_self]
  refine ⟨?_, ?_⟩
  · rw [key, BitVec.xor_self, shift0_zero]
  · intro hp h
    rw [key] at h
    rcases Nat.eq_zero_or_pos w with rfl | hw
    · exact Subsingleton.elim _ _
    have := shift0_inj_zero poly hw hp _ _ h
    have h2 := congrArg (· ^^^ v) this
    simp only [BitVec.xor_assoc, BitVec.xor_self, BitVec.xor_zero, BitVec.zero_xor] at h2
    exact h2.symm

/-- The single public call that feeds one word of the register's own width. -/
def feedSelf (v : BitVec w) : Option (Op w) :=
  if h : w = 8 then some (.byte (h ▸ v))
  else if h : w = 16 then some (.word16 (h ▸ v))
  else if h : w = 32 then some (.word32 (h ▸ v))
  else if h : w = 64 then some (.word64 (h ▸ v))
  else none

/-- **C03** on the model, for the four integer widths: after any history, the call with
the current CRC value as data returns zero; if the polynomial's top bit is set, no other
data word does. -/
theorem C03_crc_object_residue (poly init v : BitVec w) (hist : List (Op w)) (o : Op w)
    (ho : feedSelf v = some o) (c c' : CRC w) (outs)
    (hc : CRC.new poly init = some c) (hh : c.run hist = some (c', outs)) :
    ∃ c'' r, c'.call o = some (c'', some r) ∧ c''.value = r ∧
      (v = c'.value → r = 0#w) ∧ (poly.msb = true → r = 0#w → v = c'.value) := by
  have main : ∀ (hw : 8 ≤ w), (∀ s, specCall poly s o =
      (specBits poly s (bitsLE v), some (specBits poly s (bitsLE v)))) →
      ∃ c'' r, c'.call o = some (c'', some r) ∧ c''.value = r ∧
      (v = c'.value → r = 0#w) ∧ (poly.msb = true → r = 0#w → v = c'.value) := by
    intro hw hs
    rw [new_eq] at hc; cases hc
    rw [run_eq poly hw] at hh; cases hh
    refine ⟨objOf poly (specBits poly (specRun poly init hist).1 (bitsLE v)),
      specBits poly (specRun poly init hist).1 (bitsLE v), ?_, ?_, ?_⟩
    · rw [call_eq _ _ hw, hs]
    · rfl
    · have := C03_crc_residue poly (specRun poly init hist).1 v
      refine ⟨?_, this.2⟩
      rintro rfl
      exact this.1
  unfold feedSelf at ho
  split at ho
  · rename_i h; subst h; cases ho; exact main (by decide) (fun s => rfl)
  split at ho
  · rename_i h; subst h; cases ho; exact main (by decide) (fun s => rfl)
  split at ho
  · rename_i h; subst h; cases ho; exact main (by decide) (fun s => rfl)
  split at ho
  · rename_i h; subst h; cases ho; exact main (by decide) (fun s => rfl)
  · cases ho

example : ∃ o, feedSelf (0x1234#16) = some o := ⟨_, rfl⟩

/-- **C03** affinity: the register is xor-linear in (start value, message bits). -/
theorem C03_crc_xor_linear (poly s t : BitVec w) (a b : List Bool) (h : a.length = b.length) :
    specBits poly (s ^^^ t) (List.zipWith xor a b) = specBits poly s a ^^^ specBits poly t b := by
  simp only [← feed_eq_spec]
  exact feed_xor poly a b s t h

/-- The top-bit hypothesis of C02 and of the converse of C03 cannot be dropped: with an even
"polynomial" the step is not injective. -/
theorem C03_top_bit_needed : ∃ (poly s v : BitVec 8), poly.msb = false ∧ v ≠ s ∧
    specBits poly s (bitsLE v) = 0#8 := ⟨0x00#8, 0x00#8, 0x01#8, by decide⟩

end Verif.Crc
