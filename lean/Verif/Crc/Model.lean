import Verif.Core
/-
Model of crc.hh.  `TYPE` is an unsigned integer type of `w` bits, values are `BitVec w`.
Integer promotion to `int` followed by conversion back to `TYPE` is arithmetic modulo 2^w.
-/
namespace Verif.Crc

variable {w : Nat}

/-- crc.hh:17-21 `update(TYPE prev, bool data)`. -/
def update (poly prev : BitVec w) (data : Bool) : BitVec w :=
  let tmp := prev ^^^ (if data then 1#w else 0#w)
  (prev >>> 1) ^^^ ((tmp &&& 1#w) * poly)

/-- State of a `CRC<TYPE>` object, crc.hh:14-16. -/
structure CRC (w : Nat) where
  lut : List (BitVec w)
  poly : BitVec w
  crc : BitVec w

/-- crc.hh:26-28: eight zero-bit updates of the table index. -/
def lutEntry (poly : BitVec w) (j : Nat) : Option (BitVec w) :=
  forUp 0 8 (BitVec.ofNat w j) fun _ t => some (update poly t false)

/-- crc.hh:23-31 constructor (the 256-entry table is filled by the `j` loop; the array
starts uninitialised, here filled with zeros). -/
def CRC.new (poly : BitVec w) (crc : BitVec w := 0#w) : Option (CRC w) := do
  let lut ← forUp 0 256 (List.replicate 256 (0#w)) fun j lut => do
    let t ← lutEntry poly j
    wr lut j t
  return { lut, poly, crc }

/-- crc.hh:32-35 -/
def CRC.reset (c : CRC w) (v : BitVec w := 0#w) : CRC w := { c with crc := v }

/-- crc.hh:36-39 `operator()()` -/
def CRC.value (c : CRC w) : BitVec w := c.crc

/-- crc.hh:40-43 `operator()(bool)`: new object and returned value. -/
def CRC.bit (c : CRC w) (data : Bool) : CRC w × BitVec w :=
  let r := update c.poly c.crc data
  ({ c with crc := r }, r)

/-- crc.hh:44-48 generic `operator()(uint8_t)`. -/
def CRC.byteGeneric (c : CRC w) (data : BitVec 8) : Option (CRC w × BitVec w) := do
  let tmp := c.crc ^^^ data.setWidth w
  let e ← rd c.lut (tmp &&& 255#w).toNat
  let r := (c.crc >>> 8) ^^^ e
  return ({ c with crc := r }, r)

/-- crc.hh:78-82 specialisation `CRC<uint8_t>::operator()(uint8_t)`. -/
def CRC.byte8 (c : CRC 8) (data : BitVec 8) : Option (CRC 8 × BitVec 8) := do
  let r ← rd c.lut (c.crc ^^^ data).toNat
  return ({ c with crc := r }, r)

/-- Overload resolution: the specialisation is used for `TYPE = uint8_t` only. -/
def CRC.byte (c : CRC w) (data : BitVec 8) : Option (CRC w × BitVec w) :=
  if h : w = 8 then
    match (CRC.byte8 (h ▸ c) data) with
    | none => none
    | some (c', r) => some (h ▸ c', h ▸ r)
  else c.byteGeneric data

/-- One call of the byte overload whose returned value is discarded. -/
def CRC.byte_ (c : CRC w) (data : BitVec 8) : Option (CRC w) := (c.byte data).map Prod.fst

/-- crc.hh:50-55 `operator()(uint16_t)` -/
def CRC.word16 (c : CRC w) (data : BitVec 16) : Option (CRC w × BitVec w) := do
  let c ← c.byte_ ((data &&& 255#16).setWidth 8)
  let c ← c.byte_ (((data >>> 8) &&& 255#16).setWidth 8)
  return (c, c.crc)

/-- crc.hh:56-63 `operator()(uint32_t)` -/
def CRC.word32 (c : CRC w) (data : BitVec 32) : Option (CRC w × BitVec w) := do
  let c ← c.byte_ ((data &&& 255#32).setWidth 8)
  let c ← c.byte_ (((data >>> 8) &&& 255#32).setWidth 8)
  let c ← c.byte_ (((data >>> 16) &&& 255#32).setWidth 8)
  let c ← c.byte_ (((data >>> 24) &&& 255#32).setWidth 8)
  return (c, c.crc)

/-- crc.hh:64-75 `operator()(uint64_t)` -/
def CRC.word64 (c : CRC w) (data : BitVec 64) : Option (CRC w × BitVec w) := do
  let c ← c.byte_ ((data &&& 255#64).setWidth 8)
  let c ← c.byte_ (((data >>> 8) &&& 255#64).setWidth 8)
  let c ← c.byte_ (((data >>> 16) &&& 255#64).setWidth 8)
  let c ← c.byte_ (((data >>> 24) &&& 255#64).setWidth 8)
  let c ← c.byte_ (((data >>> 32) &&& 255#64).setWidth 8)
  let c ← c.byte_ (((data >>> 40) &&& 255#64).setWidth 8)
  let c ← c.byte_ (((data >>> 48) &&& 255#64).setWidth 8)
  let c ← c.byte_ (((data >>> 56) &&& 255#64).setWidth 8)
  return (c, c.crc)

end Verif.Crc
