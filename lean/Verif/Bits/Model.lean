import Verif.Core
/-
Model of bitman.hh and bitstream.hh.  Bytes are `BitVec 8`.
-/
namespace Verif.Bits

/-- A `bool` after integer promotion. -/
def boolI (v : Bool) : BitVec 32 := if v then 1#32 else 0#32

/-- C++ shift count check: a negative count, or one of at least the width of the promoted
type `int`, is UB. -/
def shCount (s : Int) : Option Nat := if 0 ≤ s ∧ s < 32 then some s.toNat else none

/-- bitman.hh:11-14.  `pos` is a C++ `int`: `/` and `%` truncate towards zero.  The compound
assignment computes in `int` and truncates to `uint8_t`. -/
def xorBe (buf : List (BitVec 8)) (pos : Int) (val : Bool) : Option (List (BitVec 8)) := do
  let sh ← shCount (7 - pos.tmod 8)
  let x ← rdZ buf (pos.tdiv 8)
  wrZ buf (pos.tdiv 8) ((x.setWidth 32 ^^^ (boolI val <<< sh)).setWidth 8)

/-- bitman.hh:16-19 -/
def xorLe (buf : List (BitVec 8)) (pos : Int) (val : Bool) : Option (List (BitVec 8)) := do
  let sh ← shCount (pos.tmod 8)
  let x ← rdZ buf (pos.tdiv 8)
  wrZ buf (pos.tdiv 8) ((x.setWidth 32 ^^^ (boolI val <<< sh)).setWidth 8)

/-- bitman.hh:21-24 -/
def setBe (buf : List (BitVec 8)) (pos : Int) (val : Bool) : Option (List (BitVec 8)) := do
  let sh ← shCount (7 - pos.tmod 8)
  let x ← rdZ buf (pos.tdiv 8)
  wrZ buf (pos.tdiv 8) (((~~~ (1#32 <<< sh) &&& x.setWidth 32) ||| (boolI val <<< sh)).setWidth 8)

/-- bitman.hh:26-29 -/
def setLe (buf : List (BitVec 8)) (pos : Int) (val : Bool) : Option (List (BitVec 8)) := do
  let sh ← shCount (pos.tmod 8)
  let x ← rdZ buf (pos.tdiv 8)
  wrZ buf (pos.tdiv 8) (((~~~ (1#32 <<< sh) &&& x.setWidth 32) ||| (boolI val <<< sh)).setWidth 8)

/-- bitman.hh:31-34 -/
def getBe (buf : List (BitVec 8)) (pos : Int) : Option Bool := do
  let sh ← shCount (7 - pos.tmod 8)
  let x ← rdZ buf (pos.tdiv 8)
  return ((x.setWidth 32 >>> sh) &&& 1#32) != 0#32

/-- bitman.hh:36-39 -/
def getLe (buf : List (BitVec 8)) (pos : Int) : Option Bool := do
  let sh ← shCount (pos.tmod 8)
  let x ← rdZ buf (pos.tdiv 8)
  return ((x.setWidth 32 >>> sh) &&& 1#32) != 0#32

/-! ### bitstream.hh

All intermediate results of the class are converted to `uint8_t` (or `TYPE`) before use, so
the promoted `int` arithmetic is rendered directly on `BitVec 8` (`BitVec W`): shifts, `~`,
`&`, `|` commute with truncation here because right shifts only apply to `uint8_t` values. -/

/-- bitstream.hh:11-19: the buffer and the position (a non-negative `int`).  The buffer
has `BYTES = (SIZE+7)/8` elements and starts uninitialised, i.e. arbitrary. -/
structure Stream where
  buf : List (BitVec 8)
  pos : Nat

/-- bitstream.hh:21-24 -/
def Stream.seek (s : Stream) (p : Nat) : Stream := { s with pos := p }

/-- bitstream.hh:25-28 -/
def Stream.tell (s : Stream) : Nat := s.pos

/-- bitstream.hh:33-38 -/
def Stream.reset (s : Stream) : Option Stream := do
  let buf ← forUp 0 s.buf.length s.buf fun i b => wr b i 0#8
  return { buf, pos := 0 }

/-- bitstream.hh:39-47 -/
def Stream.putbit (s : Stream) (b : Bool) : Option Stream := do
  let bit := s.pos % 8
  let byte := s.pos / 8
  let mask : BitVec 8 := 1#8 <<< bit
  let x ← rd s.buf byte
  let tmp := ~~~mask &&& x
  let buf ← wr s.buf byte (tmp ||| (if b then 1#8 else 0#8) <<< bit)
  return { buf, pos := s.pos + 1 }

/-- bitstream.hh:48-54 -/
def Stream.getbit (s : Stream) : Option (Stream × Bool) := do
  let bit := s.pos % 8
  let byte := s.pos / 8
  let x ← rd s.buf byte
  return ({ s with pos := s.pos + 1 }, ((x >>> bit) &&& 1#8) != 0#8)

/-- bitstream.hh:61-66 / 87-92: the unaligned store of one byte. -/
def putUnaligned (buf : List (BitVec 8)) (byte bit : Nat) (b : BitVec 8) :
    Option (List (BitVec 8)) := do
  let mask : BitVec 8 := (1#8 <<< bit) - 1#8
  let x ← rd buf byte
  let lsb := mask &&& x
  let buf ← wr buf byte (lsb ||| b <<< bit)
  let y ← rd buf (byte + 1)
  let msb := ~~~mask &&& y
  wr buf (byte + 1) (msb ||| b >>> (8 - bit))

/-- bitstream.hh:55-69 -/
def Stream.putbyte (s : Stream) (b : BitVec 8) : Option Stream := do
  let bit := s.pos % 8
  let byte := s.pos / 8
  let buf ← (if bit ≠ 0 then putUnaligned s.buf byte bit b else wr s.buf byte b)
  return { buf, pos := s.pos + 8 }

/-- bitstream.hh:77-79 / 104-106: the unaligned load of one byte. -/
def getUnaligned (buf : List (BitVec 8)) (byte bit : Nat) : Option (BitVec 8) := do
  let x ← rd buf byte
  let lsb := x >>> bit
  let y ← rd buf (byte + 1)
  let msb := y <<< (8 - bit)
  return msb ||| lsb

/-- bitstream.hh:70-81 -/
def Stream.getbyte (s : Stream) : Option (Stream × BitVec 8) := do
  let bit := s.pos % 8
  let byte := s.pos / 8
  let r ← (if bit ≠ 0 then getUnaligned s.buf byte bit else rd s.buf byte)
  return ({ s with pos := s.pos + 8 }, r)

/-- bitstream.hh:82-99; `byte` advances by one per iteration, so it is `s.pos/8 + i`. -/
def Stream.writebytes (s : Stream) (src : List (BitVec 8)) (len : Nat) : Option Stream := do
  let bit := s.pos % 8
  let byte := s.pos / 8
  let buf ← (if bit ≠ 0 then
      forUp 0 len s.buf fun i buf => do
        let v ← rd src i
        putUnaligned buf (byte + i) bit v
    else
      forUp 0 len s.buf fun i buf => do
        let v ← rd src i
        wr buf (byte + i) v)
  return { buf, pos := s.pos + 8 * len }

/-- bitstream.hh:100-115 -/
def Stream.readbytes (s : Stream) (dst : List (BitVec 8)) (len : Nat) :
    Option (Stream × List (BitVec 8)) := do
  let bit := s.pos % 8
  let byte := s.pos / 8
  let dst ← (if bit ≠ 0 then
      forUp 0 len dst fun i dst => do
        let v ← getUnaligned s.buf (byte + i) bit
        wr dst i v
    else
      forUp 0 len dst fun i dst => do
        let v ← rd s.buf (byte + i)
        wr dst i v)
  return ({ s with pos := s.pos + 8 * len }, dst)

/-- bitstream.hh:116-131 `writebits<TYPE>`, `TYPE` an unsigned type of `W` bits.  The loop runs
until `num` is zero; each iteration consumes `copy ≥ 1`, so recursion with fuel `num` is
exact.  A shift count of at least the promoted width is UB. -/
def writebitsLoop {W : Nat} (b : BitVec W) : Nat → Stream → Nat → Nat → Option Stream
  | 0, s, num, _ => if num = 0 then some s else none
  | fuel + 1, s, num, sum =>
    if num = 0 then some s else do
      let bit := s.pos % 8
      let byte := s.pos / 8
      let copy := min (8 - bit) num
      let mask : BitVec 8 := (1#8 <<< copy) - 1#8
      assertUB (sum < max W 32)
      let src : BitVec 8 := (mask &&& (b >>> sum).setWidth 8) <<< bit
      let x ← rd s.buf byte
      let dst := ~~~(mask <<< bit) &&& x
      let buf ← wr s.buf byte (dst ||| src)
      writebitsLoop b fuel { buf, pos := s.pos + copy } (num - copy) (sum + copy)

/-- bitstream.hh:116-131 -/
def Stream.writebits {W : Nat} (s : Stream) (b : BitVec W) (num : Nat) : Option Stream :=
  writebitsLoop b num s num 0

/-- bitstream.hh:132-148 `readbits<TYPE>` -/
def readbitsLoop {W : Nat} : Nat → Stream → BitVec W → Nat → Nat → Option (Stream × BitVec W)
  | 0, s, a, num, _ => if num = 0 then some (s, a) else none
  | fuel + 1, s, a, num, sum =>
    if num = 0 then some (s, a) else do
      let bit := s.pos % 8
      let byte := s.pos / 8
      let copy := min (8 - bit) num
      let mask : BitVec 8 := (1#8 <<< copy) - 1#8
      let x ← rd s.buf byte
      let tmp : BitVec W := (mask &&& (x >>> bit)).setWidth W
      assertUB (sum < max W 32)
      readbitsLoop fuel { s with pos := s.pos + copy } (a ||| tmp <<< sum) (num - copy) (sum + copy)

/-- bitstream.hh:132-148 -/
def Stream.readbits (W : Nat) (s : Stream) (num : Nat) : Option (Stream × BitVec W) :=
  readbitsLoop num s 0#W num 0

end Verif.Bits
