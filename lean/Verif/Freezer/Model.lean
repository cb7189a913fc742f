import Verif.Core
import Mathlib.Logic.Basic
/- Model of polar_freezer.hh and polar_sequence.hh.

The arithmetic on `double` is a parameter: any type with a product, a difference, the constant 2 and a comparison.  So what is
proved for every such parameter holds for IEEE doubles, including infinities and NaN.  The library functions
`std::nth_element` and `std::sort` are parameters too; what the C++ standard promises about them appears as a hypothesis. -/
namespace Verif.Freezer

/-- The operations on `double` that the freezers use. -/
structure DOps (D : Type) where
  mul : D → D → D
  sub : D → D → D
  two : D
  lt : D → D → Bool

variable {D : Type}

/-- `pe * (2-pe)` in polar_freezer.hh:27, 59, polar_sequence.hh:19 -/
def DOps.worse (o : DOps D) (pe : D) : D := o.mul pe (o.sub o.two pe)
/-- `pe * pe` in polar_freezer.hh:28, 60, polar_sequence.hh:20 -/
def DOps.better (o : DOps D) (pe : D) : D := o.mul pe pe

/-- `~(1 << (idx%32))` as a `uint32_t` (for `idx%32 == 31` this relies on the usual two's complement conversion). -/
def clearMask (k : Nat) : Nat := (2 ^ 32 - 1) ^^^ (1 <<< k)

/-- polar_freezer.hh:19-23 `set_bit` -/
def setBit (bits : List Nat) (idx : Nat) (val : Bool) : Option (List Nat) := do
  let w ← rd bits (idx / 32)
  let bits ← wr bits (idx / 32) (w &&& clearMask (idx % 32))
  let w ← rd bits (idx / 32)
  wr bits (idx / 32) (w ||| ((if val then 1 else 0) <<< (idx % 32)))

/-- polar_freezer.hh:24-32 `freeze` -/
def freeze (o : DOps D) (bits : List Nat) (pe th : D) (i h : Nat) : Option (List Nat) :=
  if h ≠ 0 then do
    let bits ← freeze o bits (o.worse pe) th i (h / 2)
    freeze o bits (o.better pe) th (i + h) (h / 2)
  else setBit bits i (o.lt th pe)
termination_by h

/-- polar_freezer.hh:34-42 `PolarFreezer::operator()`; the result is the buffer and `K`. -/
def freezer (o : DOps D) (frozen_bits : List Nat) (level : Nat) (pe th : D) : Option (List Nat × Int) := do
  let length := 1 <<< level
  let bits ← freeze o frozen_bits pe th 0 (length / 2)
  let K ← forUp 0 length (length : Int) fun i K => do
    let w ← rd bits (i / 32)
    return K - (((w >>> (i % 32)) &&& 1 : Nat) : Int)
  return (bits, K)

/-- polar_freezer.hh:56-64, polar_sequence.hh:16-24 `compute` -/
def compute (o : DOps D) (prob : List D) (pe : D) (i h : Nat) : Option (List D) :=
  if h ≠ 0 then do
    let prob ← compute o prob (o.worse pe) i (h / 2)
    compute o prob (o.better pe) (i + h) (h / 2)
  else wr prob i pe
termination_by h

/-- polar_freezer.hh:48-51 `inform_bit` -/
def informBit (bits : List Nat) (idx : Nat) : Option (List Nat) := do
  let w ← rd bits (idx / 32)
  wr bits (idx / 32) (w &&& clearMask (idx % 32))

/-- polar_freezer.hh:52-55 `frozen_bit` -/
def frozenBit (bits : List Nat) (idx : Nat) : Option (List Nat) := do
  let w ← rd bits (idx / 32)
  wr bits (idx / 32) (w ||| (1 <<< (idx % 32)))

/-- polar_freezer.hh:68-80 `PolarCodeConst0<MAX_M>::operator()`; the members `prob` and `index` are passed in with any contents.
`nth cmp K l` is what `std::nth_element` with the comparison `cmp` makes of the first `length` elements of `index`. -/
def const0 (o : DOps D) (nth : (Nat → Nat → Option Bool) → Nat → List Nat → Option (List Nat)) (MAX_M : Nat) (prob : List D) (index : List Nat)
    (frozen_bits : List Nat) (level K : Nat) (pe : D) : Option (List Nat) := do
  assertUB (level ≤ MAX_M)
  let length := 1 <<< level
  let prob ← compute o prob pe 0 (length / 2)
  let index ← forUp 0 length index fun i index => wr index i i
  let cmp (a b : Nat) : Option Bool := do
    let x ← rd prob a
    let y ← rd prob b
    return o.lt x y
  let l ← nth cmp K (index.take length)
  let index := l ++ index.drop length
  let bits ← forUp 0 K frozen_bits fun i bits => do
    let j ← rd index i
    informBit bits j
  forUp K length bits fun i bits => do
    let j ← rd index i
    frozenBit bits j

/-- polar_sequence.hh:28-36 `PolarSeqConst0<MAX_M>::operator()`; the member `prob` is passed in with any contents.  `sort cmp l` is
what `std::sort` with the comparison `cmp` makes of the first `length` elements of `sequence`. -/
def seqConst0 (o : DOps D) (sort : (Nat → Nat → Option Bool) → List Nat → Option (List Nat)) (MAX_M : Nat) (prob : List D)
    (sequence : List Nat) (level : Nat) (pe : D) : Option (List Nat) := do
  assertUB (level ≤ MAX_M)
  let length := 1 <<< level
  let prob ← compute o prob pe 0 (length / 2)
  let sequence ← forUp 0 length sequence fun i sequence => wr sequence i i
  let cmp (a b : Nat) : Option Bool := do
    let x ← rd prob a
    let y ← rd prob b
    return o.lt y x
  let l ← sort cmp (sequence.take length)
  return l ++ sequence.drop length

end Verif.Freezer
