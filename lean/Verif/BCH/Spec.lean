import Verif.GF2.NatPoly
import Verif.RS.Spec
/- Specification used by C27-C29: binary polynomials of bit strings.  Nothing here refers to the
model of the encoders or decoders. -/
namespace Verif.BCH
open Polynomial Finset Verif.GF2

/-- The element of GF(2) of a bit. -/
def b2 (b : Bool) : ZMod 2 := if b then 1 else 0

/-- Bit `i` of a byte array, most significant bit of the first byte first. -/
def beBit (buf : List (BitVec 8)) (i : Nat) : Bool := (buf.getD (i / 8) 0).getLsbD (7 - i % 8)

/-- The first `n` values of a function. -/
def bitsOf (f : Nat → Bool) (n : Nat) : List Bool := (List.range n).map f

/-- The polynomial of a bit string, first bit = highest coefficient. -/
noncomputable def bitPoly (bs : List Bool) : (ZMod 2)[X] :=
  ∑ j ∈ range bs.length, C (b2 (bs.getD j false)) * X ^ (bs.length - 1 - j)

/-- The product of the given polynomials (numbers whose bits are the coefficients). -/
noncomputable def genPoly (polys : List Nat) : (ZMod 2)[X] := (polys.map natPoly).prod

/-- A block of packed bits: `dl` data bits and `NP` parity bits. -/
def bits (data parity : List (BitVec 8)) (dl NP : Nat) : List Bool :=
  bitsOf (beBit data) dl ++ bitsOf (beBit parity) NP

/-- A bit string as a block of field elements 0 and 1. -/
def syms (bs : List Bool) : List Nat := bs.map Bool.toNat

end Verif.BCH
