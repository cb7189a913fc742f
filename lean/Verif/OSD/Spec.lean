import Verif.BCH.Spec
import Mathlib.Algebra.BigOperators.Group.Finset.Basic
import Mathlib.Data.ZMod.Basic
/- Specification used by C45-C47: binary linear codes given by a generator matrix, soft values, the
most reliable basis and the codewords within a given distance on it.  Nothing here refers to the model
of the encoder and the decoders. -/
namespace Verif.OSD
open Finset

/-- Entry of a `K` times `N` matrix stored row by row, one entry 0 or 1 per byte. -/
def entry (N : Nat) (genmat : List (BitVec 8)) (j p : Nat) : ZMod 2 :=
  if genmat.getD (N * j + p) 0 = 0#8 then 0 else 1

/-- The bits of a byte array, as elements of GF(2). -/
def bitsZ (buf : List (BitVec 8)) (p : Nat) : ZMod 2 := Verif.BCH.b2 (Verif.BCH.beBit buf p)

/-- `c` is a codeword: some combination of the `K` rows of `g` (on the positions `0 .. N-1`). -/
def InCode (K N : Nat) (g : Nat → Nat → ZMod 2) (c : Nat → ZMod 2) : Prop :=
  ∃ m : Nat → ZMod 2, ∀ p, p < N → c p = ∑ j ∈ range K, m j * g j p

/-- The rows are linearly independent. -/
def FullRank (K N : Nat) (g : Nat → Nat → ZMod 2) : Prop :=
  ∀ m : Nat → ZMod 2, (∀ p, p < N → ∑ j ∈ range K, m j * g j p = 0) → ∀ j, j < K → m j = 0

/-- The soft value of position `p`; -128 counts as -127. -/
def val (soft : List (BitVec 8)) (p : Nat) : Int := max (soft.getD p 0).toInt (-127)

/-- The hard decision: 1 if the soft value is negative. -/
def hardBit (soft : List (BitVec 8)) (p : Nat) : ZMod 2 := if val soft p < 0 then 1 else 0

/-- Position `q` is more reliable than `p`: larger magnitude, the smaller index first among equals. -/
def Before (soft : List (BitVec 8)) (q p : Nat) : Prop :=
  |val soft p| < |val soft q| ∨ (|val soft p| = |val soft q| ∧ q < p)

/-- The most reliable basis: the positions that are not determined by the more reliable ones, i.e.
where a codeword that is zero at all more reliable positions is not zero. -/
def Basis (K N : Nat) (g : Nat → Nat → ZMod 2) (soft : List (BitVec 8)) (p : Nat) : Prop :=
  p < N ∧ ∃ c, InCode K N g c ∧ c p = 1 ∧ ∀ q, q < N → Before soft q p → c q = 0

open Classical in
/-- Number of basis positions where `c` differs from the hard decisions. -/
noncomputable def dist (K N : Nat) (g : Nat → Nat → ZMod 2) (soft : List (BitVec 8)) (c : Nat → ZMod 2) : Nat :=
  ((range N).filter fun p => Basis K N g soft p ∧ c p ≠ hardBit soft p).card

/-- The codewords a decoder of order `O` has to look at: at most `O` (and at most six) differences
from the hard decisions on the most reliable basis. -/
def Tested (K N O : Nat) (g : Nat → Nat → ZMod 2) (soft : List (BitVec 8)) (c : Nat → ZMod 2) : Prop :=
  InCode K N g c ∧ dist K N g soft c ≤ min O 6

/-- Correlation of a word with the soft values: 0 counts as +1 and 1 as -1. -/
def corr (N : Nat) (soft : List (BitVec 8)) (c : Nat → ZMod 2) : Int :=
  ∑ p ∈ range N, (if c p = 0 then val soft p else - val soft p)

/-- The same word on the positions `0 .. N-1`. -/
def Agree (N : Nat) (c d : Nat → ZMod 2) : Prop := ∀ p, p < N → c p = d p

end Verif.OSD
