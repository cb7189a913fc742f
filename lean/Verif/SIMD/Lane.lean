import Verif.SIMD.Port
/- What one lane of the vector instructions computes (Intel Intrinsics Guide; Arm Neon Intrinsics Reference).  Trusted. -/
namespace Verif.SIMD
namespace I
variable {w : Nat}

/-- Signed saturation. -/
def satS (w : Nat) (x : Int) : BitVec w :=
  if x > 2 ^ (w - 1) - 1 then BitVec.ofInt w (2 ^ (w - 1) - 1) else if x < -2 ^ (w - 1) then BitVec.ofInt w (-2 ^ (w - 1))
  else BitVec.ofInt w x
/-- PADDS, SQADD -/
def adds (a b : BitVec w) : BitVec w := satS w (a.toInt + b.toInt)
/-- PSUBS, SQSUB -/
def subs (a b : BitVec w) : BitVec w := satS w (a.toInt - b.toInt)
/-- PSUBUS, UQSUB -/
def subus (a b : BitVec w) : BitVec w := if a.toNat < b.toNat then 0 else a - b
/-- PABS: the most negative number stays as it is. -/
def abs (a : BitVec w) : BitVec w := if a.toInt < 0 then -a else a
/-- SQABS -/
def qabs (a : BitVec w) : BitVec w := if a.toInt < 0 then satS w (-a.toInt) else a
/-- PMAXS, SMAX -/
def smax (a b : BitVec w) : BitVec w := if a.toInt > b.toInt then a else b
/-- PMINS, SMIN -/
def smin (a b : BitVec w) : BitVec w := if a.toInt < b.toInt then a else b
/-- PSIGN -/
def sign (a b : BitVec w) : BitVec w := if b.toInt < 0 then -a else if b = 0 then 0 else a
/-- PCMPEQ, CMEQ -/
def cmpeq (a b : BitVec w) : BitVec w := if a = b then BitVec.allOnes w else 0
/-- PCMPGT, CMGT -/
def cmpgt (a b : BitVec w) : BitVec w := if a.toInt > b.toInt then BitVec.allOnes w else 0
/-- CMGT with swapped operands -/
def cmplt (a b : BitVec w) : BitVec w := if a.toInt < b.toInt then BitVec.allOnes w else 0
/-- CMGE with swapped operands -/
def cmple (a b : BitVec w) : BitVec w := if a.toInt ≤ b.toInt then BitVec.allOnes w else 0

/-- CMPPS/CMPPD with predicate EQ_OQ, FCMEQ -/
def fcmpeq (F : Fmt w) (a b : BitVec w) : BitVec w := if F.feq a b then BitVec.allOnes w else 0
/-- CMPPS/CMPPD with predicate LT_OS or LT_OQ, FCMGT with swapped operands -/
def fcmplt (F : Fmt w) (a b : BitVec w) : BitVec w := if F.flt a b then BitVec.allOnes w else 0
/-- CMPPS/CMPPD with predicate LE_OS or LE_OQ, FCMGE with swapped operands -/
def fcmple (F : Fmt w) (a b : BitVec w) : BitVec w := if F.fle a b then BitVec.allOnes w else 0
/-- CMPPS/CMPPD with predicate GT_OQ (or LT with swapped operands), FCMGT -/
def fcmpgt (F : Fmt w) (a b : BitVec w) : BitVec w := if F.flt b a then BitVec.allOnes w else 0
/-- MINPS/MINPD: the second operand unless the first one is smaller. -/
def fminX (F : Fmt w) (a b : BitVec w) : BitVec w := if F.flt a b then a else b
/-- MAXPS/MAXPD: the second operand unless the first one is greater. -/
def fmaxX (F : Fmt w) (a b : BitVec w) : BitVec w := if F.flt b a then a else b
/-- FMIN: a NaN if an operand is one (which one is simplified here), and `-0 < +0`. -/
def fminN (F : Fmt w) (a b : BitVec w) : BitVec w :=
  if F.nan a then a else if F.nan b then b else if Fmt.key a < Fmt.key b then a else if Fmt.key b < Fmt.key a then b else a ||| b
/-- FMAX: a NaN if an operand is one (which one is simplified here), and `-0 < +0`. -/
def fmaxN (F : Fmt w) (a b : BitVec w) : BitVec w :=
  if F.nan a then a else if F.nan b then b else if Fmt.key a < Fmt.key b then b else if Fmt.key b < Fmt.key a then a else a &&& b

end I

/-- The arithmetic of a floating-point unit in its current mode: the same in scalar and vector instructions. -/
structure Fpu (w : Nat) where
  add : BitVec w → BitVec w → BitVec w
  sub : BitVec w → BitVec w → BitVec w
  mul : BitVec w → BitVec w → BitVec w

/-- PSHUFB on the bytes of each group of 16. -/
def pshufb (N : Nat) (a b : BitVec N) : BitVec N :=
  ofLanes N 8 fun i => if (lane 8 b i).msb then 0 else lane 8 a (i / 16 * 16 + (lane 8 b i).toNat % 16)

/-- TBL with one register of 16 bytes. -/
def tbl1 (a b : BitVec 128) : BitVec 128 :=
  ofLanes 128 8 fun i => if (lane 8 b i).toNat < 16 then lane 8 a (lane 8 b i).toNat else 0

/-- VTBL with two registers of 8 bytes. -/
def tbl2 (c : BitVec 64 × BitVec 64) (b : BitVec 64) : BitVec 64 :=
  ofLanes 64 8 fun i => if (lane 8 b i).toNat < 8 then lane 8 c.1 (lane 8 b i).toNat else
    if (lane 8 b i).toNat < 16 then lane 8 c.2 ((lane 8 b i).toNat - 8) else 0

end Verif.SIMD
