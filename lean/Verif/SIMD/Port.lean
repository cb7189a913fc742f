import Verif.SIMD.Reg
/- Model of the portable templates of simd.hh: what each of them computes for one lane.  `int8_t` .. `uint64_t` are bit patterns, read
as signed numbers by `toInt` and as unsigned ones by `toNat`.  An `int` result stored in a lane is reduced modulo `2^w`.  Where a signed
32 or 64 bit operation overflows, C++ leaves the result undefined; here it wraps.

`float` and `double` are IEEE 754 bit patterns.  Comparison is modelled on the patterns; the arithmetic operations are parameters. -/
namespace Verif.SIMD

/-- `-(cond)` as unsigned number: all ones or zero. -/
def mask (w : Nat) (c : Bool) : BitVec w := if c then BitVec.allOnes w else 0

/-- `(v > 0) - (v < 0)` -/
def sgnOf (v : Int) : Int := (if v > 0 then 1 else 0) - (if v < 0 then 1 else 0)

namespace P
variable {w : Nat}

/-- simd.hh:247-281 `vneg` on signed integers -/
def vneg (a : BitVec w) : BitVec w := BitVec.ofInt w (-a.toInt)
/-- simd.hh:283-290 `vabs` on signed integers -/
def vabs (a : BitVec w) : BitVec w := BitVec.ofInt w |a.toInt|
/-- simd.hh:292-326 `vqabs`: `std::abs(std::max(a, -MAX))` -/
def vqabs (a : BitVec w) : BitVec w := BitVec.ofInt w |max a.toInt (-(2 ^ (w - 1) - 1))|
/-- simd.hh:328-362 `vnot` -/
def vnot (a : BitVec w) : BitVec w := ~~~ a
/-- simd.hh:364-398 `vorr` -/
def vorr (a b : BitVec w) : BitVec w := a ||| b
/-- simd.hh:400-434 `vand` -/
def vand (a b : BitVec w) : BitVec w := a &&& b
/-- simd.hh:436-470 `veor` -/
def veor (a b : BitVec w) : BitVec w := a ^^^ b
/-- simd.hh:472-506 `vbic` -/
def vbic (a b : BitVec w) : BitVec w := a &&& ~~~ b
/-- simd.hh:508-542 `vbsl` -/
def vbsl (a b c : BitVec w) : BitVec w := (a &&& b) ||| (~~~ a &&& c)
/-- simd.hh:562-596 `vcgtz` on signed integers -/
def vcgtz (a : BitVec w) : BitVec w := mask w (decide (a.toInt > 0))
/-- simd.hh:616-650 `vceqz` on signed integers -/
def vceqz (a : BitVec w) : BitVec w := mask w (decide (a.toInt = 0))
/-- simd.hh:670-704 `vcltz` on signed integers -/
def vcltz (a : BitVec w) : BitVec w := mask w (decide (a.toInt < 0))
/-- simd.hh:724-758 `vclez` on signed integers -/
def vclez (a : BitVec w) : BitVec w := mask w (decide (a.toInt ≤ 0))
/-- simd.hh:868-902 `vceq` on signed integers -/
def vceq (a b : BitVec w) : BitVec w := mask w (decide (a.toInt = b.toInt))
/-- simd.hh:922-956 `vmin` on signed integers: `std::min(a, b)` -/
def vmin (a b : BitVec w) : BitVec w := if b.toInt < a.toInt then b else a
/-- simd.hh:976-1010 `vmax` on signed integers: `std::max(a, b)` -/
def vmax (a b : BitVec w) : BitVec w := if a.toInt < b.toInt then b else a
/-- simd.hh:1030-1064 `vclamp` on signed integers -/
def vclamp (x a b : BitVec w) : BitVec w := vmin (vmax x a) b
/-- simd.hh:1084-1118 `vadd` on signed integers -/
def vadd (a b : BitVec w) : BitVec w := BitVec.ofInt w (a.toInt + b.toInt)
/-- simd.hh:1120-1136 `vqadd` -/
def vqadd (a b : BitVec w) : BitVec w := BitVec.ofInt w (min (max (a.toInt + b.toInt) (-2 ^ (w - 1))) (2 ^ (w - 1) - 1))
/-- simd.hh:1156-1190 `vsub` on signed integers -/
def vsub (a b : BitVec w) : BitVec w := BitVec.ofInt w (a.toInt - b.toInt)
/-- simd.hh:1192-1208 `vqsub` on signed integers -/
def vqsub (a b : BitVec w) : BitVec w := BitVec.ofInt w (min (max (a.toInt - b.toInt) (-2 ^ (w - 1))) (2 ^ (w - 1) - 1))
/-- simd.hh:1210-1226 `vqsub` on unsigned integers -/
def vqsubU (a b : BitVec w) : BitVec w := BitVec.ofInt w (max ((a.toNat : Int) - (b.toNat : Int)) 0)
/-- simd.hh:1246-1280 `vmul` on signed integers -/
def vmul (a b : BitVec w) : BitVec w := BitVec.ofInt w (a.toInt * b.toInt)
/-- simd.hh:1300-1334 `vsignum` on signed integers -/
def vsignum (a : BitVec w) : BitVec w := BitVec.ofInt w (sgnOf a.toInt)
/-- simd.hh:1354-1388 `vsign` on signed integers -/
def vsign (a b : BitVec w) : BitVec w := BitVec.ofInt w (sgnOf b.toInt * a.toInt)
/-- simd.hh:1408-1496 `vshuf`: lane `k`, where `a` and `b` give the lanes of the operands and `n` is their number. -/
def vshuf {u : Nat} (n : Nat) (a : Nat → BitVec w) (b : Nat → BitVec u) (k : Nat) : BitVec w :=
  if (b k).toNat < n then a (b k).toNat else 0

end P

/-- An IEEE 754 binary format with `w` bits: the patterns of `1.0` and of infinity. -/
structure Fmt (w : Nat) where
  one : BitVec w
  inf : BitVec w

/-- `float` -/
def f32 : Fmt 32 := ⟨0x3f800000#32, 0x7f800000#32⟩
/-- `double` -/
def f64 : Fmt 64 := ⟨0x3ff0000000000000#64, 0x7ff0000000000000#64⟩

/-- `-0.0`: only the sign bit is set. -/
def negz (w : Nat) : BitVec w := BitVec.twoPow w (w - 1)

namespace Fmt
variable {w : Nat} (F : Fmt w)

/-- The pattern without the sign bit, as a number; it grows with the magnitude of the float. -/
def mag (a : BitVec w) : Nat := (a &&& ~~~ negz w).toNat
/-- Not a number. -/
def nan (a : BitVec w) : Prop := F.inf.toNat < mag a
/-- A finite number. -/
def finite (a : BitVec w) : Prop := mag a < F.inf.toNat
instance (a : BitVec w) : Decidable (F.nan a) := inferInstanceAs (Decidable (_ < _))
instance (a : BitVec w) : Decidable (F.finite a) := inferInstanceAs (Decidable (_ < _))
/-- An integer that orders the floats like their values; both zeros have key 0. -/
def key (a : BitVec w) : Int := if a.msb then -(mag a : Int) else mag a
/-- `a == b` -/
def feq (a b : BitVec w) : Prop := ¬ F.nan a ∧ ¬ F.nan b ∧ key a = key b
/-- `a < b` -/
def flt (a b : BitVec w) : Prop := ¬ F.nan a ∧ ¬ F.nan b ∧ key a < key b
/-- `a <= b` -/
def fle (a b : BitVec w) : Prop := ¬ F.nan a ∧ ¬ F.nan b ∧ key a ≤ key b
instance (a b : BitVec w) : Decidable (F.feq a b) := inferInstanceAs (Decidable (_ ∧ _))
instance (a b : BitVec w) : Decidable (F.flt a b) := inferInstanceAs (Decidable (_ ∧ _))
instance (a b : BitVec w) : Decidable (F.fle a b) := inferInstanceAs (Decidable (_ ∧ _))

/-- The float of an `int` that is -1, 0 or 1. -/
def ofSgn (x : Int) : BitVec w := if x > 0 then F.one else if x < 0 then F.one ^^^ negz w else 0

/-- simd.hh:229-245 `vneg` on floats -/
def vneg (a : BitVec w) : BitVec w := a ^^^ negz w
/-- simd.hh:283-290 `vabs` on floats -/
def vabs (a : BitVec w) : BitVec w := a &&& ~~~ negz w
/-- simd.hh:544-560 `vcgtz` on floats -/
def vcgtz (a : BitVec w) : BitVec w := mask w (decide (F.flt 0 a))
/-- simd.hh:598-614 `vceqz` on floats -/
def vceqz (a : BitVec w) : BitVec w := mask w (decide (F.feq a 0))
/-- simd.hh:652-668 `vcltz` on floats -/
def vcltz (a : BitVec w) : BitVec w := mask w (decide (F.flt a 0))
/-- simd.hh:706-722 `vclez` on floats -/
def vclez (a : BitVec w) : BitVec w := mask w (decide (F.fle a 0))
/-- simd.hh:850-866 `vceq` on floats -/
def vceq (a b : BitVec w) : BitVec w := mask w (decide (F.feq a b))
/-- simd.hh:904-920 `vmin` on floats: `std::min(a, b)` is `b < a ? b : a` -/
def vmin (a b : BitVec w) : BitVec w := if F.flt b a then b else a
/-- simd.hh:958-974 `vmax` on floats: `std::max(a, b)` is `a < b ? b : a` -/
def vmax (a b : BitVec w) : BitVec w := if F.flt a b then b else a
/-- simd.hh:1012-1028 `vclamp` on floats -/
def vclamp (x a b : BitVec w) : BitVec w := F.vmin (F.vmax x a) b
/-- `(a > 0) - (a < 0)` -/
def fsgn (a : BitVec w) : Int := (if F.flt 0 a then 1 else 0) - (if F.flt a 0 then 1 else 0)
/-- simd.hh:1282-1298 `vsignum` on floats -/
def vsignum (a : BitVec w) : BitVec w := F.ofSgn (F.fsgn a)
/-- simd.hh:1336-1352 `vsign` on floats, for the multiplication `mul` -/
def vsign (mul : BitVec w → BitVec w → BitVec w) (a b : BitVec w) : BitVec w := mul (F.ofSgn (F.fsgn b)) a
/-- simd.hh:1390-1406 `vcopysign` -/
def vcopysign (a b : BitVec w) : BitVec w := (a &&& ~~~ negz w) ||| (negz w &&& b)

/-- The same value: the same pattern, or two zeros. -/
def same (a b : BitVec w) : Prop := a = b ∨ (mag a = 0 ∧ mag b = 0)

/-- What IEEE 754 says about multiplication by 1, -1 and 0. -/
structure MulLaws (mul : BitVec w → BitVec w → BitVec w) : Prop where
  one : ∀ a, ¬ F.nan a → mul F.one a = a
  neg : ∀ a, ¬ F.nan a → mul (F.one ^^^ negz w) a = a ^^^ negz w
  zero : ∀ a, F.finite a → mag (mul 0 a) = 0

end Fmt

end Verif.SIMD
