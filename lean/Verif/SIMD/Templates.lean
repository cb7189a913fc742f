import Verif.Core
import Verif.SIMD.Lane
/- Model of the portable function templates of simd.hh with their loops: a value of type `SIMD<TYPE, WIDTH>` is the list of the bit patterns in
`v`, `tmp` is what the uninitialised local variable holds.  Signed arithmetic is that of the promoted type, where an overflow is undefined. -/
namespace Verif.SIMD.T
variable {w u W : Nat}

/-- The number of bits in which C++ computes with integers of `w` bits: those of `int` (32) for the smaller ones. -/
def promoted (w : Nat) : Nat := max w 32

/-- A signed result in a type of `n` bits; overflow is undefined. -/
def chk (n : Nat) (x : Int) : Option Int := if -2 ^ (n - 1) ≤ x ∧ x < 2 ^ (n - 1) then some x else none

/-- Conversion of a number to an integer type of `w` bits. -/
def conv (w : Nat) (x : Int) : BitVec w := BitVec.ofInt w x

/-- The loop that all templates share: `for (int i = 0; i < WIDTH; ++i) tmp.v[i] = f(i);`, e.g. simd.hh:250-251. -/
def each (W : Nat) (tmp : List (BitVec u)) (f : Nat → Option (BitVec u)) : Option (List (BitVec u)) :=
  forUp 0 W tmp fun i tmp => (f i).bind (wr tmp i)

/-- The loop for functions of one operand. -/
def each1 (W : Nat) (tmp : List (BitVec u)) (a : List (BitVec w)) (f : BitVec w → Option (BitVec u)) : Option (List (BitVec u)) :=
  each W tmp fun i => (rd a i).bind f
/-- The loop for functions of two operands. -/
def each2 (W : Nat) (tmp : List (BitVec u)) (a b : List (BitVec w)) (f : BitVec w → BitVec w → Option (BitVec u)) : Option (List (BitVec u)) :=
  each W tmp fun i => (rd a i).bind fun x => (rd b i).bind (f x)

/-- `-(condition)` stored in an unsigned lane: the `int` -1 or 0 is converted. -/
def minus (w : Nat) (c : Bool) : BitVec w := conv w (-(if c then 1 else 0))

/-- simd.hh:112-119 -/
def vdup (W : Nat) (tmp : List (BitVec w)) (a : BitVec w) : Option (List (BitVec w)) := each W tmp fun _ => some a
/-- simd.hh:121-128: `tmp.u[i] ^= tmp.u[i]` -/
def vzero (W : Nat) (tmp : List (BitVec w)) : Option (List (BitVec w)) :=
  forUp 0 W tmp fun i tmp => (rd tmp i).bind fun x => wr tmp i (x ^^^ x)
/-- simd.hh:130-139, and with it `vmask`, `vunsigned` and `vsigned` (simd.hh:141-227): the types have lanes of the same size. -/
def vreinterpret (W : Nat) (tmp a : List (BitVec w)) : Option (List (BitVec w)) := each1 W tmp a some

/-- simd.hh:247-281, signed integers -/
def vneg (W : Nat) (tmp a : List (BitVec w)) := each1 W tmp a fun x => (chk (promoted w) (-x.toInt)).map (conv w)
/-- simd.hh:283-290, signed integers: `std::abs` of the promoted type -/
def vabs (W : Nat) (tmp a : List (BitVec w)) := each1 W tmp a fun x => (chk (promoted w) |x.toInt|).map (conv w)
/-- simd.hh:292-326 -/
def vqabs (W : Nat) (tmp a : List (BitVec w)) := each1 W tmp a fun x => (chk (promoted w) |max x.toInt (-(2 ^ (w - 1) - 1))|).map (conv w)
/-- simd.hh:328-362 -/
def vnot (W : Nat) (tmp a : List (BitVec w)) := each1 W tmp a fun x => some (~~~ x)
/-- simd.hh:364-398 -/
def vorr (W : Nat) (tmp a b : List (BitVec w)) := each2 W tmp a b fun x y => some (x ||| y)
/-- simd.hh:400-434 -/
def vand (W : Nat) (tmp a b : List (BitVec w)) := each2 W tmp a b fun x y => some (x &&& y)
/-- simd.hh:436-470 -/
def veor (W : Nat) (tmp a b : List (BitVec w)) := each2 W tmp a b fun x y => some (x ^^^ y)
/-- simd.hh:472-506 -/
def vbic (W : Nat) (tmp a b : List (BitVec w)) := each2 W tmp a b fun x y => some (x &&& ~~~ y)
/-- simd.hh:508-542 -/
def vbsl (W : Nat) (tmp a b c : List (BitVec w)) :=
  each W tmp fun i => (rd a i).bind fun x => (rd b i).bind fun y => (rd c i).bind fun z => some ((x &&& y) ||| (~~~ x &&& z))
/-- simd.hh:562-596, signed integers -/
def vcgtz (W : Nat) (tmp a : List (BitVec w)) := each1 W tmp a fun x => some (minus w (decide (x.toInt > 0)))
/-- simd.hh:616-650, signed integers: `-!a.v[i]` -/
def vceqz (W : Nat) (tmp a : List (BitVec w)) := each1 W tmp a fun x => some (minus w (decide (x.toInt = 0)))
/-- simd.hh:670-704, signed integers -/
def vcltz (W : Nat) (tmp a : List (BitVec w)) := each1 W tmp a fun x => some (minus w (decide (x.toInt < 0)))
/-- simd.hh:724-758, signed integers -/
def vclez (W : Nat) (tmp a : List (BitVec w)) := each1 W tmp a fun x => some (minus w (decide (x.toInt ≤ 0)))
/-- simd.hh:778-812, signed integers -/
def vcgt (W : Nat) (tmp a b : List (BitVec w)) := each2 W tmp a b fun x y => some (minus w (decide (x.toInt > y.toInt)))
/-- simd.hh:814-848, unsigned integers -/
def vcgtU (W : Nat) (tmp a b : List (BitVec w)) := each2 W tmp a b fun x y => some (minus w (decide (x.toNat > y.toNat)))
/-- simd.hh:868-902, signed integers -/
def vceq (W : Nat) (tmp a b : List (BitVec w)) := each2 W tmp a b fun x y => some (minus w (decide (x.toInt = y.toInt)))
/-- simd.hh:922-956, signed integers: `std::min(a, b)` is `b < a ? b : a` -/
def vmin (W : Nat) (tmp a b : List (BitVec w)) := each2 W tmp a b fun x y => some (if y.toInt < x.toInt then y else x)
/-- simd.hh:976-1010, signed integers: `std::max(a, b)` is `a < b ? b : a` -/
def vmax (W : Nat) (tmp a b : List (BitVec w)) := each2 W tmp a b fun x y => some (if x.toInt < y.toInt then y else x)
/-- simd.hh:1030-1064, signed integers: `std::min(std::max(x, a), b)` -/
def vclamp (W : Nat) (tmp x : List (BitVec w)) (a b : BitVec w) :=
  each1 W tmp x fun x => let m := if x.toInt < a.toInt then a else x
    some (if b.toInt < m.toInt then b else m)
/-- simd.hh:1084-1118, signed integers -/
def vadd (W : Nat) (tmp a b : List (BitVec w)) := each2 W tmp a b fun x y => (chk (promoted w) (x.toInt + y.toInt)).map (conv w)
/-- simd.hh:1156-1190, signed integers -/
def vsub (W : Nat) (tmp a b : List (BitVec w)) := each2 W tmp a b fun x y => (chk (promoted w) (x.toInt - y.toInt)).map (conv w)
/-- simd.hh:1246-1280, signed integers -/
def vmul (W : Nat) (tmp a b : List (BitVec w)) := each2 W tmp a b fun x y => (chk (promoted w) (x.toInt * y.toInt)).map (conv w)
/-- simd.hh:1120-1136: the sum, an `int`, is converted to the type of twice the size, then bounded there. -/
def vqadd (W : Nat) (tmp a b : List (BitVec w)) := each2 W tmp a b fun x y => (chk (promoted w) (x.toInt + y.toInt)).map fun s =>
  conv w (min (max (conv (2 * w) s).toInt (-2 ^ (w - 1))) (2 ^ (w - 1) - 1))
/-- simd.hh:1192-1208, signed integers -/
def vqsub (W : Nat) (tmp a b : List (BitVec w)) := each2 W tmp a b fun x y => (chk (promoted w) (x.toInt - y.toInt)).map fun s =>
  conv w (min (max (conv (2 * w) s).toInt (-2 ^ (w - 1))) (2 ^ (w - 1) - 1))
/-- simd.hh:1210-1226, unsigned integers: both operands are converted to the signed type of twice the size. -/
def vqsubU (W : Nat) (tmp a b : List (BitVec w)) := each2 W tmp a b fun x y =>
  (chk (promoted w) ((conv (2 * w) x.toNat).toInt - (conv (2 * w) y.toNat).toInt)).map fun s => conv w (max (conv (2 * w) s).toInt 0)
/-- simd.hh:1300-1334, signed integers -/
def vsignum (W : Nat) (tmp a : List (BitVec w)) := each1 W tmp a fun x => some (conv w ((if x.toInt > 0 then 1 else 0) - (if x.toInt < 0 then 1 else 0)))
/-- simd.hh:1354-1388, signed integers -/
def vsign (W : Nat) (tmp a b : List (BitVec w)) := each2 W tmp a b fun x y =>
  (chk (promoted w) (((if y.toInt > 0 then 1 else 0) - (if y.toInt < 0 then 1 else 0)) * x.toInt)).map (conv w)
/-- simd.hh:1408-1496: `b.v[i] < WIDTH ? a.v[b.v[i]] : 0`.  (`b` is unsigned; for lanes of 32 and 64 bits `WIDTH` is converted to that type.) -/
def vshuf (W : Nat) (tmp a : List (BitVec w)) (b : List (BitVec u)) :=
  each W tmp fun i => (rd b i).bind fun y => if y.toNat < W then rd a y.toNat else some 0

/-! `float` and `double`, as bit patterns of the format `F`; the arithmetic is that of the machine, `A`. -/
variable (F : Fmt w)

/-- simd.hh:229-245: the sign bit changes. -/
def vnegF (W : Nat) (tmp a : List (BitVec w)) := each1 W tmp a fun x => some (x ^^^ negz w)
/-- simd.hh:283-290: `std::abs` of a float clears the sign bit. -/
def vabsF (W : Nat) (tmp a : List (BitVec w)) := each1 W tmp a fun x => some (x &&& ~~~ negz w)
/-- simd.hh:544-560 -/
def vcgtzF (W : Nat) (tmp a : List (BitVec w)) := each1 W tmp a fun x => some (minus w (decide (F.flt 0 x)))
/-- simd.hh:598-614 -/
def vceqzF (W : Nat) (tmp a : List (BitVec w)) := each1 W tmp a fun x => some (minus w (decide (F.feq x 0)))
/-- simd.hh:652-668 -/
def vcltzF (W : Nat) (tmp a : List (BitVec w)) := each1 W tmp a fun x => some (minus w (decide (F.flt x 0)))
/-- simd.hh:706-722 -/
def vclezF (W : Nat) (tmp a : List (BitVec w)) := each1 W tmp a fun x => some (minus w (decide (F.fle x 0)))
/-- simd.hh:760-776 -/
def vcgtF (W : Nat) (tmp a b : List (BitVec w)) := each2 W tmp a b fun x y => some (minus w (decide (F.flt y x)))
/-- simd.hh:850-866 -/
def vceqF (W : Nat) (tmp a b : List (BitVec w)) := each2 W tmp a b fun x y => some (minus w (decide (F.feq x y)))
/-- simd.hh:904-920 -/
def vminF (W : Nat) (tmp a b : List (BitVec w)) := each2 W tmp a b fun x y => some (if F.flt y x then y else x)
/-- simd.hh:958-974 -/
def vmaxF (W : Nat) (tmp a b : List (BitVec w)) := each2 W tmp a b fun x y => some (if F.flt x y then y else x)
/-- simd.hh:1012-1028 -/
def vclampF (W : Nat) (tmp x : List (BitVec w)) (a b : BitVec w) :=
  each1 W tmp x fun x => let m := if F.flt x a then a else x
    some (if F.flt b m then b else m)
/-- simd.hh:1282-1298: an `int` that is converted -/
def vsignumF (W : Nat) (tmp a : List (BitVec w)) :=
  each1 W tmp a fun x => some (F.ofSgn ((if F.flt 0 x then 1 else 0) - (if F.flt x 0 then 1 else 0)))
/-- simd.hh:1390-1406 -/
def vcopysignF (W : Nat) (tmp a b : List (BitVec w)) := each2 W tmp a b fun x y => some ((x &&& ~~~ negz w) ||| (negz w &&& y))

/-- simd.hh:1066-1082 -/
def vaddF (A : Fpu w) (W : Nat) (tmp a b : List (BitVec w)) := each2 W tmp a b fun x y => some (A.add x y)
/-- simd.hh:1138-1154 -/
def vsubF (A : Fpu w) (W : Nat) (tmp a b : List (BitVec w)) := each2 W tmp a b fun x y => some (A.sub x y)
/-- simd.hh:1228-1244 -/
def vmulF (A : Fpu w) (W : Nat) (tmp a b : List (BitVec w)) := each2 W tmp a b fun x y => some (A.mul x y)
/-- simd.hh:1336-1352: an `int` that is converted, times `a` -/
def vsignF (A : Fpu w) (W : Nat) (tmp a b : List (BitVec w)) :=
  each2 W tmp a b fun x y => some (A.mul (F.ofSgn ((if F.flt 0 y then 1 else 0) - (if F.flt y 0 then 1 else 0))) x)

end Verif.SIMD.T
