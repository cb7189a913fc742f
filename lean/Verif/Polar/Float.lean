import Verif.Polar.Model
import Mathlib.Data.Rat.Floor
import Mathlib.Data.Int.Log
import Mathlib.Algebra.Order.Field.Rat
import Mathlib.Tactic.Positivity
import Mathlib.Tactic.FieldSimp
import Mathlib.Tactic.Linarith
/- Floating point numbers, and the instances of polar_helper.hh for `float` and `double`. -/
namespace Verif.Polar

/-- A floating point value.  The two zeros are one value here: nothing in polar_helper.hh, polar_encoder.hh or polar_decoder.hh tells them
apart (there are comparisons, sums, products, `std::abs` and `std::min`, but no division and no inspection of the sign bit). -/
inductive Fl where
  | nan
  | inf (neg : Bool)
  | fin (q : ℚ)
  deriving DecidableEq

/-- What matters about a floating point format and its rounding: a set of numbers with rounding to it, and from where on rounded
results overflow.  Ieee.lean shows that IEEE 754 binary formats with rounding to nearest even are of this kind. -/
structure Rounding where
  /-- the numbers of the format, if the exponent had no upper bound -/
  rep : ℚ → Prop
  rnd : ℚ → ℚ
  /-- a result of at least this magnitude is an infinity -/
  huge : ℚ
  zero : rep 0
  one : rep 1
  neg : ∀ q, rep q → rep (-q)
  twice : ∀ q, rep q → rep (2 * q)
  out : ∀ q, rep (rnd q)
  exact : ∀ q, rep q → rnd q = q
  mono : ∀ p q, p ≤ q → rnd p ≤ rnd q
  one_lt : 1 < huge

namespace Fl
variable (F : Rounding)

/-- The result of an operation with the exact value `q`. -/
def ofQ (q : ℚ) : Fl := if |F.rnd q| < F.huge then fin (F.rnd q) else inf (decide (F.rnd q < 0))

/-- IEEE 754 comparison `a < b`. -/
def lt : Fl → Fl → Bool
  | nan, _ => false
  | _, nan => false
  | inf a, inf b => a && !b
  | inf a, fin _ => a
  | fin _, inf b => !b
  | fin p, fin q => decide (p < q)

/-- IEEE 754 addition -/
def add : Fl → Fl → Fl
  | nan, _ => nan
  | _, nan => nan
  | inf a, inf b => if a = b then inf a else nan
  | inf a, fin _ => inf a
  | fin _, inf b => inf b
  | fin p, fin q => ofQ F (p + q)

/-- IEEE 754 multiplication -/
def mul : Fl → Fl → Fl
  | nan, _ => nan
  | _, nan => nan
  | inf a, inf b => inf (a ^^ b)
  | inf a, fin q => if q = 0 then nan else inf (a ^^ decide (q < 0))
  | fin p, inf b => if p = 0 then nan else inf (decide (p < 0) ^^ b)
  | fin p, fin q => ofQ F (p * q)

/-- `std::abs` -/
def abs : Fl → Fl
  | nan => nan
  | inf _ => inf false
  | fin q => fin |q|

/-- `std::min(a, b)`: `b < a ? b : a` -/
def min (a b : Fl) : Fl := if lt b a then b else a

/-- polar_helper.hh:25-28 `(v > 0) - (v < 0)`, an `int` that is converted to `TYPE` -/
def signum (v : Fl) : Fl := fin ((if lt (fin 0) v then 1 else 0) - (if lt v (fin 0) then 1 else 0))

/-- polar_helper.hh:50-53 -/
def prod (a b : Fl) : Fl := mul F (mul F (signum a) (signum b)) (min (abs a) (abs b))

/-- polar_helper.hh:54-57 `a * b + c`.  (A compiler may fuse the two operations; with `a` = ±1, which is always so, that makes no difference.) -/
def madd (a b c : Fl) : Fl := add F (mul F a b) c

end Fl

/-- `PolarHelper<float>`, `PolarHelper<double>` (polar_helper.hh:13-58; quant, qabs, qmin and qadd are not used by the encoders and decoders). -/
def phF (F : Rounding) : PH Fl := ⟨.fin 1, Fl.signum, Fl.mul F, Fl.prod F, Fl.madd F⟩

/-- `PolarHelper<SIMD<float, W>>`, `PolarHelper<SIMD<double, W>>` (polar_helper.hh:60-101) with the portable loops of simd.hh
(`vsignum` simd.hh:1282-1298, `vmin` 904-920, and `vabs`, `vadd`, `vmul`): every lane by itself.  A register is the function that gives its lanes. -/
def phFV (F : Rounding) (W : Nat) : PH (Fin W → Fl) where
  one _ := .fin 1
  signum a k := Fl.signum (a k)
  qmul a b k := Fl.mul F (a k) (b k)
  prod a b k := Fl.mul F (Fl.mul F (Fl.signum (a k)) (Fl.signum (b k))) (Fl.min (Fl.abs (a k)) (Fl.abs (b k)))
  madd a b c k := Fl.add F (Fl.mul F (a k) (b k)) (c k)

end Verif.Polar
