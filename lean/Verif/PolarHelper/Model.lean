import Verif.Core
import Mathlib.Algebra.Order.Group.Abs
import Mathlib.Algebra.Order.Ring.Int
/- Model of polar_helper.hh for `int8_t` and `SIMD<int8_t, WIDTH>`.

`int8_t` values are `Int`s in `-128 .. 127`.  C++ integer promotion makes all intermediate
arithmetic exact (`int`/`int16_t`, whose ranges are never exceeded here); storing to `int8_t` is
`t8`, reduction to the signed 8-bit range. -/
namespace Verif.PolarHelper

/-- Conversion of an `int` to `int8_t` (two's complement truncation). -/
def t8 (x : Int) : Int := Int.bmod x 256

/-- `(v > 0) - (v < 0)` -/
def sgn (v : Int) : Int := (if v > 0 then 1 else 0) - (if v < 0 then 1 else 0)

/-! #### `PolarHelper<int8_t>` -/

/-- polar_helper.hh:168-171 -/
def signum (v : Int) : Int := t8 (sgn v)
/-- polar_helper.hh:172-176 for an input that is already rounded to an integer
(for floating point input see `quantF` in Trials/Channel.lean). -/
def quant (v : Int) : Int := t8 (min (max v (-127)) 127)
/-- polar_helper.hh:177-180 -/
def qabs (a : Int) : Int := t8 (|max a (-127)|)
/-- polar_helper.hh:181-184 -/
def qmin (a b : Int) : Int := min a b
/-- polar_helper.hh:185-188 -/
def qadd (a b : Int) : Int := t8 (min (max (a + b) (-127)) 127)
/-- polar_helper.hh:189-194 -/
def qmul (a b : Int) : Int := t8 (a * b)
/-- polar_helper.hh:195-198 -/
def prod (a b : Int) : Int := t8 (signum a * signum b * qmin (qabs a) (qabs b))
/-- polar_helper.hh:199-202 -/
def madd (a b c : Int) : Int := t8 (min (max (a * b + c) (-127)) 127)

/-! #### One lane of the SIMD operations (simd.hh, portable templates) -/

/-- simd.hh:293-299 -/
def vqabs (a : Int) : Int := t8 (|max a (-127)|)
/-- simd.hh:1121-1127 -/
def vqadd (a b : Int) : Int := t8 (min (max (a + b) (-128)) 127)
/-- simd.hh:1247-1253 -/
def vmul (a b : Int) : Int := t8 (a * b)
/-- simd.hh:1301-1307 -/
def vsignum (a : Int) : Int := t8 (sgn a)
/-- simd.hh:1355-1361 -/
def vsign (a b : Int) : Int := t8 (sgn b * a)
/-- simd.hh:923-929 -/
def vmin (a b : Int) : Int := min a b
/-- simd.hh:977-983 -/
def vmax (a b : Int) : Int := max a b

/-- sse4_1.hh:578-583, avx2.hh:578-583, `_mm_sign_epi8`: negate (with wrap-around), zero or keep. -/
def mmSign (a b : Int) : Int := if b < 0 then t8 (-a) else if b = 0 then 0 else a
/-- sse4_1.hh:490-495: `_mm_abs_epi8(_mm_max_epi8(a, -127))` -/
def mmQabs (a : Int) : Int := let m := max a (-127); if m < 0 then t8 (-m) else m
/-- sse4_1.hh:362-367 `_mm_adds_epi8`, neon.hh:359-364 `vqaddq_s8`: saturating addition. -/
def satAdd (a b : Int) : Int := if a + b > 127 then 127 else if a + b < -128 then -128 else a + b
/-- neon.hh:471-476 `vqabsq_s8`: saturating absolute value. -/
def neonQabs (a : Int) : Int := if a = -128 then 127 else if a < 0 then -a else a
/-- neon.hh:497-503: `(0 > a) | ((a > 0) & 1)` on all-ones/all-zeros masks, bit patterns of 8 bits. -/
def neonSignum (a : Int) : Int :=
  (((if 0 > a then 255#8 else 0#8) ||| ((if a > 0 then 255#8 else 0#8) &&& 1#8)) : BitVec 8).toInt

/-! #### One lane of `PolarHelper<SIMD<int8_t, WIDTH>>` -/

/-- polar_helper.hh:138-145 without `__ARM_NEON`, over the portable lane operations. -/
def prodV (a b : Int) : Int := vsign (vmin (vqabs a) (vqabs b)) (vsign (vsignum a) b)
/-- polar_helper.hh:146-153 without `__ARM_NEON`. -/
def maddV (a b c : Int) : Int := vmax (vqadd (vsign (vmax b (-127)) a) c) (-127)
/-- polar_helper.hh:130-137 without `__ARM_NEON`. -/
def qmulV (a b : Int) : Int := vsign a b

/-- The same over the SSE4.1/AVX2 intrinsics. -/
def prodX (a b : Int) : Int := mmSign (vmin (mmQabs a) (mmQabs b)) (mmSign (mmSign 1 a) b)
/-- The same over the SSE4.1/AVX2 intrinsics. -/
def maddX (a b c : Int) : Int := vmax (satAdd (mmSign (vmax b (-127)) a) c) (-127)

/-- polar_helper.hh:138-145 with `__ARM_NEON`. -/
def prodN (a b : Int) : Int := vmul (vmul (neonSignum a) (neonSignum b)) (vmin (neonQabs a) (neonQabs b))
/-- polar_helper.hh:146-153 with `__ARM_NEON`. -/
def maddN (a b c : Int) : Int := vmax (satAdd (vmul a (vmax b (-127))) c) (-127)

end Verif.PolarHelper
