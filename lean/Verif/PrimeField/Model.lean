import Verif.Core
/-
Model of prime_field.hh.  A value of the unsigned type TYPE with `w` bits is a natural number;
every TYPE expression is reduced modulo `2^w` where the C++ converts it to TYPE.  (For TYPE
narrower than `int` the C++ computes in `int` and truncates; the same value, as long as the
product fits in `int`.)
-/
namespace Verif.PrimeField

/-- prime_field.hh:42-46 `reduce` -/
def reduce (P v : Nat) : Nat := v % P
/-- prime_field.hh:60-64 `add` (not reduced modulo P) -/
def add (w a b : Nat) : Nat := (a + b) % 2 ^ w
/-- prime_field.hh:66-70 -/
def opAdd (w P a b : Nat) : Nat := reduce P (add w a b)
/-- prime_field.hh:72-76 `sub`: `a.v - b.v + (a.v < b.v ? P : 0)` in wrap-around arithmetic -/
def sub (w P a b : Nat) : Nat := (a + 2 ^ w - b + (if a < b then P else 0)) % 2 ^ w
/-- prime_field.hh:78-82 -/
def opSub (w P a b : Nat) : Nat := reduce P (sub w P a b)
/-- prime_field.hh:84-88 `neg` -/
def neg (w P a : Nat) : Nat := (P + 2 ^ w - a) % 2 ^ w
/-- prime_field.hh:90-94 -/
def opNeg (w P a : Nat) : Nat := reduce P (neg w P a)
/-- prime_field.hh:96-100 `mul` (not reduced modulo P) -/
def mul (w a b : Nat) : Nat := (a * b) % 2 ^ w
/-- prime_field.hh:102-106, also `operator *=` (19-22) -/
def opMul (w P a b : Nat) : Nat := reduce P (mul w a b)

/-- prime_field.hh:108-116: the loop of `pow` with state `t`, `a`, `m` (terminates since `m` halves). -/
def powLoop (w P : Nat) (t a m : Nat) : Nat :=
  if h : m = 0 then t
  else powLoop w P (if m % 2 = 1 then opMul w P t a else t) (opMul w P a a) (m / 2)
termination_by m
decreasing_by omega

/-- prime_field.hh:108-116 `pow` -/
def pow (w P a m : Nat) : Nat := powLoop w P (1 % 2 ^ w) a m
/-- prime_field.hh:118-122 `rcp` -/
def rcp (w P a : Nat) : Nat := pow w P a ((P + 2 ^ w - 2) % 2 ^ w)
/-- prime_field.hh:124-128 `div` -/
def div (w P a b : Nat) : Nat := mul w a (rcp w P b)
/-- prime_field.hh:130-134, also `operator /=` (23-26) -/
def opDiv (w P a b : Nat) : Nat := reduce P (div w P a b)

end Verif.PrimeField
