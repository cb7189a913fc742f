import Verif.Core
/- Model of galois_field.hh.

`w` is the number of bits of `TYPE`, `M` and `POLY` are the template parameters.  Values of
`TYPE` are naturals below `2 ^ w`; every assignment to a `TYPE` (or conversion of an `int`
argument to `TYPE`) is reduced modulo `2 ^ w`.  A failed `assert` is `none`. -/
namespace Verif.GF

/-- galois_field.hh:20 `Q = 1 << M` -/
def gQ (M : Nat) : Nat := 1 <<< M
/-- galois_field.hh:20 `N = Q - 1` -/
def gN (M : Nat) : Nat := gQ M - 1

/-- galois_field.hh:91-94 `Tables::next` -/
def next (w M POLY a : Nat) : Nat :=
  (if a &&& ((gQ M >>> 1) % 2 ^ w) ≠ 0 then (a <<< 1) ^^^ (POLY % 2 ^ w) else a <<< 1) % 2 ^ w

/-- The two table arrays. -/
structure Tab where
  log : List Nat
  exp : List Nat

/-- galois_field.hh:107-119 `Tables::Tables()`.  `T0` are the uninitialised arrays. -/
def tables (w M POLY : Nat) (T0 : Tab) : Option Tab := do
  let exp ← wr T0.exp (gN M) 0
  let log ← wr T0.log 0 (gN M % 2 ^ w)
  let (log, exp, a) ← forUp 0 (gN M) (log, exp, 1) fun i (log, exp, a) => do
    let exp ← wr exp i a
    let log ← wr log a (i % 2 ^ w)
    assertUB (i = 0 ∨ a ≠ 1)
    return (log, exp, next w M POLY a)
  assertUB (1 = a)
  return ⟨log, exp⟩

/-- galois_field.hh:95-100 `Tables::log` -/
def tlog (M : Nat) (T : Tab) (a : Nat) : Option Nat := do
  assertUB (a ≤ gN M)
  rd T.log a

/-- galois_field.hh:101-106 `Tables::exp` -/
def texp (M : Nat) (T : Tab) (a : Nat) : Option Nat := do
  assertUB (a ≤ gN M)
  rd T.exp a

/-- galois_field.hh:25-28 `Value(TYPE v)`; the argument is converted to `TYPE`. -/
def mkValue (w M : Nat) (v : Nat) : Option Nat := do
  let v := v % 2 ^ w
  assertUB (v ≤ gN M)
  return v

/-- galois_field.hh:60-63 `Index(TYPE i)`; the argument is converted to `TYPE`. -/
def mkIndex (w M : Nat) (i : Nat) : Option Nat := do
  let i := i % 2 ^ w
  assertUB (i < gN M)
  return i

/-- galois_field.hh:136-142 -/
def index (w M : Nat) (T : Tab) (a : Nat) : Option Nat := do
  assertUB (a ≤ gN M)
  assertUB (a ≠ 0)
  let l ← tlog M T a
  mkIndex w M l

/-- galois_field.hh:144-148 -/
def value (w M : Nat) (T : Tab) (a : Nat) : Option Nat := do
  assertUB (a < gN M)
  let e ← texp M T a
  mkValue w M e

/-- galois_field.hh:150-156 -/
def eqV (M : Nat) (a b : Nat) : Option Bool := do
  assertUB (a ≤ gN M)
  assertUB (b ≤ gN M)
  return a == b

/-- galois_field.hh:158-164 -/
def neV (M : Nat) (a b : Nat) : Option Bool := do
  assertUB (a ≤ gN M)
  assertUB (b ≤ gN M)
  return a != b

/-- galois_field.hh:166-172 -/
def addV (w M : Nat) (a b : Nat) : Option Nat := do
  assertUB (a ≤ gN M)
  assertUB (b ≤ gN M)
  mkValue w M (a ^^^ b)

/-- galois_field.hh:174-178 -/
def negV (a : Nat) : Option Nat := some a

/-- galois_field.hh:180-184 -/
def subV (w M : Nat) (a b : Nat) : Option Nat := addV w M a b

/-- galois_field.hh:186-193 `Index * Index`.  `modulus()` is `(TYPE) N`. -/
def mulII (w M : Nat) (a b : Nat) : Option Nat := do
  assertUB (a < gN M)
  assertUB (b < gN M)
  let tmp := (a + b) % 2 ^ w
  mkIndex w M (if gN M - a ≤ b then tmp + 2 ^ w - gN M else tmp)

/-- galois_field.hh:195-201 `Value * Value` -/
def mulVV (w M : Nat) (T : Tab) (a b : Nat) : Option Nat := do
  assertUB (a ≤ gN M)
  assertUB (b ≤ gN M)
  if a = 0 ∨ b = 0 then mkValue w M 0 else do
    let i ← index w M T a
    let j ← index w M T b
    let k ← mulII w M i j
    value w M T k

/-- galois_field.hh:203-208 `rcp(Index)` -/
def rcpI (w M : Nat) (a : Nat) : Option Nat := do
  assertUB (a < gN M)
  mkIndex w M (if a = 0 then 0 else gN M - a)

/-- galois_field.hh:210-216 `rcp(Value)` -/
def rcpV (w M : Nat) (T : Tab) (a : Nat) : Option Nat := do
  assertUB (a ≤ gN M)
  assertUB (a ≠ 0)
  let i ← index w M T a
  let r ← rcpI w M i
  value w M T r

/-- galois_field.hh:218-225 `Index / Index` -/
def divII (w M : Nat) (a b : Nat) : Option Nat := do
  assertUB (a < gN M)
  assertUB (b < gN M)
  let tmp := (a + 2 ^ w - b) % 2 ^ w
  mkIndex w M (if a < b then tmp + gN M else tmp)

/-- galois_field.hh:227-234 `Value / Value` -/
def divVV (w M : Nat) (T : Tab) (a b : Nat) : Option Nat := do
  assertUB (a ≤ gN M)
  assertUB (b ≤ gN M)
  assertUB (b ≠ 0)
  if a = 0 then mkValue w M 0 else do
    let i ← index w M T a
    let j ← index w M T b
    let k ← divII w M i j
    value w M T k

/-- galois_field.hh:236-243 `Index / Value` -/
def divIV (w M : Nat) (T : Tab) (a b : Nat) : Option Nat := do
  assertUB (a < gN M)
  assertUB (b ≤ gN M)
  assertUB (b ≠ 0)
  let j ← index w M T b
  let k ← divII w M a j
  value w M T k

/-- galois_field.hh:245-251 `Value / Index` -/
def divVI (w M : Nat) (T : Tab) (a b : Nat) : Option Nat := do
  assertUB (a ≤ gN M)
  assertUB (b < gN M)
  if a = 0 then mkValue w M 0 else do
    let i ← index w M T a
    let k ← divII w M i b
    value w M T k

/-- galois_field.hh:253-259 `Index * Value` -/
def mulIV (w M : Nat) (T : Tab) (a b : Nat) : Option Nat := do
  assertUB (a < gN M)
  assertUB (b ≤ gN M)
  if b = 0 then mkValue w M 0 else do
    let j ← index w M T b
    let k ← mulII w M a j
    value w M T k

/-- galois_field.hh:261-267 `Value * Index` -/
def mulVI (w M : Nat) (T : Tab) (a b : Nat) : Option Nat := do
  assertUB (a ≤ gN M)
  assertUB (b < gN M)
  if a = 0 then mkValue w M 0 else do
    let i ← index w M T a
    let k ← mulII w M i b
    value w M T k

/-- galois_field.hh:269-276 `fma(Index, Index, Value)` -/
def fmaII (w M : Nat) (T : Tab) (a b c : Nat) : Option Nat := do
  assertUB (a < gN M)
  assertUB (b < gN M)
  assertUB (c ≤ gN M)
  let k ← mulII w M a b
  let v ← value w M T k
  addV w M v c

/-- galois_field.hh:278-285 `fma(Index, Value, Value)` -/
def fmaIV (w M : Nat) (T : Tab) (a b c : Nat) : Option Nat := do
  assertUB (a < gN M)
  assertUB (b ≤ gN M)
  assertUB (c ≤ gN M)
  if b = 0 then return c else do
    let j ← index w M T b
    let k ← mulII w M a j
    let v ← value w M T k
    addV w M v c

/-- galois_field.hh:287-294 `fma(Value, Index, Value)` -/
def fmaVI (w M : Nat) (T : Tab) (a b c : Nat) : Option Nat := do
  assertUB (a ≤ gN M)
  assertUB (b < gN M)
  assertUB (c ≤ gN M)
  if a = 0 then return c else do
    let i ← index w M T a
    let k ← mulII w M i b
    let v ← value w M T k
    addV w M v c

/-- galois_field.hh:296-303 `fma(Value, Value, Value)` -/
def fmaVV (w M : Nat) (T : Tab) (a b c : Nat) : Option Nat := do
  assertUB (a ≤ gN M)
  assertUB (b ≤ gN M)
  assertUB (c ≤ gN M)
  if a = 0 ∨ b = 0 then return c else do
    let i ← index w M T a
    let j ← index w M T b
    let k ← mulII w M i j
    let v ← value w M T k
    addV w M v c

/-! #### GaloisFieldReference -/

/-- galois_field.hh:357-361 -/
def refAdd (w M : Nat) (a b : Nat) : Option Nat := mkValue w M (a ^^^ b)

/-- galois_field.hh:375-395, one iteration of the loop on `(p, a, b)`. -/
def refStep (w M POLY : Nat) : Nat × Nat × Nat → Nat × Nat × Nat
  | (p, a, b) =>
    let p := if b &&& 1 ≠ 0 then p ^^^ a else p
    let a := if a &&& ((1 <<< (M - 1)) % 2 ^ w) ≠ 0 then ((a <<< 1) % 2 ^ w) ^^^ (POLY % 2 ^ w)
      else (a <<< 1) % 2 ^ w
    (p, a, b >>> 1)

/-- galois_field.hh:375-395 `operator *` -/
def refMul (w M POLY : Nat) (a b : Nat) : Option Nat := do
  let (p, _, _) ← forUp 0 M (0, a, b) fun _ s => some (refStep w M POLY s)
  return p

/-- galois_field.hh:406-408: `31 - __builtin_clz(a)`; the argument is converted to `unsigned int`
and `__builtin_clz(0)` is undefined. -/
def deg32 (a : Nat) : Option Nat :=
  let x := a % 2 ^ 32
  if x = 0 then none else some (Nat.log2 x)

/-- galois_field.hh:414-421: loop state `(newr, r, newt, t, k)`. -/
structure RcpSt where
  newr : Nat
  r : Nat
  newt : Nat
  t : Nat
  k : Nat

/-- galois_field.hh:421-431: one iteration.  A shift by at least the width of the promoted type
would be undefined; the model requires `j < max w 32`. -/
def rcpStep (w : Nat) (s : RcpSt) : Option RcpSt := do
  let l ← deg32 s.newr
  if l < s.k then do
    let j := s.k - l
    assertUB (j < max w 32)
    return { newr := s.r ^^^ ((s.newr <<< j) % 2 ^ w), r := s.newr
             newt := s.t ^^^ ((s.newt <<< j) % 2 ^ w), t := s.newt, k := l }
  else do
    let j := l - s.k
    assertUB (j < max w 32)
    return { s with newr := s.newr ^^^ ((s.r <<< j) % 2 ^ w), newt := s.newt ^^^ ((s.t <<< j) % 2 ^ w) }

/-- galois_field.hh:397-439 `rcp`.  The loop gets fuel; running out of it is `none`. -/
def refRcp (w M POLY : Nat) (fuel : Nat) (a : Nat) : Option Nat := do
  assertUB (a ≠ 0)
  if a = 1 then return a else do
    let k ← deg32 a
    assertUB (k ≤ M)
    let j := M - k
    assertUB (j < max w 32)
    let s : RcpSt := { newr := (POLY % 2 ^ w) ^^^ ((a <<< j) % 2 ^ w), r := a
                       newt := 0 ^^^ ((1 <<< j) % 2 ^ w), t := 1, k := k }
    let s ← whileF fuel (fun s => s.newr != 1) (rcpStep w) s
    mkValue w M s.newt

/-- galois_field.hh:441-446 `operator /` -/
def refDiv (w M POLY : Nat) (fuel : Nat) (a b : Nat) : Option Nat := do
  assertUB (b ≠ 0)
  let r ← refRcp w M POLY fuel b
  refMul w M POLY a r

end Verif.GF
