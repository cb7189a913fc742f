import Verif.Core
/-
Model of mls.hh.  The `int` members hold non-negative values and are natural numbers; an
`int` left shift whose result does not fit in 31 bits is UB (`none`).  The `unsigned`
argument of `hibit` only ever gets smaller or equal bit length, so no wrap-around occurs and it
is a natural number as well.
-/
namespace Verif.Mls

/-- mls.hh:13-21 -/
def hibit (n : Nat) : Nat :=
  let n := n ||| (n >>> 1)
  let n := n ||| (n >>> 2)
  let n := n ||| (n >>> 4)
  let n := n ||| (n >>> 8)
  let n := n ||| (n >>> 16)
  n ^^^ (n >>> 1)

/-- mls.hh:22 -/
structure MLS where
  poly : Nat
  test : Nat
  reg : Nat
  deriving DecidableEq

/-- mls.hh:24 (constructor with its default arguments) -/
def MLS.new (poly : Nat := 0b100000000000000001001) (reg : Nat := 1) : MLS :=
  ⟨poly, hibit poly >>> 1, reg⟩

/-- mls.hh:25-28 -/
def MLS.reset (m : MLS) (r : Nat := 1) : MLS := { m with reg := r }

/-- mls.hh:41-47 `operator()`: new object state and the returned bit. -/
def MLS.next (m : MLS) : Option (MLS × Bool) := do
  let fb := decide (m.reg &&& m.test ≠ 0)
  assertUB (m.reg <<< 1 < 2 ^ 31)
  let reg := m.reg <<< 1
  let reg := reg ^^^ (fb.toNat * m.poly)
  return ({ m with reg := reg }, fb)

/-- mls.hh:33-37: the loop of `bad` with `n` iterations left; `true` means early `return true`. -/
def badLoop (r : Nat) : Nat → MLS → Option (MLS × Bool)
  | 0, m => some (m, false)
  | n + 1, m => do
    let (m, _) ← m.next
    if m.reg = r then some (m, true) else badLoop r n m

/-- mls.hh:29-40 -/
def MLS.bad (m : MLS) (r : Nat := 1) : Option (MLS × Bool) := do
  let m := { m with reg := r }
  let len := hibit m.poly - 1
  let (m, found) ← badLoop r (len - 1) m
  if found then some (m, true) else do
    let (m, _) ← m.next
    return (m, decide (m.reg ≠ r))

end Verif.Mls
