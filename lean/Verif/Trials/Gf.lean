import Verif.GF.Model
/- Model of tests/gf_test.cc.  A failed `assert` is `none`. -/
namespace Verif.Trials
open Verif.GF

/-- gf_test.cc:12-26 `exhaustive_test<GF, GFR>`, both with storage of `w` bits; `fuel` bounds the loop of the
reference's `rcp` (GF/Model.lean). -/
def gfExhaustive (w M P fuel : Nat) (T : Tab) : Option Unit := do
  forUp 0 (gQ M) () fun j _ => do
    let a ← mkValue w M j
    forUp 0 (gQ M) () fun i _ => do
      let b ← mkValue w M i
      let x ← mulVV w M T a b
      let y ← refMul w M P (j % 2 ^ w) (i % 2 ^ w)
      assertUB (x = y)
  forUp 1 (gQ M) () fun i _ => do
    let a ← mkValue w M i
    let x ← rcpV w M T a
    let y ← refRcp w M P fuel (i % 2 ^ w)
    assertUB (x = y)

/-- One block of gf_test.cc (30-38, 39-47, 48-57, 58-67): the constructor of `GF instance` on uninitialised arrays, an
assertion `lhs == d` on four numbers, and the exhaustive test. -/
def gfBlock (w M P fuel : Nat) (lhs : Tab → Nat → Nat → Nat → Option Nat) (a b c d : Nat) (T0 : Tab) : Option Unit := do
  let T ← tables w M P T0
  let a ← mkValue w M a
  let b ← mkValue w M b
  let c ← mkValue w M c
  let d ← mkValue w M d
  let v ← lhs T a b c
  let e ← eqV M v d
  assertUB (e = true)
  gfExhaustive w M P fuel T

/-- gf_test.cc:36 `a * b + c` -/
def lhs1 (w M : Nat) (T : Tab) (a b c : Nat) : Option Nat := do
  let p ← mulVV w M T a b
  addV w M p c

/-- gf_test.cc:45 `fma(a, b, c)` -/
def lhs2 (w M : Nat) (T : Tab) (a b c : Nat) : Option Nat := fmaVV w M T a b c

/-- gf_test.cc:54 `a / b + c` -/
def lhs3 (w M : Nat) (T : Tab) (a b c : Nat) : Option Nat := do
  let q ← divVV w M T a b
  addV w M q c

/-- gf_test.cc:64 `a / (rcp(b) + c)` -/
def lhs4 (w M : Nat) (T : Tab) (a b c : Nat) : Option Nat := do
  let r ← rcpV w M T b
  let s ← addV w M r c
  divVV w M T a s

end Verif.Trials
