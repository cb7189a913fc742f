import Verif.Sort.Model
import Verif.PrimeField.Model
/-
Model of the loop bodies of tests/sort_regression_test.cc and tests/simd_sort_regression_test.cc and of
tests/pf_test.cc.  The drawn numbers are arguments.  A failed `assert` is `none`, like an access outside an array.
`std::stable_sort` and `std::sort` are arguments too: functions from the contents of the range to its new contents.
-/
namespace Verif.Trials
open Verif.Sort

/-- sort_regression_test.cc:29 `comp` -/
def sndLt (x y : Int × Int) : Bool := decide (x.2 < y.2)

/-- `<` on `int` -/
def intLt (x y : Int) : Bool := decide (x < y)

/-- sort_regression_test.cc:27-28, 30: the arrays and the member `tmp` of `merge_sort` (sort.hh:50), which live through all
passes of the loop. -/
structure SortState where
  a : List (Int × Int)
  b : List (Int × Int)
  c : List (Int × Int)
  d : List Int
  e : List Int
  tmp : List (Int × Int)

/-- `for (i = 0; i < n; ++i) assert(x[i] == y[i]);` -/
def assertEq {β : Type} [DecidableEq β] (n : Nat) (x y : List β) : Option Unit :=
  forUp 0 n () fun i _ => do
    let u ← rd x i
    let v ← rd y i
    assertUB (u = v)

/-- `std::stable_sort(x, x+n, ...)` on a larger array -/
def onRange {β : Type} (sort : List β → List β) (x : List β) (n : Nat) : Option (List β) := do
  assertUB (n ≤ x.length)
  return sort (x.take n) ++ x.drop n

/-- sort_regression_test.cc:33-34 -/
def fillFirst (size : Nat) (s : SortState) : Option SortState :=
  forUp 0 size s fun i s => do
    let xa ← rd s.a i
    let a ← wr s.a i ((i : Int), xa.2)
    let xb ← rd s.b i
    let b ← wr s.b i ((i : Int), xb.2)
    let xc ← rd s.c i
    let c ← wr s.c i ((i : Int), xc.2)
    let e ← wr s.e i (i : Int)
    return { s with a := a, b := b, c := c, e := e }

/-- sort_regression_test.cc:35-36 -/
def fillSecond (size : Nat) (draw : Nat → Int) (s : SortState) : Option SortState :=
  forUp 0 size s fun i s => do
    let xa ← rd s.a i
    let a ← wr s.a i (xa.1, draw i)
    let xb ← rd s.b i
    let b ← wr s.b i (xb.1, draw i)
    let xc ← rd s.c i
    let c ← wr s.c i (xc.1, draw i)
    let d ← wr s.d i (draw i)
    return { s with a := a, b := b, c := c, d := d }

/-- sort_regression_test.cc:32-47: one pass of the loop with the drawn `size`.  The last line is
`a[i].first == e[i]`.  `M` is the run length of `MergeSort<Pair, MAX_N>`, 32 (sort.hh:48). -/
def sortTrial (stableSort : List (Int × Int) → List (Int × Int)) (M size : Nat) (draw : Nat → Int) (s : SortState) : Option SortState := do
  let s ← fillFirst size s
  let s ← fillSecond size draw s
  let a ← onRange stableSort s.a size
  let b ← insertionSort sndLt s.b 0 size
  assertEq size a b
  let (c, tmp) ← mergeSort sndLt M s.tmp s.c size
  assertEq size a c
  let (e, d) ← insertionSortIdx intLt (fun i => (i : Int)) s.e s.d size
  assertEq size (a.map (·.1)) e
  return { a := a, b := b, c := c, d := d, e := e, tmp := tmp }

/-- The order of the lambda in simd_sort_regression_test.cc:38 on the indices. -/
def byKey (a : List Int) (i j : Nat) : Bool := decide (a.getD i 0 < a.getD j 0)

/-- simd_sort_regression_test.cc:24-40: one pass of the loop with the lanes `a` drawn; `p` is the uninitialised
result of `vorder`, whose lanes have `w` bits.  `e` converts lanes to `int` and back, all below `WIDTH`. -/
def simdTrial (sort : List Int → List Int) (stableSort : (Nat → Nat → Bool) → List Nat → List Nat) (w WIDTH : Nat) (p : List Nat) (a : List Int) : Option Unit := do
  let b ← vsort intLt WIDTH a
  let c ← onRange sort a WIDTH
  assertEq WIDTH b c
  let d ← vorder intLt w WIDTH p a
  let e ← onRange (stableSort (byKey a)) (List.range WIDTH) WIDTH
  assertEq WIDTH d e

open Verif.PrimeField in
/-- pf_test.cc:15-32 `exhaustive_test<TYPE, PRIME>`, TYPE with `w` bits: the asserted right-hand sides are computed in
TYPE. -/
def pfTest (w P : Nat) : Option Unit := do
  assertUB (P - 1 ≠ 0 ∧ (2 ^ w - 1) / (P - 1) ≥ P - 1)
  forUp 0 P () fun a _ => forUp 0 P () fun b _ => assertUB (opMul w P a b = (a * b % 2 ^ w) % P)
  forUp 1 P () fun a _ => assertUB (opMul w P (rcp w P a) a = 1)
  forUp 0 P () fun a _ => forUp 0 P () fun b _ => assertUB (opAdd w P a b = ((a + b) % 2 ^ w) % P)
  forUp 0 P () fun a _ => forUp 0 P () fun b _ =>
    assertUB (opSub w P a b = (((a + 2 ^ w - b) % 2 ^ w + P) % 2 ^ w) % P)

end Verif.Trials
