import Verif.Core
/-
Model of sort.hh and simd_sort.hh.  The comparator is a pure Boolean function `lt`.  Pointer
arguments `a + off` are modelled by an explicit offset.  The counters of `MergeSort` that run ahead of the
array length are checked to fit in an `int`; all others stay below the length, which is an `int`.
-/
namespace Verif.Sort
variable {α ι : Type}

/-- sort.hh:27-28 (and 16-17): inner loop of `insertion_sort`, counter `j`; returns the array
and the final `j`. -/
def shiftLoop (lt : α → α → Bool) (off : Nat) (t : α) : Nat → List α → Option (List α × Nat)
  | 0, a => some (a, 0)
  | j + 1, a => do
    let y ← rd a (off + j)
    if lt t y then do
      let a ← wr a (off + (j + 1)) y
      shiftLoop lt off t j a
    else some (a, j + 1)

/-- sort.hh:22-31 `insertion_sort(a + off, n, comp)`; sort.hh:11-20 is the instance `comp = <`. -/
def insertionSort (lt : α → α → Bool) (a : List α) (off n : Nat) : Option (List α) :=
  forUp 1 n a fun i a => do
    let t ← rd a (off + i)
    let (a, j) ← shiftLoop lt off t i a
    wr a (off + j) t

/-- sort.hh:39-42: inner loop of the index-tracking `insertion_sort`. -/
def shiftLoop2 (lt : α → α → Bool) (t : α) : Nat → List ι × List α → Option ((List ι × List α) × Nat)
  | 0, s => some (s, 0)
  | j + 1, (p, a) => do
    let y ← rd a j
    if lt t y then do
      let a ← wr a (j + 1) y
      let q ← rd p j
      let p ← wr p (j + 1) q
      shiftLoop2 lt t j (p, a)
    else some ((p, a), j + 1)

/-- sort.hh:33-46 `insertion_sort(p, a, n)`; `idx i` is the conversion of the `int` `i` to the
INDEX type. -/
def insertionSortIdx (lt : α → α → Bool) (idx : Nat → ι) (p : List ι) (a : List α) (n : Nat) :
    Option (List ι × List α) := do
  let p ← wr p 0 (idx 0)
  forUp 1 n (p, a) fun i (p, a) => do
    let t ← rd a i
    let ((p, a), j) ← shiftLoop2 lt t i (p, a)
    let a ← wr a j t
    let p ← wr p j (idx i)
    return (p, a)

/-- simd_sort.hh:11-17 `vorder`: the lane order of a SIMD register; the indices are stored in the
unsigned type with `w` bits.  `p` is the uninitialised result register. -/
def vorder (lt : α → α → Bool) (w WIDTH : Nat) (p : List Nat) (a : List α) : Option (List Nat) := do
  let r ← insertionSortIdx lt (fun i => i % 2 ^ w) p a WIDTH
  return r.1

/-- simd_sort.hh:19-24 `vsort` -/
def vsort (lt : α → α → Bool) (WIDTH : Nat) (a : List α) : Option (List α) :=
  insertionSort lt a 0 WIDTH

/-- sort.hh:59-60: the loop of `MergeSort::merge`, `cnt` iterations left. -/
def mergeLoop (lt : α → α → Bool) (a : List α) (right fin : Nat) :
    Nat → Nat → Nat → Nat → List α → Option (List α)
  | 0, _, _, _, tmp => some tmp
  | cnt + 1, i, j, k, tmp => do
    let fromRight ← (if i ≥ right then some true
      else if j < fin then do
        let y ← rd a j
        let x ← rd a i
        some (lt y x)
      else some false)
    if fromRight then do
      let y ← rd a j
      let tmp ← wr tmp k y
      mergeLoop lt a right fin cnt i (j + 1) (k + 1) tmp
    else do
      let x ← rd a i
      let tmp ← wr tmp k x
      mergeLoop lt a right fin cnt (i + 1) j (k + 1) tmp

/-- sort.hh:52-61 `MergeSort::merge`, acting on the member `tmp`. -/
def merge (lt : α → α → Bool) (a : List α) (n left right fin : Nat) (tmp : List α) : Option (List α) :=
  let right := if right > n then n else right
  let fin := if fin > n then n else fin
  mergeLoop lt a right fin (fin - left) left right left tmp

/-- A sum or product computed in `int`. -/
def int31 (x : Nat) : Option Nat := do
  assertUB (x < 2 ^ 31)
  return x

/-- sort.hh:69-70: `for (i = 0; i < n; i += M) insertion_sort(a+i, i > n-M ? n-i : M, comp)`.
`i > n-M` is computed in `int`, i.e. it means `i + M > n`. -/
def runsLoop (lt : α → α → Bool) (n M : Nat) (a : List α) : Option (List α) := do
  let r ← whileF (n + 1) (fun (s : Nat × List α) => decide (s.1 < n)) (fun (i, a) => do
    let a ← insertionSort lt a i (if i + M > n then n - i else M)
    let i ← int31 (i + M)
    return (i, a)) (0, a)
  return r.2

/-- sort.hh:72-73: `for (i = 0; i < n; i += 2*l) merge(a, n, i, i+l, i+2*l, comp)`; `i+2*l` is the next `i`. -/
def passLoop (lt : α → α → Bool) (a : List α) (n l : Nat) (tmp : List α) : Option (List α) := do
  let r ← whileF (n + 1) (fun (s : Nat × List α) => decide (s.1 < n)) (fun (i, tmp) => do
    let right ← int31 (i + l)
    let l2 ← int31 (2 * l)
    let fin ← int31 (i + l2)
    let tmp ← merge lt a n i right fin tmp
    return (fin, tmp)) (0, tmp)
  return r.2

/-- sort.hh:63-74 `MergeSort<TYPE, MAX_N, M>::operator()(a, n, comp)`: array and member `tmp`
(any previous contents) after the call.  sort.hh:75-78 is the instance `comp = <`. -/
def mergeSort (lt : α → α → Bool) (M : Nat) (tmp a : List α) (n : Nat) : Option (List α × List α) := do
  let a ← runsLoop lt n M a
  let r ← whileF (n + 1) (fun (s : Nat × List α × List α) => decide (s.1 < n)) (fun (l, a, tmp) => do
    let tmp ← passLoop lt a n l tmp
    let a ← forUp 0 n a fun i a => do
      let x ← rd tmp i
      wr a i x
    let l ← int31 (l * 2)
    return (l, a, tmp)) (M, a, tmp)
  return r.2

end Verif.Sort
