import Verif.Core
/- Model of rotate.hh. -/
namespace Verif.Rotate
variable {α : Type}

/-- rotate.hh:19-30: the portable `Rotate<TYPE, WIDTH>::operator()`.  `ret0` is the
uninitialised result register; lanes are a list of `SIZE` values. -/
def rotate (WIDTH : Nat) (ret0 a : List α) (s : Int) : Option (List α) := do
  let s := if s < 0 then s + WIDTH else s
  let t := (WIDTH : Int) - s
  let ret ← forUp 0 s.toNat ret0 fun n ret => do
    let x ← rdZ a (n + t)
    wr ret n x
  forUp 0 t.toNat ret fun n ret => do
    let x ← rd a n
    wrZ ret (n + s) x

/-- C++ `%` on non-negative operands; here `(j - i + WIDTH) % WIDTH`. -/
def posOf (WIDTH i j : Nat) : Nat := (j + WIDTH - i) % WIDTH

/-- rotate.hh:42-49 (NEON) and 122-129 (SSE4.1): one row `rot[i]` of the index table. -/
def rot16Row (WIDTH i : Nat) : Option (List Nat) :=
  forUp 0 WIDTH (List.replicate 16 0x80) fun j row => wr row j (posOf WIDTH i j)

/-- rotate.hh:42-49, 122-129: the whole table. -/
def rot16 (WIDTH : Nat) : Option (List (List Nat)) :=
  forUp 0 WIDTH (List.replicate WIDTH []) fun i rot => do
    let row ← rot16Row WIDTH i
    wr rot i row

/-- `_mm_shuffle_epi8` on 16 bytes: index bit 7 set gives 0, otherwise the low four bits select
the byte.  (NEON `vqtbl1q_s8`/`vtbl2_s8`: an index `≥ 16` gives 0; the same on the indices stored
in the table, which are 0..15 and 0x80.) -/
def shuffle16 (a : List (BitVec 8)) (idx : List Nat) : List (BitVec 8) :=
  (List.range 16).map fun k =>
    let i := idx.getD k 0
    if i.testBit 7 then 0#8 else a.getD (i % 16) 0#8

/-- rotate.hh:50-64 and 130-137: `operator()` of the single-shuffle versions. -/
def rotate16 (WIDTH : Nat) (a : List (BitVec 8)) (s : Int) : Option (List (BitVec 8)) := do
  let rot ← rot16 WIDTH
  let s := if s < 0 then s + WIDTH else s
  let row ← rdZ rot s
  return shuffle16 a row

/-- rotate.hh:79-99: one pair of rows `rot0[i]`, `rot1[i]` of the AVX2 tables. -/
def rot32Row (WIDTH i : Nat) : Option (List Nat × List Nat) :=
  forUp 0 WIDTH (List.replicate 32 0x80, List.replicate 32 0x80) fun j (r0, r1) =>
    let pos := posOf WIDTH i j
    if j < 16 then
      if pos < 16 then do
        let r0 ← wr r0 j pos
        return (r0, r1)
      else do
        let r1 ← wr r1 (j + 16) (pos - 16)
        return (r0, r1)
    else
      if pos < 16 then do
        let r1 ← wr r1 (j - 16) pos
        return (r0, r1)
      else do
        let r0 ← wr r0 j (pos - 16)
        return (r0, r1)

/-- rotate.hh:77-99 -/
def rot32 (WIDTH : Nat) : Option (List (List Nat × List Nat)) :=
  forUp 0 WIDTH (List.replicate WIDTH ([], [])) fun i rot => do
    let row ← rot32Row WIDTH i
    wr rot i row

/-- `_mm256_shuffle_epi8`: within each 128-bit half, index bit 7 set gives 0, otherwise the low
four bits select a byte of the same half. -/
def shuffle32 (a : List (BitVec 8)) (idx : List Nat) : List (BitVec 8) :=
  (List.range 32).map fun k =>
    let i := idx.getD k 0
    if i.testBit 7 then 0#8 else a.getD (k / 16 * 16 + i % 16) 0#8

/-- `_mm256_permute2x128_si256(c, c, 1)`: swap the two 128-bit halves. -/
def swapHalves (c : List (BitVec 8)) : List (BitVec 8) :=
  (List.range 32).map fun k => c.getD (if k < 16 then k + 16 else k - 16) 0#8

/-- `_mm256_or_si256` -/
def or32 (b d : List (BitVec 8)) : List (BitVec 8) :=
  (List.range 32).map fun k => b.getD k 0#8 ||| d.getD k 0#8

/-- rotate.hh:100-110 -/
def rotate32 (WIDTH : Nat) (a : List (BitVec 8)) (s : Int) : Option (List (BitVec 8)) := do
  let rot ← rot32 WIDTH
  let s := if s < 0 then s + WIDTH else s
  let row ← rdZ rot s
  let b := shuffle32 a row.1
  let c := shuffle32 a row.2
  let d := swapHalves c
  return or32 b d

end Verif.Rotate
