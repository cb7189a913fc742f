import Verif.GF.Model
/- Model of cauchy_reed_solomon_erasure_coding.hh over the table-driven field of galois_field.hh.
Values are naturals below `2 ^ w` as in Verif/GF/Model.lean.  The overloads for `value_type *`
(lines 315-322) only reinterpret the pointers; those for `void *` (lines 323-332) are in Cauchy/Bytes.lean. -/
namespace Verif.Cauchy
open Verif.GF

variable (w M : Nat) (T : Tab)

/-- cauchy_reed_solomon_erasure_coding.hh:31-35 `cauchy_matrix` -/
def cauchyMatrix (i j : Nat) : Option Nat := do
  let row ← mkValue w M i
  let col ← mkValue w M j
  let s ← addV w M row col
  let x ← index w M T s
  rcpI w M x

/-- cauchy_reed_solomon_erasure_coding.hh:55-61, the products that depend on the column only. -/
def rowProducts (rows : List Nat) (i n : Nat) : Option (Nat × Nat) := do
  let col_i ← mkValue w M i
  let one ← mkIndex w M 0
  forUp 0 n (one, one) fun k (num, den) => do
    let col_k ← mkValue w M k
    let r ← rd rows k
    let s ← addV w M r col_i
    let x ← index w M T s
    let num ← mulII w M num x
    if k ≠ i then do
      let d ← subV w M col_i col_k
      let y ← index w M T d
      let den ← mulII w M den y
      return (num, den)
    else return (num, den)

/-- cauchy_reed_solomon_erasure_coding.hh:54-64: the members are recomputed at the first block. -/
def rowInit (st : Nat × Nat) (rows : List Nat) (i j n : Nat) : Option (Nat × Nat) :=
  if j = 0 then rowProducts w M T rows i n else some st

/-- cauchy_reed_solomon_erasure_coding.hh:38-74 `inverse_cauchy_matrix` (the `#else` branch).  `st`
are the members `row_num`, `row_den`, kept between calls. -/
def inverseCauchy (st : Nat × Nat) (rows : List Nat) (i j n : Nat) : Option (Nat × (Nat × Nat)) := do
  let col_i ← mkValue w M i
  let st ← rowInit w M T st rows i j n
  let row_j ← rd rows j
  let (num, den) ← forUp 0 n st fun k (num, den) => do
    let col_k ← mkValue w M k
    let s ← addV w M row_j col_k
    let x ← index w M T s
    let num ← mulII w M num x
    if k ≠ j then do
      let row_k ← rd rows k
      let d ← subV w M row_j row_k
      let y ← index w M T d
      let den ← mulII w M den y
      return (num, den)
    else return (num, den)
  let s ← addV w M row_j col_i
  let x ← index w M T s
  let q ← mulII w M x den
  let b ← divII w M num q
  return (b, st)

/-- cauchy_reed_solomon_erasure_coding.hh:292-298: the scalar loops of `multiply_accumulate`;
`a` is the array and `off` the offset of the pointer argument in it. -/
def macScalar (c a : List Nat) (off b len : Nat) (init : Bool) : Option (List Nat) :=
  if init then
    forUp 0 len c fun i c => do
      let x ← rd a (off + i)
      let v ← mulIV w M T b x
      wr c i v
  else
    forUp 0 len c fun i c => do
      let x ← rd a (off + i)
      let y ← rd c i
      let v ← fmaIV w M T b x y
      wr c i v

/-! ### SIMD kernels

A register is a function from the lane number to the lane; only the lanes of the register are ever
used.  Multi-byte lanes are little endian. -/

abbrev Reg (k : Nat) := Nat → BitVec k

/-- The bytes of a register of 16-bit lanes. -/
def bytes (r : Reg 16) : Reg 8 := fun i =>
  if i % 2 = 0 then (r (i / 2)).setWidth 8 else (r (i / 2) >>> 8).setWidth 8

/-- The 16-bit lanes of a register of bytes. -/
def words (r : Reg 8) : Reg 16 := fun i => (r (2 * i + 1)).setWidth 16 <<< 8 ||| (r (2 * i)).setWidth 16

/-- `_mm_load_si128`, `_mm256_load_si256`, `vld1q_u8`, `vld1q_u16`: `n` lanes at `off`. -/
def load {k : Nat} (mem : List Nat) (off n : Nat) : Option (Reg k) := do
  assertUB (off + n ≤ mem.length)
  return fun i => BitVec.ofNat k (mem.getD (off + i) 0)

/-- `_mm_store_si128`, `_mm256_store_si256`, `vst1q_u8`, `vst1q_u16`. -/
def store {k : Nat} (mem : List Nat) (off n : Nat) (r : Reg k) : Option (List Nat) := do
  assertUB (off + n ≤ mem.length)
  return mem.take off ++ (List.range n).map (fun i => (r i).toNat) ++ mem.drop (off + n)

/-- `_mm_shuffle_epi8`, `_mm256_shuffle_epi8`: within groups of 16 bytes. -/
def shuffle (tab idx : Reg 8) : Reg 8 := fun i =>
  if (idx i).getLsbD 7 then 0 else tab (i / 16 * 16 + (idx i).toNat % 16)

/-- `vqtbl1q_u8`, also lines 76-82. -/
def tbl (tab idx : Reg 8) : Reg 8 := fun i => if (idx i).toNat < 16 then tab (idx i).toNat else 0

/-- `_mm256_broadcastsi128_si256`; the 16-byte registers are used unchanged with 16 lanes. -/
def broadcast (r : Reg 8) : Reg 8 := fun i => r (i % 16)

inductive Isa
  | neon
  | sse
  | avx2
deriving DecidableEq

/-- Bytes of a register; also the constant `SIMD` of cauchy_reed_solomon_erasure_coding.hh:283-287. -/
def Isa.width : Isa → Nat
  | .neon => 16
  | .sse => 16
  | .avx2 => 32

/-- The 16-byte table `l` applied to the nibbles `idx`. -/
def Isa.look (isa : Isa) (l : List Nat) (idx : Reg 8) : Reg 8 :=
  let r : Reg 8 := fun i => BitVec.ofNat 8 (l.getD i 0)
  match isa with
  | .neon => tbl r idx
  | .sse => shuffle r idx
  | .avx2 => shuffle (broadcast r) idx

/-- `x & 15` -/
def lowNibble (x : Reg 8) : Reg 8 := fun i => x i &&& 15#8

/-- `vshrq_n_u8(x, 4)`, respectively `(x >> 4 in 16-bit lanes) & 15`. -/
def Isa.highNibble (isa : Isa) (x : Reg 8) : Reg 8 :=
  match isa with
  | .neon => fun i => x i >>> 4
  | _ => lowNibble (bytes fun i => words x i >>> 4)

def rxor {k : Nat} (x y : Reg k) : Reg k := fun i => x i ^^^ y i

/-- cauchy_reed_solomon_erasure_coding.hh:88-92: the tables of `mac_simd(uint8_t *...)`. -/
def tables8 (b : Nat) : Option (List Nat × List Nat) :=
  forUp 0 16 (List.replicate 16 0, List.replicate 16 0) fun i (bl, bh) => do
    let v ← mkValue w M i
    let x ← mulIV w M T b v
    let bl ← wr bl i (x % 2 ^ 8)
    let v ← mkValue w M (i <<< 4)
    let x ← mulIV w M T b v
    let bh ← wr bh i (x % 2 ^ 8)
    return (bl, bh)

/-- cauchy_reed_solomon_erasure_coding.hh:103-104, 120-121, 134-135: `if (!init)` add the old content. -/
def acc8 (isa : Isa) (init : Bool) (c : List Nat) (j : Nat) (r : Reg 8) : Option (Reg 8) :=
  if init then some r
  else do
    let y ← load c (j * isa.width) isa.width
    return rxor r y

/-- cauchy_reed_solomon_erasure_coding.hh:86-140 `mac_simd(uint8_t *...)`: NEON lines 94-107, AVX2
lines 110-123, SSE lines 125-137. -/
def macSimd8 (isa : Isa) (c a : List Nat) (off b size : Nat) (init : Bool) : Option (List Nat) := do
  let (bl, bh) ← tables8 w M T b
  forUp 0 ((size + isa.width - 1) / isa.width) c fun j c => do
    let x ← load a (off + j * isa.width) isa.width
    let cl := isa.look bl (lowNibble x)
    let ch := isa.look bh (isa.highNibble x)
    let r := rxor cl ch
    let r ← acc8 isa init c j r
    store c (j * isa.width) isa.width r

/-- cauchy_reed_solomon_erasure_coding.hh:144-154: the eight tables, low bytes and high bytes of the
products with the four nibbles. -/
structure Tab16 where
  lll : List Nat
  llh : List Nat
  lhl : List Nat
  lhh : List Nat
  hll : List Nat
  hlh : List Nat
  hhl : List Nat
  hhh : List Nat

/-- cauchy_reed_solomon_erasure_coding.hh:145-154, one of the four pairs of tables. -/
def pair16 (b sh : Nat) : Option (List Nat × List Nat) :=
  forUp 0 16 (List.replicate 16 0, List.replicate 16 0) fun i (l, h) => do
    let v ← mkValue w M (i <<< sh)
    let x ← mulIV w M T b v
    let l ← wr l i (x % 2 ^ 8)
    let h ← wr h i ((x >>> 8) % 2 ^ 8)
    return (l, h)

/-- cauchy_reed_solomon_erasure_coding.hh:144-154.  (The four pairs are filled in one loop in the
code and one after the other here.) -/
def tables16 (b : Nat) : Option Tab16 := do
  let (lll, hll) ← pair16 w M T b 0
  let (llh, hlh) ← pair16 w M T b 4
  let (lhl, hhl) ← pair16 w M T b 8
  let (lhh, hhh) ← pair16 w M T b 12
  return ⟨lll, llh, lhl, lhh, hll, hlh, hhl, hhh⟩

/-- `(h << 8) | (l & 255)` in 16-bit lanes -/
def packLow (h l : Reg 16) : Reg 16 := fun i => (h i <<< 8) ||| (l i &&& 255#16)
/-- `(h & 0xff00) | (l >> 8)` in 16-bit lanes -/
def packHigh (h l : Reg 16) : Reg 16 := fun i => (h i &&& 0xff00#16) ||| (l i >>> 8)

/-- cauchy_reed_solomon_erasure_coding.hh:185-188, 231-234, 268-271: `if (!init)` add the old content. -/
def acc16 (isa : Isa) (init : Bool) (c : List Nat) (off : Nat) (r : Reg 16) : Option (Reg 16) :=
  if init then some r
  else do
    let y ← load c off (isa.width / 2)
    return rxor r y

/-- cauchy_reed_solomon_erasure_coding.hh:142-277 `mac_simd(uint16_t *...)`: NEON lines 156-192, AVX2
lines 194-237, SSE lines 239-274.  One iteration works on two registers of 16-bit lanes. -/
def macSimd16 (isa : Isa) (c a : List Nat) (off b size : Nat) (init : Bool) : Option (List Nat) := do
  let t ← tables16 w M T b
  let n := isa.width / 2
  forUp 0 ((size + isa.width - 1) / isa.width) c fun j c => do
    let al8 ← load a (off + j * isa.width) n
    let ah8 ← load a (off + j * isa.width + n) n
    let al := bytes (packLow ah8 al8)
    let ah := bytes (packHigh ah8 al8)
    let all := lowNibble al
    let alh := isa.highNibble al
    let ahl := lowNibble ah
    let ahh := isa.highNibble ah
    let cl := words (rxor (rxor (isa.look t.lll all) (isa.look t.llh alh)) (rxor (isa.look t.lhl ahl) (isa.look t.lhh ahh)))
    let ch := words (rxor (rxor (isa.look t.hll all) (isa.look t.hlh alh)) (rxor (isa.look t.hhl ahl) (isa.look t.hhh ahh)))
    let cl8 := packLow ch cl
    let ch8 := packHigh ch cl
    let cl8 ← acc16 isa init c (j * isa.width) cl8
    let ch8 ← acc16 isa init c (j * isa.width + n) ch8
    let c ← store c (j * isa.width) n cl8
    store c (j * isa.width + n) n ch8

/-- How the program was compiled, and the alignment of the two pointers of each call, which decides
between the kernels. -/
structure Build where
  /-- `none`: no SIMD instruction set -/
  isa : Option Isa
  /-- is the destination aligned -/
  alignedC : Bool
  /-- is the source of the `k`-th call aligned -/
  alignedA : Nat → Bool

/-- cauchy_reed_solomon_erasure_coding.hh:280-299 `multiply_accumulate`, the `k`-th call. -/
def multiplyAccumulate (B : Build) (k : Nat) (c a : List Nat) (off b len : Nat) (init : Bool) : Option (List Nat) :=
  match B.isa with
  | none => macScalar w M T c a off b len init
  | some isa =>
    if ((M = 8 ∧ w = 8) ∨ (M = 16 ∧ w = 16)) ∧ B.alignedC = true ∧ B.alignedA k = true ∧ len % isa.width = 0 then
      if w = 8 then macSimd8 w M T isa c a off b len init
      else macSimd16 w M T isa c a off b len init
    else macScalar w M T c a off b len init

/-- cauchy_reed_solomon_erasure_coding.hh:305, 312: the product `block_len * k` is computed in `int` before it is added to the pointer. -/
def intMul (x y : Nat) : Option Nat := do
  assertUB (x * y < 2 ^ 31)
  return x * y

/-- cauchy_reed_solomon_erasure_coding.hh:300-307 `encode`; returns the array `block`. -/
def encode (B : Build) (data block : List Nat) (block_id block_len block_cnt : Nat) : Option (List Nat) := do
  assertUB (block_cnt ≤ block_id ∧ block_id ≤ gN M)
  forUp 0 block_cnt block fun k block => do
    let a_ik ← cauchyMatrix w M T block_id k
    let off ← intMul block_len k
    multiplyAccumulate w M T B k block data off a_ik block_len (k == 0)

/-- cauchy_reed_solomon_erasure_coding.hh:308-314 `decode`; `st` are the members left by earlier
calls; returns the array `data` and the members. -/
def decode (B : Build) (st : Nat × Nat) (data blocks block_ids : List Nat) (block_idx block_len block_cnt : Nat) :
    Option (List Nat × (Nat × Nat)) :=
  forUp 0 block_cnt (data, st) fun k (data, st) => do
    let (b_ik, st) ← inverseCauchy w M T st block_ids block_idx k block_cnt
    let off ← intMul block_len k
    let data ← multiplyAccumulate w M T B k data blocks off b_ik block_len (k == 0)
    return (data, st)

end Verif.Cauchy
