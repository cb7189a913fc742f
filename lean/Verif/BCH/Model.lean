import Verif.RS.Model
import Verif.Bits.Model
/- Model of bose_chaudhuri_hocquenghem_encoder.hh and bose_chaudhuri_hocquenghem_decoder.hh: the
bit-packed and the Reference classes.  The error correction and the syndromes are those of
Verif/RS/Model.lean. -/
namespace Verif.BCH
open Verif.Bits Verif.RS

/-! ## Encoder constructors -/

/-- Access to the coefficients of the generator: coefficient of `x^i`. -/
structure Store (σ : Type) where
  get : σ → Nat → Option Bool
  set : σ → Nat → Bool → Option σ
  xor : σ → Nat → Bool → Option σ

/-- bose_chaudhuri_hocquenghem_encoder.hh:42,44,46: coefficient `i` is bit `NP-i` of the byte array;
`NP-i` is computed in `int` and may be -1. -/
def packedStore (NP : Nat) : Store (List (BitVec 8)) where
  get g i := getBe g ((NP : Int) - i)
  set g i v := setBe g ((NP : Int) - i) v
  xor g i v := xorBe g ((NP : Int) - i) v

/-- bose_chaudhuri_hocquenghem_encoder.hh:41-47 and 106-112: multiplication of the generator by `m`
in place.  `m` is a positive `int`, so `(m>>j)&1` is its bit `j`. -/
def mulGen {σ : Type} (S : Store σ) (m gd md : Nat) (g : σ) : Option σ :=
  forDown 0 (gd + 1) g fun i g => do
    let b ← S.get g i
    if b = false then return g
    else do
      let g ← S.set g i (m.testBit 0)
      forUp 1 (md + 1) g fun j g => S.xor g (i + j) (m.testBit j)

/-- bose_chaudhuri_hocquenghem_encoder.hh:36-39: `m_degree`.  The fuel is the condition that the
shift count stays below 32, the width of `int`. -/
def degPacked (m : Nat) : Option Nat := do
  let d ← whileF 32 (fun d => m >>> d != 0) (fun d => some (d + 1)) 0
  return d - 1

/-- bose_chaudhuri_hocquenghem_encoder.hh:34-49, the loop over the minimal polynomials; `int`
arguments, so below `2^31`. -/
def mulAllPacked (NP : Nat) : List Nat → List (BitVec 8) × Nat → Option (List (BitVec 8) × Nat)
  | [], s => some s
  | m :: ms, (g, gd) => do
    assertUB (0 < m)
    let md ← degPacked m
    assertUB (gd + md ≤ NP + 1)
    let g ← mulGen (packedStore NP) m gd md g
    mulAllPacked NP ms (g, gd + md)

/-- bose_chaudhuri_hocquenghem_encoder.hh:27-60 `BoseChaudhuriHocquenghemEncoder()`: the member
`generator` of `G = (NP+8)/8` bytes, before uninitialised (`g0`). -/
def encInit (NP : Nat) (g0 : List (BitVec 8)) (polys : List Nat) : Option (List (BitVec 8)) := do
  let g ← forUp 0 ((NP + 1 + 7) / 8) g0 fun i g => wr g i 0#8
  let g ← setBe g NP true
  let (g, gd) ← mulAllPacked NP polys (g, 1)
  assertUB (gd = NP + 1)
  let g ← forUp 0 NP g fun i g => do
    let b ← getBe g ((i : Int) + 1)
    setBe g i b
  setBe g NP false

/-! ## Encoding -/

/-- bose_chaudhuri_hocquenghem_encoder.hh:22-25 `slb1`; the `int` result is truncated to `uint8_t`. -/
def slb1 (buf : List (BitVec 8)) (pos : Nat) : Option (BitVec 8) := do
  let a ← rd buf pos
  let b ← rd buf (pos + 1)
  return (a <<< 1) ||| (b >>> 7)

/-- bose_chaudhuri_hocquenghem_encoder.hh:68-76, one data bit.  `NP ≥ 1` is assumed, so
`(NP-1)/8` is the C++ value. -/
def encStep (NP : Nat) (gen data : List (BitVec 8)) (i : Nat) (parity : List (BitVec 8)) :
    Option (List (BitVec 8)) := do
  let d ← getBe data i
  let p ← getBe parity (0 : Nat)
  if d ≠ p then do
    let parity ← forUp 0 ((NP - 1) / 8) parity fun l parity => do
      let g ← rd gen l
      let s ← slb1 parity l
      wr parity l (g ^^^ s)
    let g ← rd gen ((NP - 1) / 8)
    let x ← rd parity ((NP - 1) / 8)
    wr parity ((NP - 1) / 8) (g ^^^ (x <<< 1))
  else do
    let parity ← forUp 0 ((NP - 1) / 8) parity fun l parity => do
      let s ← slb1 parity l
      wr parity l s
    let x ← rd parity ((NP - 1) / 8)
    wr parity ((NP - 1) / 8) (x <<< 1)

/-- bose_chaudhuri_hocquenghem_encoder.hh:61-78 `operator()` -/
def encode (NP K : Nat) (gen data parity : List (BitVec 8)) (data_len : Nat) :
    Option (List (BitVec 8)) := do
  assertUB (0 < data_len ∧ data_len ≤ K)
  let parity ← forUp 0 ((NP - 1) / 8 + 1) parity fun l parity => wr parity l 0#8
  forUp 0 data_len parity (encStep NP gen data)

/-! ## Reference encoder -/

variable {V I : Type} (O : Ops V I)

/-- `ValueType(bool)` -/
def bitV (b : Bool) : Option V := O.mkV (if b then 1 else 0)

/-- bose_chaudhuri_hocquenghem_encoder.hh:107,109,111: coefficient `i` is `generator[i]`. -/
def refStore : Store (List V) where
  get g i := do
    let x ← rd g i
    return O.num x != 0
  set g i v := do
    let b ← bitV O v
    wr g i b
  xor g i v := do
    let b ← bitV O v
    let x ← rd g i
    let y ← O.add x b
    wr g i y

/-- bose_chaudhuri_hocquenghem_encoder.hh:102-104: `m_degree`, from `M` downwards. -/
def degRef (M m : Nat) : Option Nat :=
  whileF (M + 1) (fun d => m >>> d == 0) (fun d => some (d - 1)) M

/-- bose_chaudhuri_hocquenghem_encoder.hh:100-114 -/
def mulAllRef (NP : Nat) : List Nat → List V × Nat → Option (List V × Nat)
  | [], s => some s
  | m :: ms, (g, gd) => do
    assertUB (0 < m ∧ m < 2 ^ (O.M + 1))
    let md ← degRef O.M m
    assertUB (gd + md ≤ NP + 1)
    let g ← mulGen (refStore O) m gd md g
    mulAllRef NP ms (g, gd + md)

/-- bose_chaudhuri_hocquenghem_encoder.hh:93-130 `BoseChaudhuriHocquenghemEncoderReference()`; the
block `if (0)` is dead code. -/
def refInit (NP : Nat) (polys : List Nat) : Option (List V) := do
  let one ← O.mkV 1
  let g ← wr (List.replicate (NP + 1) O.junk) 0 one
  let g ← forUp 1 (NP + 1) g fun i g => do
    let zero ← O.mkV 0
    wr g i zero
  let (g, gd) ← mulAllRef O NP polys (g, 1)
  assertUB (gd = NP + 1)
  return g

/-- bose_chaudhuri_hocquenghem_encoder.hh:138-146, one data symbol. -/
def refStep (NP : Nat) (gen data : List V) (i : Nat) (parity : List V) : Option (List V) := do
  let d ← rd data i
  let p ← rd parity 0
  if O.num d ≠ O.num p then do
    let parity ← forUp 1 NP parity fun j parity => do
      let g ← rd gen (NP - j)
      let p ← rd parity j
      let v ← O.add g p
      wr parity (j - 1) v
    let g0 ← rd gen 0
    wr parity (NP - 1) g0
  else do
    let parity ← forUp 1 NP parity fun j parity => do
      let p ← rd parity j
      wr parity (j - 1) p
    let zero ← O.mkV 0
    wr parity (NP - 1) zero

/-- bose_chaudhuri_hocquenghem_encoder.hh:131-148 `operator()` -/
def refEncode (NP K : Nat) (gen data parity : List V) (data_len : Nat) : Option (List V) := do
  assertUB (0 < data_len ∧ data_len ≤ K)
  let parity ← forUp 0 NP parity fun i parity => do
    let zero ← O.mkV 0
    wr parity i zero
  forUp 0 data_len parity (refStep O NP gen data)

/-! ## Decoders -/

/-- How a decoder reads and corrects the symbols of its two buffers (`true`: `data`). -/
structure Access (σ V : Type) where
  get : σ → Bool → Nat → Option V
  upd : σ → Bool → Nat → V → Option σ

/-- bose_chaudhuri_hocquenghem_decoder.hh:28,41 and 86-93: bits of the packed buffers; a correction
is `xor_be_bit(buf, idx, (bool)magnitude)`. -/
def packedAccess : Access (List (BitVec 8) × List (BitVec 8)) V where
  get s b j := do
    let x ← getBe (if b then s.1 else s.2) (j : Int)
    bitV O x
  upd s b j m :=
    if b then do
      let d ← xorBe s.1 (j : Int) (O.num m != 0)
      return (d, s.2)
    else do
      let p ← xorBe s.2 (j : Int) (O.num m != 0)
      return (s.1, p)

/-- bose_chaudhuri_hocquenghem_decoder.hh:115,128 and 169-175: symbols; a correction is `+=`. -/
def refAccess : Access (List V × List V) V where
  get s b j := rd (if b then s.1 else s.2) j
  upd s b j m :=
    if b then do
      let x ← rd s.1 j
      let y ← O.add x m
      let d ← wr s.1 j y
      return (d, s.2)
    else do
      let x ← rd s.2 j
      let y ← O.add x m
      let p ← wr s.2 j y
      return (s.1, p)

/-- bose_chaudhuri_hocquenghem_decoder.hh:83-85 and 166-168: is some magnitude not a bit?  (The
loop returns at the first hit and has no effects.) -/
def anyMagBig (mags : List V) (count : Nat) : Option Bool :=
  forUp 0 count false fun i r => do
    let m ← rd mags i
    return (r || decide (1 < O.num m))

/-- bose_chaudhuri_hocquenghem_decoder.hh:86-93 and 169-175. -/
def applyMags {σ : Type} (A : Access σ V) (K : Nat) (locs : List I) (mags : List V)
    (count data_len : Nat) (s : σ) : Option σ :=
  forUp 0 count s fun i s => do
    let l ← rd locs i
    let m ← rd mags i
    let idx := O.numI l + data_len - K
    if idx < data_len then A.upd s true idx m
    else A.upd s false (idx - data_len) m

/-- The buffers, the erasure list and the returned `int`. -/
structure Res (σ I : Type) where
  buf : σ
  erasures : List I
  ret : Int

/-- bose_chaudhuri_hocquenghem_decoder.hh:55-98 and 138-180 `operator()`; the blocks `if (0)` are
dead code.  In the packed decoder the erasures are `value_type`s, moved by `+= K - data_len` without
the assertion of `IndexType(...)` and then read as `IndexType`; a moved value that is not below `N`
is undefined here (`shiftErasures`), which is an assertion failure in the Reference decoder. -/
def decode {σ : Type} (A : Access σ V) (NR FCR K NP : Nat) (imap : List V) (buf : σ)
    (er : List I) (count data_len : Nat) : Option (Res σ I) := do
  assertUB (count ≤ NR)
  assertUB (0 < data_len ∧ data_len ≤ K)
  let er ← shiftErasures O K er count data_len
  let (syn, nz) ← computeSyndromes O NR FCR K NP (A.get buf true) (A.get buf false)
    (List.replicate NR O.junk) data_len
  if nz = 0 then return ⟨buf, er, 0⟩
  else do
    let r ← errorCorrection O NR FCR imap syn (List.replicate NR O.junkI)
      (List.replicate NR O.junk) er count
    if r.ret ≤ 0 then return ⟨buf, er, r.ret⟩
    else do
      let cnt := r.ret.toNat
      let bad ← anyLocBelow O r.locs cnt (K - data_len)
      if bad then return ⟨buf, er, -1⟩
      else do
        let big ← anyMagBig O r.mags cnt
        if big then return ⟨buf, er, -1⟩
        else do
          let buf ← applyMags O A K r.locs r.mags cnt data_len buf
          let c ← countNonzero O cnt r.mags
          return ⟨buf, er, (c : Int)⟩

end Verif.BCH
