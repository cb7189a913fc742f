import Verif.Targets.Model
import Verif.LDPC.Model
import Verif.Rotate.Model
/- ldpc_decoder.hh and rotate.hh as they are compiled for a target: on its registers, with its overloads of the functions of simd.hh.
(LDPC/Model.lean has the same code on registers that are lists of lanes, with the portable rotation.) -/
namespace Verif.Targets
open Verif.SIMD
open Verif.LDPC (Table Cfg Dec Loc)
variable {R : Type}

namespace Target
variable (T : Target R)

/-- `a.v[k] = x` -/
def setLane (a : R) (k : Nat) (x : BitVec 8) : R := T.wrt fun i => if i = k then x else T.O.v a i
/-- The array `a.v`. -/
def bytes (a : R) : List (BitVec 8) := (List.range T.n).map (T.O.v a)
/-- A register whose `v` is the given array. -/
def ofBytes (l : List (BitVec 8)) : R := T.wrt fun k => l.getD k 0
/-- A row of an index table, stored as bytes. -/
def ofRow (l : List Nat) : R := T.wrt fun k => BitVec.ofNat 8 (l.getD k 0)

/-- rotate.hh:19-30 -/
def rotGen (WIDTH : Nat) (ret0 a : R) (s : Int) : Option R := do
  let r ← Rotate.rotate WIDTH (T.bytes ret0) (T.bytes a) s
  return T.ofBytes r

end Target

/-- rotate.hh:42-49, 52-53 and 122-129, 132-133: the row `rot[s]` that `operator()` of the single shuffle versions uses. -/
def rotRow (T : Target R) (WIDTH : Nat) (s : Int) : Option R := do
  let rot ← Rotate.rot16 WIDTH
  let s := if s < 0 then s + WIDTH else s
  let row ← rdZ rot s
  return T.ofRow row

/-- rotate.hh:130-137 (SSE4.1) -/
def rotSse (WIDTH : Nat) (_ret0 a : BitVec 128) (s : Int) : Option (BitVec 128) := do
  let r ← rotRow sse WIDTH s
  return _mm_shuffle_epi8 a r

/-- rotate.hh:50-56, 63 (AArch64) -/
def rotA64 (WIDTH : Nat) (_ret0 a : BitVec 128) (s : Int) : Option (BitVec 128) := do
  let r ← rotRow neon_a64 WIDTH s
  return vqtbl1q_s8 a r

/-- rotate.hh:50-54, 58-63 (32 bit ARM) -/
def rotA32 (WIDTH : Nat) (_ret0 a : BitVec 128) (s : Int) : Option (BitVec 128) := do
  let r ← rotRow neon_a32 WIDTH s
  let b := (vget_low_s8 a, vget_high_s8 a)
  let c := vtbl2_s8 b (vget_low_s8 r)
  let d := vtbl2_s8 b (vget_high_s8 r)
  return vcombine_s8 c d

/-- rotate.hh:77-110 (AVX2) -/
def rotAvx (WIDTH : Nat) (_ret0 a : BitVec 256) (s : Int) : Option (BitVec 256) := do
  let rot ← Rotate.rot32 WIDTH
  let s := if s < 0 then s + WIDTH else s
  let row ← rdZ rot s
  let b := _mm256_shuffle_epi8 a (avx.ofRow row.1)
  let c := _mm256_shuffle_epi8 a (avx.ofRow row.2)
  let d := _mm256_permute2x128_si256 c c 1
  return _mm256_or_si256 b d

/-- What an `LDPCDecoder<TABLE, BETA>` is compiled from: the target, its `Rotate<TYPE, D>` (width, uninitialised result, operand, shift),
`TABLE`, `WORD_SIZE`, `BETA`, and the contents of uninitialised registers. -/
structure LdpcT (R : Type) where
  T : Target R
  rot : Nat → R → R → Int → Option R
  tab : Table
  D : Nat
  BETA : Int
  junk : R

/-- The members of the decoder that change in `operator()` (ldpc_decoder.hh:48-50, 52). -/
structure StT (R : Type) where
  bnl : List R
  msg : List R
  pty : List R
  wd : List Nat

/-- The local variables of the first loop over the links (ldpc_decoder.hh:120-123). -/
structure AccT (R : Type) where
  mags : List R
  inps : List R
  min0 : R
  min1 : R
  signs : R

/-- The state of the loops of `update`. -/
structure UpT (R : Type) where
  s : StT R
  lo : Nat
  bl : Nat

namespace LdpcT
variable (C : LdpcT R)

/-- The lanes of a register, as numbers. -/
def lanes (a : R) : List Int := (List.range C.T.n).map (C.T.O.int a)
/-- The parameters as in LDPC/Model.lean; `SIMD_SIZE` is the number of lanes of the target. -/
def cfg : Cfg := ⟨C.tab, C.D, C.T.n, C.BETA, C.lanes C.junk⟩

/-- ldpc_decoder.hh:86-100 and 126-140: link `k` of layer `(i, j)`. -/
def link (X : Dec) (msg pty : List R) (lo cnt i j k : Nat) : Option R :=
  if k < cnt then do
    let l ← rd X.loc (lo + k)
    let m ← rd msg l.off
    C.rot C.D C.junk m (-(l.shi : Int))
  else if k = cnt then rd pty (C.cfg.W * i + j)
  else if i ≠ 0 then rd pty (C.cfg.W * (i - 1) + j)
  else if j ≠ 0 then rd pty (C.cfg.W * (C.tab.q - 1) + j - 1)
  else do
    let t ← rdZ pty ((C.cfg.PTY : Int) - 1)
    let t ← C.rot C.D C.junk t 1
    return C.T.setLane t 0 (BitVec.ofInt 8 127)

/-- ldpc_decoder.hh:84-103: the sign product of layer `(i, j)`. -/
def cnvOf (X : Dec) (msg pty : List R) (lo cnt i j : Nat) : Option R :=
  forUp 0 (cnt + 2) (C.T.O.vdup (BitVec.ofInt 8 1)) fun k cnv => do
    let tmp ← C.link X msg pty lo cnt i j k
    return C.T.O.vsign cnv tmp

/-- ldpc_decoder.hh:106-108 -/
def anyBad (res : R) : Option Bool :=
  forUp 0 C.D false fun n r => if r then some true else do
    let x ← rd (C.T.bytes res) n
    return x != 0#8

/-- ldpc_decoder.hh:76-111 `bad` -/
def bad (X : Dec) (msg pty : List R) : Option Bool := do
  let s ← forUp 0 C.tab.q (0, false) fun i s => if s.2 then some s else do
    let cnt ← rd X.cnc i
    let r ← forUp 0 C.cfg.W ((s.1, C.T.O.vmask (C.T.O.vzero C.junk)) : Nat × R) fun j (r : Nat × R) => do
      let cnv ← C.cnvOf X msg pty r.1 cnt i j
      return (r.1 + cnt, C.T.O.vorr r.2 (C.T.O.vclez cnv))
    let b ← C.anyBad r.2
    return (r.1, b)
  return s.2

/-- ldpc_decoder.hh:120-158 -/
def gather (X : Dec) (s : StT R) (lo bl cnt i j : Nat) : Option (AccT R) :=
  let d := C.T.O.vdup (BitVec.ofInt 8 127)
  forUp 0 (cnt + 2) (⟨List.replicate (cnt + 2) C.junk, List.replicate (cnt + 2) C.junk, d, d, d⟩ : AccT R) fun k a => do
    let tmp ← C.link X s.msg s.pty lo cnt i j k
    let b ← rd s.bnl (bl + k)
    let inp := C.T.O.vqsub tmp b
    let mag := C.T.O.magOf C.BETA inp
    let min1 := C.T.O.vmin a.min1 (C.T.O.vmax a.min0 mag)
    let min0 := C.T.O.vmin a.min0 mag
    let signs := C.T.O.eor a.signs inp
    let inps ← wr a.inps k inp
    let mags ← wr a.mags k mag
    return ⟨mags, inps, min0, min1, signs⟩

/-- ldpc_decoder.hh:171-189 -/
def store (X : Dec) (s : StT R) (lo bl cnt i j k : Nat) (out tmp : R) : Option (StT R) :=
  if k < cnt then do
    let w ← rd s.wd (C.cfg.W * i + j)
    if w.testBit k then some s else do
      let bnl ← wr s.bnl (bl + k) out
      let l ← rd X.loc (lo + k)
      let r ← C.rot C.D C.junk tmp l.shi
      let msg ← wr s.msg l.off r
      return { s with bnl := bnl, msg := msg }
  else if k = cnt then do
    let bnl ← wr s.bnl (bl + k) out
    let pty ← wr s.pty (C.cfg.W * i + j) tmp
    return { s with bnl := bnl, pty := pty }
  else do
    let bnl ← wr s.bnl (bl + k) out
    if i ≠ 0 then do
      let pty ← wr s.pty (C.cfg.W * (i - 1) + j) tmp
      return { s with bnl := bnl, pty := pty }
    else if j ≠ 0 then do
      let pty ← wr s.pty (C.cfg.W * (C.tab.q - 1) + j - 1) tmp
      return { s with bnl := bnl, pty := pty }
    else do
      let t ← rdZ s.pty ((C.cfg.PTY : Int) - 1)
      let x ← rdZ (C.T.bytes t) ((C.D : Int) - 1)
      let tmp := C.T.setLane tmp 0 x
      let r ← C.rot C.D C.junk tmp (-1)
      let pty ← wrZ s.pty ((C.cfg.PTY : Int) - 1) r
      return { s with bnl := bnl, pty := pty }

/-- ldpc_decoder.hh:159-190 -/
def scatter (X : Dec) (a : AccT R) (s : StT R) (lo bl cnt i j : Nat) : Option (StT R) :=
  forUp 0 (cnt + 2) s fun k s => do
    let mag ← rd a.mags k
    let inp ← rd a.inps k
    let b ← rd s.bnl (bl + k)
    let out := C.T.O.outOf mag a.min0 a.min1 a.signs inp b
    let tmp := C.T.O.vqadd inp out
    C.store X s lo bl cnt i j k out tmp

/-- ldpc_decoder.hh:120-210: one layer.  The write disable mask is handled by the same code on every target (LDPC/Model.lean). -/
def layer (X : Dec) (s : StT R) (lo bl cnt i j : Nat) : Option (StT R) := do
  let a ← C.gather X s lo bl cnt i j
  let s ← C.scatter X a s lo bl cnt i j
  let wd ← LDPC.wdNext X s.wd (C.cfg.W * i + j) lo cnt
  return { s with wd := wd }

/-- ldpc_decoder.hh:112-215 `update` -/
def update (X : Dec) (s : StT R) : Option (StT R) := do
  let u ← forUp 0 C.tab.q (⟨s, 0, 0⟩ : UpT R) fun i u => do
    let cnt ← rd X.cnc i
    forUp 0 C.cfg.W u fun j u => do
      let s ← C.layer X u.s u.lo u.bl cnt i j
      return ⟨s, u.lo + cnt, u.bl + (cnt + 2)⟩
  return u.s

/-- `a[ix].v[n] = x`, an `int8_t` -/
def wrLane (a : List R) (ix n : Nat) (x : Int) : Option (List R) := do
  let v ← rd a ix
  assertUB (n < C.T.n)
  wr a ix (C.T.setLane v n (BitVec.ofInt 8 x))

/-- `a[ix].v[n]` -/
def rdLane (a : List R) (ix n : Nat) : Option Int := do
  let v ← rd a ix
  rd (C.lanes v) n

/-- ldpc_decoder.hh:263-272 -/
def load (s : StT R) (message parity : List Int) : Option (StT R) := do
  let bnl ← forUp 0 C.cfg.BNL s.bnl fun i bnl => wr bnl i (C.T.O.vzero C.junk)
  let msg ← LDPC.for3 (C.tab.K / C.tab.M) C.cfg.W C.D s.msg fun i j n msg => do
    let x ← rd message (C.tab.M * i + C.cfg.W * n + j)
    C.wrLane msg (C.cfg.W * i + j) n x
  let pty ← LDPC.for3 C.tab.q C.cfg.W C.D s.pty fun i j n pty => do
    let x ← rd parity (C.tab.q * (C.cfg.W * n + j) + i)
    C.wrLane pty (C.cfg.W * i + j) n x
  return { s with bnl := bnl, msg := msg, pty := pty }

/-- ldpc_decoder.hh:275-282 -/
def unload (s : StT R) (message parity : List Int) : Option (List Int × List Int) := do
  let message ← LDPC.for3 (C.tab.K / C.tab.M) C.cfg.W C.D message fun i j n message => do
    let x ← C.rdLane s.msg (C.cfg.W * i + j) n
    wr message (C.tab.M * i + C.cfg.W * n + j) x
  let parity ← LDPC.for3 C.tab.q C.cfg.W C.D parity fun i j n parity => do
    let x ← C.rdLane s.pty (C.cfg.W * i + j) n
    wr parity (C.tab.q * (C.cfg.W * n + j) + i) x
  return (message, parity)

/-- ldpc_decoder.hh:273-274 -/
def iter (X : Dec) : Nat → StT R → Int → Option (StT R × Int)
  | 0, _, _ => none
  | f + 1, s, trials => do
    let b ← C.bad X s.msg s.pty
    if b then
      if trials - 1 ≥ 0 then do
        let s ← C.update X s
        iter X f s (trials - 1)
      else some (s, trials - 1)
    else some (s, trials)

end LdpcT

/-- The result of a call of the decoder: the members afterwards, the two buffers and the returned `trials`. -/
structure ResT (R : Type) where
  s : StT R
  message : List Int
  parity : List Int
  trials : Int

/-- ldpc_decoder.hh:261-284 `operator()` -/
def LdpcT.decode (C : LdpcT R) (X : Dec) (s : StT R) (message parity : List Int) (trials : Int) : Option (ResT R) := do
  let s ← C.load s message parity
  let r ← C.iter X (trials.toNat + 1) s trials
  let o ← C.unload r.1 message parity
  return ⟨r.1, o.1, o.2, r.2⟩

/-! ### The targets of ldpc_decoder.hh:18-26 -/

/-- simd.hh without intrinsics -/
def ldpcPort (tab : Table) (BETA : Int) (junk : Nat → BitVec 8) : LdpcT (Nat → BitVec 8) :=
  ⟨port 16 false, (port 16 false).rotGen, tab, 15, BETA, junk⟩
/-- `__SSE4_1__` without `__AVX2__` -/
def ldpcSse (tab : Table) (BETA : Int) (junk : BitVec 128) : LdpcT (BitVec 128) := ⟨sse, rotSse, tab, 15, BETA, junk⟩
/-- `__AVX2__` -/
def ldpcAvx (tab : Table) (BETA : Int) (junk : BitVec 256) : LdpcT (BitVec 256) := ⟨avx, rotAvx, tab, 30, BETA, junk⟩
/-- `__ARM_NEON` and `__aarch64__` -/
def ldpcA64 (tab : Table) (BETA : Int) (junk : BitVec 128) : LdpcT (BitVec 128) := ⟨neon_a64, rotA64, tab, 15, BETA, junk⟩
/-- `__ARM_NEON` -/
def ldpcA32 (tab : Table) (BETA : Int) (junk : BitVec 128) : LdpcT (BitVec 128) := ⟨neon_a32, rotA32, tab, 15, BETA, junk⟩

end Verif.Targets
