import Verif.Core
import Verif.PolarHelper.Model
import Verif.Rotate.Model
/- Model of ldpc_encoder.hh and ldpc_decoder.hh.

A `TABLE` class is a structure of numbers and arrays.  `int8_t` is `Int` (see PolarHelper/Model.lean), a `SIMD<int8_t, SIZE>` is a
list of `SIZE` lanes, and the lane operations are those of the portable templates of simd.hh. -/
namespace Verif.LDPC
open Verif.PolarHelper (t8 sgn vqabs vqadd vsign vmin vmax)
open Verif.Rotate (rotate)

/-- The members of a `TABLE` class that the code uses (tests/ldpc_regression_test.cc:20-36).  `DEG`, `LEN` and `POS` are
non-negative there, so they are natural numbers here. -/
structure Table where
  M : Nat
  N : Nat
  K : Nat
  LINKS_MAX_CN : Nat
  LINKS_TOTAL : Nat
  DEG : List Nat
  LEN : List Nat
  POS : List Nat

namespace Table
/-- ldpc_encoder.hh:17, ldpc_decoder.hh:32 -/
def R (T : Table) : Nat := T.N - T.K
/-- ldpc_encoder.hh:18, ldpc_decoder.hh:33 -/
def q (T : Table) : Nat := T.R / T.M
/-- ldpc_encoder.hh:19, ldpc_decoder.hh:38 -/
def CNC (T : Table) : Nat := T.LINKS_MAX_CN - 2
end Table

/-- What both constructors know after the first loop nest: the array `pos` (elements `uint16_t`), the counters `cnc` (elements
`uint8_t`), `bit_pos`, and `row_ptr` as an index into `POS`. -/
structure Walk where
  pos : List Nat
  cnc : List Nat
  bit_pos : Nat
  row : Nat

/-- ldpc_encoder.hh:33-37, ldpc_decoder.hh:227-231: one row of the table.  `(M - m) % M` is on `int`s (C++ remainder), the
stored value is converted to `uint16_t`, the counter to `uint8_t`. -/
def walkRow (T : Table) (bit_deg : Nat) (w : Walk) : Option (List Nat × List Nat) :=
  forUp 0 bit_deg (w.pos, w.cnc) fun d s => do
    let x ← rd T.POS (w.row + d)
    let n := x % T.q
    let m := x / T.q
    let c ← rd s.2 n
    let v := ((w.bit_pos : Int) + ((T.M : Int) - (m : Int)).tmod T.M) % 65536
    let pos ← wr s.1 (T.CNC * n + c) v.toNat
    let cnc ← wr s.2 n ((c + 1) % 256)
    return (pos, cnc)

/-- ldpc_encoder.hh:32-40, ldpc_decoder.hh:226-234: the rows of group `g`. -/
def walkGroup (T : Table) (bit_deg len : Nat) (w : Walk) : Option Walk :=
  forUp 0 len w fun _ w => do
    let s ← walkRow T bit_deg w
    return ⟨s.1, s.2, w.bit_pos + T.M, w.row + bit_deg⟩

/-- ldpc_encoder.hh:30-41, ldpc_decoder.hh:224-235: `for (int g = 0; TABLE::LEN[g]; ++g)`.  Running off the end of `LEN` is UB,
so the fuel `LEN.length + 1` is never the reason for `none`. -/
def walkGroups (T : Table) : Nat → Nat → Walk → Option Walk
  | 0, _, _ => none
  | f + 1, g, w => do
    let len ← rd T.LEN g
    if len = 0 then some w else do
      let deg ← rd T.DEG g
      let w ← walkGroup T deg len w
      walkGroups T f (g + 1) w

/-- ldpc_encoder.hh:26-41, ldpc_decoder.hh:219-235.  `pos0`, `cnc0` are the uninitialised arrays. -/
def walk (T : Table) (pos0 cnc0 : List Nat) : Option Walk := do
  let cnc ← forUp 0 T.q cnc0 fun i cnc => wr cnc i 0
  walkGroups T (T.LEN.length + 1) 0 ⟨pos0, cnc, 0, 0⟩

/-- ldpc_encoder.hh:44-48, ldpc_decoder.hh:239-243: the arrays `offset` and `shift`.  A variable length array must not be empty. -/
def offShift (T : Table) (pos : List Nat) (i cnt : Nat) : Option (List Nat × List Nat) := do
  assertUB (0 < cnt)
  forUp 0 cnt (List.replicate cnt 0, List.replicate cnt 0) fun c s => do
    let p ← rd pos (T.CNC * i + c)
    let shift ← wr s.2 c (p % T.M)
    let offset ← wr s.1 c (p - p % T.M)
    return (offset, shift)

/-- ldpc_encoder.hh:50-53: the loop over `c` for one `j`. -/
def encFill (T : Table) (i j cnt : Nat) (offset : List Nat) (s : List Nat × List Nat) : Option (List Nat × List Nat) :=
  forUp 0 cnt s fun c s => do
    let h ← rd s.2 c
    let shift ← wr s.2 c ((h + 1) % T.M)
    let o ← rd offset c
    let h ← rd shift c
    let pos ← wr s.1 (T.CNC * (T.q * j + i) + c) ((o + h) % 65536)
    return (pos, shift)

/-- ldpc_encoder.hh:42-55 -/
def encExpand (T : Table) (cnc pos : List Nat) : Option (List Nat) :=
  forUp 0 T.q pos fun i pos => do
    let cnt ← rd cnc i
    let os ← offShift T pos i cnt
    let s ← forUp 1 T.M (pos, os.2) fun j s => encFill T i j cnt os.1 s
    return s.1

/-- An object of class `LDPCEncoder<TABLE>` (ldpc_encoder.hh:21-22). -/
structure Enc where
  pos : List Nat
  cnc : List Nat

/-- ldpc_encoder.hh:24-56; `pos0`, `cnc0` are the uninitialised members. -/
def mkEnc (T : Table) (pos0 cnc0 : List Nat) : Option Enc := do
  let w ← walk T pos0 cnc0
  let pos ← encExpand T w.cnc w.pos
  return ⟨pos, w.cnc⟩

/-- ldpc_encoder.hh:57-68 `operator()`; the result is `parity`.  `tmp *= ...` stores to an `int8_t`. -/
def encode (T : Table) (e : Enc) (data parity : List Int) : Option (List Int) := do
  let s ← forUp 0 T.M (1, parity) fun j s => forUp 0 T.q s fun i s => do
    let cnt ← rd e.cnc i
    let tmp ← forUp 0 cnt s.1 fun c tmp => do
      let p ← rd e.pos (T.CNC * (T.q * j + i) + c)
      let x ← rd data p
      return t8 (tmp * x)
    let parity ← wr s.2 (T.q * j + i) tmp
    return (tmp, parity)
  return s.2

/-! #### Decoder -/

/-- The template and build parameters of the decoder: `D` is `WORD_SIZE`, `S` is `SIMD_SIZE` (ldpc_decoder.hh:18-26), `BETA`
(ldpc_decoder.hh:15), and `junk`, a register whose contents stand for uninitialised SIMD registers. -/
structure Cfg where
  T : Table
  D : Nat
  S : Nat
  BETA : Int
  junk : List Int

namespace Cfg
/-- ldpc_decoder.hh:35 -/
def W (C : Cfg) : Nat := C.T.M / C.D
/-- ldpc_decoder.hh:36 -/
def PTY (C : Cfg) : Nat := C.T.R / C.D
/-- ldpc_decoder.hh:37 -/
def MSG (C : Cfg) : Nat := C.T.K / C.D
/-- ldpc_decoder.hh:39 -/
def BNL (C : Cfg) : Nat := (C.T.LINKS_TOTAL + C.D - 1) / C.D
/-- ldpc_decoder.hh:40 -/
def LOC (C : Cfg) : Nat := (C.T.LINKS_TOTAL - (2 * C.T.R - 1) + C.D - 1) / C.D
end Cfg

/-- ldpc_decoder.hh:43 -/
structure Loc where
  off : Nat
  shi : Nat
  deriving DecidableEq, Repr

/-- A SIMD register. -/
abbrev Reg := List Int

/-- The members of the decoder that change in `operator()` (ldpc_decoder.hh:48-50, 52). -/
structure St where
  bnl : List Reg
  msg : List Reg
  pty : List Reg
  wd : List Nat

/-- ldpc_decoder.hh:245-249: the loop over `c` for one `j`; `off` and `shi` are `uint16_t`. -/
def locFill (C : Cfg) (cnt lo : Nat) (offset : List Nat) (s : List Loc × List Nat) : Option (List Loc × List Nat) :=
  forUp 0 cnt s fun c s => do
    let o ← rd offset c
    let h ← rd s.2 c
    let loc ← wr s.1 (lo + c) ⟨(o / C.D + h % C.W) % 65536, h / C.W % 65536⟩
    let shift ← wr s.2 c ((h + 1) % C.T.M)
    return (loc, shift)

/-- ldpc_decoder.hh:251-254: the initial write disable mask. -/
def wdInit (wd : List Nat) (ix lo cnt : Nat) (loc : List Loc) : Option (List Nat) := do
  let wd ← wr wd ix 0
  forUp 0 (cnt - 1) wd fun c wd => do
    let a ← rd loc (lo + c)
    let b ← rd loc (lo + c + 1)
    if a.off = b.off then do
      let w ← rd wd ix
      wr wd ix (w ||| 1 <<< c)
    else some wd

/-- ldpc_decoder.hh:250: `std::sort` on `lo .. lo + cnt`, where `srt` is what it makes of the range. -/
def sortRange (srt : List Loc → List Loc) (loc : List Loc) (lo cnt : Nat) : Option (List Loc) := do
  assertUB (lo + cnt ≤ loc.length)
  return loc.take lo ++ srt ((loc.drop lo).take cnt) ++ loc.drop (lo + cnt)

/-- The members written by the second loop nest of the constructor, and `lo`. -/
structure Mk where
  loc : List Loc
  wd : List Nat
  lo : Nat

/-- ldpc_decoder.hh:236-257 -/
def mkLoc (C : Cfg) (srt : List Loc → List Loc) (cnc pos : List Nat) (loc0 : List Loc) (wd0 : List Nat) : Option Mk :=
  forUp 0 C.T.q (⟨loc0, wd0, 0⟩ : Mk) fun i m => do
    let cnt ← rd cnc i
    let os ← offShift C.T pos i cnt
    let s ← forUp 0 C.W (m, os.2) fun j (s : Mk × List Nat) => do
      let ls ← locFill C cnt s.1.lo os.1 (s.1.loc, s.2)
      let loc ← sortRange srt ls.1 s.1.lo cnt
      let wd ← wdInit s.1.wd (C.W * i + j) s.1.lo cnt loc
      return (⟨loc, wd, s.1.lo + cnt⟩, ls.2)
    return s.1

/-- The members of the decoder that are constant after construction. -/
structure Dec where
  loc : List Loc
  cnc : List Nat

/-- ldpc_decoder.hh:217-260; `pos0`, `cnc0`, `loc0`, `wd0` are the uninitialised arrays. -/
def mkDec (C : Cfg) (srt : List Loc → List Loc) (pos0 cnc0 : List Nat) (loc0 : List Loc) (wd0 : List Nat) :
    Option (Dec × List Nat) := do
  let w ← walk C.T pos0 cnc0
  let m ← mkLoc C srt w.cnc w.pos loc0 wd0
  return (⟨m.loc, w.cnc⟩, m.wd)

/-! Lane operations that are not in PolarHelper/Model.lean.  Masks are 8-bit patterns. -/

/-- `vmask`/`vreinterpret`: the bit pattern of an `int8_t`. -/
def bits (a : Int) : BitVec 8 := BitVec.ofInt 8 a
/-- All ones or all zeros, `-(cond)` converted to `uint8_t`. -/
def msk (c : Bool) : BitVec 8 := if c then 255#8 else 0#8
/-- ldpc_decoder.hh:55-58 (simd.hh: veor) -/
def eor (a b : Int) : Int := (bits a ^^^ bits b).toInt
/-- ldpc_decoder.hh:59-62 (simd.hh: vorr) -/
def orr (a b : Int) : Int := (bits a ||| bits b).toInt
/-- simd.hh:508-515 `vbsl` -/
def vbsl (a b c : BitVec 8) : BitVec 8 := (a &&& b) ||| (~~~ a &&& c)
/-- ldpc_decoder.hh:63-66 (simd.hh:868-875 vceq) -/
def other (a b c : Int) : Int := (vbsl (msk (a = b)) (bits c) (bits b)).toInt
/-- ldpc_decoder.hh:67-70 -/
def mine (a b : Int) : Int := orr (eor a b) 127
/-- ldpc_decoder.hh:71-74 (simd.hh:617 vceqz, 563 vcgtz, 671 vcltz) -/
def selfcorr (a b : Int) : Int := (bits b &&& (msk (a = 0) ||| (msk (a > 0) ^^^ msk (b < 0)))).toInt
/-- simd.hh:725 `vclez` -/
def vclez (a : Int) : BitVec 8 := msk (a ≤ 0)
/-- simd.hh:1192-1199 `vqsub` on `int8_t` -/
def vqsub (a b : Int) : Int := t8 (min (max (a - b) (-128)) 127)
/-- `vsigned(vqsub(vunsigned(a), vunsigned(vdup(BETA))))`, simd.hh:1210-1217 on `uint8_t` -/
def vqsubU (a b : Int) : Int := t8 (max (((bits a).toNat : Int) - ((bits b).toNat : Int)) 0)
/-- simd.hh:1030-1037 `vclamp` -/
def vclamp (x a b : Int) : Int := min (max x a) b

/-- ldpc_decoder.hh:86-100 and 126-140: link `k` of layer `(i, j)`. -/
def link (C : Cfg) (X : Dec) (msg pty : List Reg) (lo cnt i j k : Nat) : Option Reg :=
  if k < cnt then do
    let l ← rd X.loc (lo + k)
    let m ← rd msg l.off
    rotate C.D C.junk m (-(l.shi : Int))
  else if k = cnt then rd pty (C.W * i + j)
  else if i ≠ 0 then rd pty (C.W * (i - 1) + j)
  else if j ≠ 0 then rd pty (C.W * (C.T.q - 1) + j - 1)
  else do
    let t ← rdZ pty ((C.PTY : Int) - 1)
    let t ← rotate C.D C.junk t 1
    wr t 0 127

/-- ldpc_decoder.hh:84-103: the sign product of layer `(i, j)`. -/
def cnvOf (C : Cfg) (X : Dec) (msg pty : List Reg) (lo cnt i j : Nat) : Option Reg :=
  forUp 0 (cnt + 2) (List.replicate C.S 1) fun k cnv => do
    let tmp ← link C X msg pty lo cnt i j k
    return List.zipWith vsign cnv tmp

/-- ldpc_decoder.hh:106-108: does a lane of `res` signal a violated check? -/
def anyBad (C : Cfg) (res : List (BitVec 8)) : Option Bool :=
  forUp 0 C.D false fun n r => if r then some true else do
    let x ← rd res n
    return x != 0#8

/-- ldpc_decoder.hh:76-111 `bad` -/
def bad (C : Cfg) (X : Dec) (msg pty : List Reg) : Option Bool := do
  let s ← forUp 0 C.T.q (0, false) fun i s => if s.2 then some s else do
    let cnt ← rd X.cnc i
    let r ← forUp 0 C.W (s.1, List.replicate C.S 0#8) fun j (r : Nat × List (BitVec 8)) => do
      let cnv ← cnvOf C X msg pty r.1 cnt i j
      return (r.1 + cnt, List.zipWith (· ||| ·) r.2 (cnv.map vclez))
    let b ← anyBad C r.2
    return (r.1, b)
  return s.2

/-- The local variables of the first loop over the links (ldpc_decoder.hh:120-123). -/
structure Acc where
  mags : List Reg
  inps : List Reg
  min0 : Reg
  min1 : Reg
  signs : Reg

/-- ldpc_decoder.hh:144-149: the magnitude, reduced by `BETA`. -/
def magOf (BETA : Int) (inp : Int) : Int :=
  let mag := vqabs inp
  if BETA ≠ 0 then vqsubU mag (t8 BETA) else mag

/-- ldpc_decoder.hh:120-158 -/
def gather (C : Cfg) (X : Dec) (s : St) (lo bl cnt i j : Nat) : Option Acc :=
  let d := List.replicate C.S (127 : Int)
  forUp 0 (cnt + 2) (⟨List.replicate (cnt + 2) C.junk, List.replicate (cnt + 2) C.junk, d, d, d⟩ : Acc) fun k a => do
    let tmp ← link C X s.msg s.pty lo cnt i j k
    let b ← rd s.bnl (bl + k)
    let inp := List.zipWith vqsub tmp b
    let mag := inp.map (magOf C.BETA)
    let min1 := List.zipWith vmin a.min1 (List.zipWith vmax a.min0 mag)
    let min0 := List.zipWith vmin a.min0 mag
    let signs := List.zipWith eor a.signs inp
    let inps ← wr a.inps k inp
    let mags ← wr a.mags k mag
    return ⟨mags, inps, min0, min1, signs⟩

/-- ldpc_decoder.hh:160-167: the new message of link `k`. -/
def outOf (a : Acc) (mag inp b : Reg) : Reg :=
  let out := List.zipWith vsign (List.zipWith (fun (p : Int × Int) c => other p.1 p.2 c) (List.zip mag a.min0) a.min1)
    (List.zipWith mine a.signs inp)
  let out := out.map fun x => vclamp x (-31) 31
  List.zipWith selfcorr b out

/-- ldpc_decoder.hh:171-189: storing the message and the variable of link `k`. -/
def store (C : Cfg) (X : Dec) (s : St) (lo bl cnt i j k : Nat) (out tmp : Reg) : Option St :=
  if k < cnt then do
    let w ← rd s.wd (C.W * i + j)
    if w.testBit k then some s else do
      let bnl ← wr s.bnl (bl + k) out
      let l ← rd X.loc (lo + k)
      let r ← rotate C.D C.junk tmp l.shi
      let msg ← wr s.msg l.off r
      return { s with bnl := bnl, msg := msg }
  else if k = cnt then do
    let bnl ← wr s.bnl (bl + k) out
    let pty ← wr s.pty (C.W * i + j) tmp
    return { s with bnl := bnl, pty := pty }
  else do
    let bnl ← wr s.bnl (bl + k) out
    if i ≠ 0 then do
      let pty ← wr s.pty (C.W * (i - 1) + j) tmp
      return { s with bnl := bnl, pty := pty }
    else if j ≠ 0 then do
      let pty ← wr s.pty (C.W * (C.T.q - 1) + j - 1) tmp
      return { s with bnl := bnl, pty := pty }
    else do
      let t ← rdZ s.pty ((C.PTY : Int) - 1)
      let x ← rdZ t ((C.D : Int) - 1)
      let tmp ← wr tmp 0 x
      let r ← rotate C.D C.junk tmp (-1)
      let pty ← wrZ s.pty ((C.PTY : Int) - 1) r
      return { s with bnl := bnl, pty := pty }

/-- ldpc_decoder.hh:159-190 -/
def scatter (C : Cfg) (X : Dec) (a : Acc) (s : St) (lo bl cnt i j : Nat) : Option St :=
  forUp 0 (cnt + 2) s fun k s => do
    let mag ← rd a.mags k
    let inp ← rd a.inps k
    let b ← rd s.bnl (bl + k)
    let out := outOf a mag inp b
    let tmp := List.zipWith vqadd inp out
    store C X s lo bl cnt i j k out tmp

/-- ldpc_decoder.hh:198-203: rotating bits `first .. last` of the mask right by one.  `1 << count` is an `int`; the shift of the
mask must fit in 32 bits. -/
def rorField (cur first last : Nat) : Option Nat := do
  let count := last - first + 1
  assertUB (count ≤ 30)
  let mask := ((1 <<< count) - 1) <<< first
  assertUB (mask < 2 ^ 32)
  let tmp := cur &&& mask
  let ror := (tmp >>> 1) ||| ((tmp <<< (count - 1)) % 2 ^ 32)
  return (cur &&& (2 ^ 32 - 1 - mask)) ||| (ror &&& mask)

/-- ldpc_decoder.hh:191-208: the next write disable mask of the layer. -/
def wdNext (X : Dec) (wd : List Nat) (ix lo cnt : Nat) : Option (List Nat) := do
  let w ← rd wd ix
  if w ≠ 0 then do
    let s ← forUp 1 cnt (0, wd) fun c s => do
      let a ← rd X.loc (lo + s.1)
      let b ← rd X.loc (lo + c)
      if a.off ≠ b.off ∨ c = cnt - 1 then do
        let last := if c = cnt - 1 then c else c - 1
        if last ≠ s.1 then do
          let cur ← rd s.2 ix
          let v ← rorField cur s.1 last
          let wd ← wr s.2 ix v
          return (c, wd)
        else some (c, s.2)
      else some s
    return s.2
  else some wd

/-- ldpc_decoder.hh:120-210: one layer. -/
def layer (C : Cfg) (X : Dec) (s : St) (lo bl cnt i j : Nat) : Option St := do
  let a ← gather C X s lo bl cnt i j
  let s ← scatter C X a s lo bl cnt i j
  let wd ← wdNext X s.wd (C.W * i + j) lo cnt
  return { s with wd := wd }

/-- The state of the loops of `update`: the members and the pointers `lo` and `bl`. -/
structure Up where
  s : St
  lo : Nat
  bl : Nat

/-- ldpc_decoder.hh:112-215 `update` -/
def update (C : Cfg) (X : Dec) (s : St) : Option St := do
  let u ← forUp 0 C.T.q (⟨s, 0, 0⟩ : Up) fun i u => do
    let cnt ← rd X.cnc i
    forUp 0 C.W u fun j u => do
      let s ← layer C X u.s u.lo u.bl cnt i j
      return ⟨s, u.lo + cnt, u.bl + (cnt + 2)⟩
  return u.s

/-- `a[ix].v[n] = x` -/
def wrLane (a : List Reg) (ix n : Nat) (x : Int) : Option (List Reg) := do
  let v ← rd a ix
  let v ← wr v n x
  wr a ix v

/-- `a[ix].v[n]` -/
def rdLane (a : List Reg) (ix n : Nat) : Option Int := do
  let v ← rd a ix
  rd v n

/-- Triply nested loop `for i < I, j < J, n < N`. -/
def for3 {σ : Type} (I J N : Nat) (s : σ) (f : Nat → Nat → Nat → σ → Option σ) : Option σ :=
  forUp 0 I s fun i s => forUp 0 J s fun j s => forUp 0 N s fun n s => f i j n s

/-- ldpc_decoder.hh:263-272: clearing the messages and loading the two buffers. -/
def load (C : Cfg) (s : St) (message parity : List Int) : Option St := do
  let bnl ← forUp 0 C.BNL s.bnl fun i bnl => wr bnl i (List.replicate C.S 0)
  let msg ← for3 (C.T.K / C.T.M) C.W C.D s.msg fun i j n msg => do
    let x ← rd message (C.T.M * i + C.W * n + j)
    wrLane msg (C.W * i + j) n x
  let pty ← for3 C.T.q C.W C.D s.pty fun i j n pty => do
    let x ← rd parity (C.T.q * (C.W * n + j) + i)
    wrLane pty (C.W * i + j) n x
  return { s with bnl := bnl, msg := msg, pty := pty }

/-- ldpc_decoder.hh:275-282: storing the two buffers. -/
def unload (C : Cfg) (s : St) (message parity : List Int) : Option (List Int × List Int) := do
  let message ← for3 (C.T.K / C.T.M) C.W C.D message fun i j n message => do
    let x ← rdLane s.msg (C.W * i + j) n
    wr message (C.T.M * i + C.W * n + j) x
  let parity ← for3 C.T.q C.W C.D parity fun i j n parity => do
    let x ← rdLane s.pty (C.W * i + j) n
    wr parity (C.T.q * (C.W * n + j) + i) x
  return (message, parity)

/-- ldpc_decoder.hh:273-274: `while (bad() && --trials >= 0) update();` -/
def iter (C : Cfg) (X : Dec) : Nat → St → Int → Option (St × Int)
  | 0, _, _ => none
  | f + 1, s, trials => do
    let b ← bad C X s.msg s.pty
    if b then
      if trials - 1 ≥ 0 then do
        let s ← update C X s
        iter C X f s (trials - 1)
      else some (s, trials - 1)
    else some (s, trials)

/-- The result of a call of the decoder: the members afterwards, the two buffers and the returned `trials`. -/
structure Res where
  s : St
  message : List Int
  parity : List Int
  trials : Int

/-- ldpc_decoder.hh:261-284 `operator()` (the decrement of the most negative `int` is not modelled as overflow).  The loop makes at
most `max(trials, 0) + 1` rounds. -/
def decode (C : Cfg) (X : Dec) (s : St) (message parity : List Int) (trials : Int) : Option Res := do
  let s ← load C s message parity
  let r ← iter C X (trials.toNat + 1) s trials
  let o ← unload C r.1 message parity
  return ⟨r.1, o.1, o.2, r.2⟩

end Verif.LDPC
