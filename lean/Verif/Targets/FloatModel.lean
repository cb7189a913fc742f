import Verif.Targets.FloatVal
import Verif.Targets.Model
/- The polar coders for `TYPE = SIMD<float, n>` and `SIMD<double, n>` as they are compiled for a target: on its registers, with its overloads of
the functions of simd.hh.  (Polar/FloatList.lean has the decoders on registers that are functions.)  Registers hold bit patterns; metrics, which are
scalars, are modelled by their values. -/
namespace Verif.Targets
open Verif.SIMD Verif.Polar
open FlList (FReg)
variable {R : Type} {w : Nat}

/-- A compilation target: the overloads it provides for `SIMD<float, n>` or `SIMD<double, n>`, `vshufU` that for `SIMD<uint32_t, n>` or
`SIMD<uint64_t, n>`, and what `for (int k = 0; k < TYPE::SIZE; ++k) reg.v[k] = f(k);` makes of an uninitialised register. -/
structure FTarget (w : Nat) (R : Type) where
  X : Format w
  n : Nat
  v : R → Nat → BitVec w
  vdup : BitVec w → R
  vabs : R → R
  vsignum : R → R
  vmin : R → R → R
  vadd : R → R → R
  vmul : R → R → R
  vshuf : R → R → R
  vshufU : R → R → R
  wrt : (Nat → BitVec w) → R

/-- `metric`, `message`, `maps`, `*count` -/
structure LXFT (R : Type) where
  metric : List Fl
  message : List R
  maps : List R
  count : Nat

/-- `metric`, `message`, `maps`, `*index`, `*parity`, `*count` -/
structure PXFT (R : Type) where
  metric : List Fl
  message : List R
  maps : List R
  index : Nat
  parity : R
  count : Nat

namespace FTarget
variable (T : FTarget w R)

/-- The values of the lanes `a.v[0]`, `a.v[1]`, .. -/
def reg (a : R) : FReg T.n := fun k => T.X.val (T.v a k)
/-- The lanes of a register of unsigned integers. -/
def map (a : R) : LMap T.n := fun k => (T.v a k).toNat
/-- A register whose lanes are written one by one. -/
def setV (f : Fin T.n → BitVec w) : R := T.wrt fun k => if h : k < T.n then f ⟨k, h⟩ else 0
/-- The same for unsigned integers. -/
def setU (f : LMap T.n) : R := T.setV fun k => BitVec.ofNat w (f k)

/-- `PolarHelper<SIMD<VALUE, WIDTH>>`, polar_helper.hh:60-101 -/
def ph : PH R where
  one := T.vdup T.X.F.one
  signum := T.vsignum
  qmul := T.vmul
  prod a b := T.vmul (T.vmul (T.vsignum a) (T.vsignum b)) (T.vmin (T.vabs a) (T.vabs b))
  madd a b c := T.vadd (T.vmul a b) c

/-! ### The list decoder -/

/-- polar_list_decoder.hh:21-33, 42-52 -/
def listRate0 (M off : Nat) (s : Mem R (LXFT R)) : Option (Mem R (LXFT R) × R) := do
  let hard ← forUp 0 (2 ^ M) s.hard fun i hard => wr hard (off + i) T.ph.one
  let metric ← forUp 0 (2 ^ M) s.x.metric fun i metric => do
    let v ← rd s.soft (i + 2 ^ M)
    FlList.charge T.X.R (T.reg v) metric
  return ({ s with hard := hard, x := { s.x with metric := metric } }, T.setU (FlList.idMap (2 ^ w) T.n))

/-- polar_list_decoder.hh:64-73, polar_parity_aided.hh:121-130: `metric`, `map` and `hrd` -/
def prune (f metric : List Fl) : Option (List Fl × R × R) := do
  let r ← Verif.Sort.insertionSortIdx Fl.lt id (List.replicate (2 * T.n) 0) f (2 * T.n)
  let metric ← forUp 0 T.n metric fun k metric => do
    let m ← rd r.2 k
    wr metric k m
  let map ← tab fun k : Fin T.n => do
    let p ← rd r.1 k
    return BitVec.ofNat w (p >>> 1)
  let hrd ← tab fun k : Fin T.n => do
    let p ← rd r.1 k
    return T.X.F.ofSgn (1 - 2 * ((p &&& 1 : Nat) : Int))
  return (metric, T.setV map, T.setV hrd)

/-- polar_list_decoder.hh:53-79 without the accesses to `hard` and `soft` -/
def listFork (x : LXFT R) (sft : R) : Option (LXFT R × R × R) := do
  let f ← FlList.fork T.X.R (T.reg sft) x.metric
  let r ← T.prune f x.metric
  let message ← wr x.message x.count r.2.2
  let maps ← wr x.maps x.count r.2.1
  return (⟨r.1, message, maps, x.count + 1⟩, r.2.2, r.2.1)

/-- polar_list_decoder.hh:53-79 -/
def listRate1 (M off : Nat) (s : Mem R (LXFT R)) : Option (Mem R (LXFT R) × R) :=
  match M with
  | 0 => do
    let sft ← rd s.soft 1
    let r ← T.listFork s.x sft
    let hard ← wr s.hard off r.2.1
    return ({ s with hard := hard, x := r.1 }, r.2.2)
  | _ => none

/-- The recursion of polar_list_decoder.hh. -/
def listWalk : Walk R R (LXFT R) :=
  ⟨T.ph.prod, T.ph.madd, T.ph.qmul, T.vshuf, T.vshufU, false, T.listRate0, T.listRate1⟩

/-- polar_list_decoder.hh:318-322, polar_parity_aided.hh:385-389 -/
def backLoop (message maps : List R) (count : Nat) : Option (List R) := do
  let acc ← rdZ maps ((count : Int) - 1)
  let s ← forDown 0 (count - 1) (message, acc) fun i (s : List R × R) => do
    let m ← rd s.1 i
    let message ← wr s.1 i (T.vshuf m s.2)
    let mp ← rd maps i
    return (message, T.vshufU mp s.2)
  return s.1

/-- polar_list_decoder.hh:293-295, polar_parity_aided.hh:358-360: `soft[length+i] = vdup<TYPE>(codeword[i])` -/
def dupLoop (level : Nat) (codeword : List (BitVec w)) (soft : List R) : Option (List R) :=
  forUp 0 (2 ^ level) soft fun i soft => do
    let v ← rd codeword i
    wr soft (2 ^ level + i) (T.vdup v)

/-- polar_list_decoder.hh:285-323 `PolarListDecoder<SIMD<float, n>, MAX_M>::operator()` (or `double`) -/
def listDecode (MAX_M : Nat) (soft hard maps : List R) (metric : List Fl) (rank : Option (List Nat)) (message : List R) (codeword : List (BitVec w))
    (frozen : List Nat) (level : Nat) : Option (Option (List Nat) × List R × List Fl) := do
  assertUB (level ≤ MAX_M)
  let metric ← FlList.metric0 T.X.R T.n metric
  let soft ← T.dupLoop level codeword soft
  let r ← treeTop T.listWalk 16 frozen level ⟨⟨metric, message, maps, 0⟩, hard, soft⟩
  let rank ← FlList.rankOpt T.n r.1.x.metric rank
  let message ← T.backLoop r.1.x.message r.1.x.maps r.1.x.count
  return (rank, message, r.1.x.metric)

/-! ### The parity-aided decoder -/

/-- polar_parity_aided.hh:69-81, 90-100 -/
def parRate0 (M off : Nat) (s : Mem R (PXFT R)) : Option (Mem R (PXFT R) × R) := do
  let hard ← forUp 0 (2 ^ M) s.hard fun i hard => wr hard (off + i) T.ph.one
  let metric ← forUp 0 (2 ^ M) s.x.metric fun i metric => do
    let v ← rd s.soft (i + 2 ^ M)
    FlList.charge T.X.R (T.reg v) metric
  return ({ s with hard := hard, x := { s.x with metric := metric } }, T.setU (FlList.idMap (2 ^ w) T.n))

/-- polar_parity_aided.hh:101-144 without the accesses to `hard` and `soft` -/
def parFork (stride : Nat) (x : PXFT R) (sft : R) : Option (PXFT R × R × R) := do
  let f ← FlList.fork T.X.R (T.reg sft) x.metric
  let f ← (if x.count = 0 then FlList.forbid T.X.R (T.reg x.parity) f else some f)
  let parity : R := if x.count = 0 then T.ph.one else x.parity
  let r ← T.prune f x.metric
  if x.count ≠ 0 then do
    let message ← wr x.message x.index r.2.2
    let maps ← wr x.maps x.index r.2.1
    return (⟨r.1, message, maps, x.index + 1, T.ph.qmul (T.vshuf parity r.2.1) r.2.2, x.count - 1⟩, r.2.2, r.2.1)
  else do
    let m ← rdZ x.message ((x.index : Int) - 1)
    let message ← wrZ x.message ((x.index : Int) - 1) (T.vshuf m r.2.1)
    let mp ← rdZ x.maps ((x.index : Int) - 1)
    let maps ← wrZ x.maps ((x.index : Int) - 1) (T.vshufU mp r.2.1)
    return (⟨r.1, message, maps, x.index, parity, stride⟩, r.2.2, r.2.1)

/-- polar_parity_aided.hh:101-144 -/
def parRate1 (stride M off : Nat) (s : Mem R (PXFT R)) : Option (Mem R (PXFT R) × R) :=
  match M with
  | 0 => do
    let sft ← rd s.soft 1
    let r ← T.parFork stride s.x sft
    let hard ← wr s.hard off r.2.1
    return ({ s with hard := hard, x := r.1 }, r.2.2)
  | _ => none

/-- The recursion of polar_parity_aided.hh. -/
def parWalk (stride : Nat) : Walk R R (PXFT R) :=
  ⟨T.ph.prod, T.ph.madd, T.ph.qmul, T.vshuf, T.vshufU, false, T.parRate0, T.parRate1 stride⟩

/-- polar_parity_aided.hh:350-390 `PolarParityDecoder<SIMD<float, n>, MAX_M>::operator()` (or `double`) -/
def parDecode (MAX_M : Nat) (soft hard maps : List R) (metric : List Fl) (rank : Option (List Nat)) (message : List R) (codeword : List (BitVec w))
    (frozen : List Nat) (level stride first : Nat) : Option (Option (List Nat) × List R × List Fl) := do
  assertUB (level ≤ MAX_M)
  let metric ← FlList.metric0 T.X.R T.n metric
  let soft ← T.dupLoop level codeword soft
  let r ← treeTop (T.parWalk stride) 16 frozen level ⟨⟨metric, message, maps, 0, T.ph.one, first⟩, hard, soft⟩
  let rank ← FlList.rankOpt T.n r.1.x.metric rank
  let message ← T.backLoop r.1.x.message r.1.x.maps r.1.x.index
  return (rank, message, r.1.x.metric)

/-- Everything acts on lanes like the portable templates with the arithmetic `A`, `vshuf` for indices that name a lane; lanes that were written
are there. -/
structure Ok (T : FTarget w R) (A : Fpu w) : Prop where
  vdup : LiftDup T.n T.v T.vdup
  vabs : Lift1 T.n T.v T.vabs Fmt.vabs
  vsignum : LiftSignum T.X.F T.n T.v T.vsignum
  vmin : LiftNum2 T.X.F T.n T.v T.vmin T.X.F.vmin
  vadd : Lift2 T.n T.v T.vadd A.add
  vmul : Lift2 T.n T.v T.vmul A.mul
  vshuf : LiftShuf T.n (fun j => j < T.n) T.v T.v T.vshuf
  vshufU : LiftShuf T.n (fun j => j < T.n) T.v T.v T.vshufU
  wrt : ∀ f k, k < T.n → T.v (T.wrt f) k = f k

end FTarget

/-! ### The targets -/

/-- simd.hh without intrinsics, any number of lanes -/
def portF (X : Format w) (A : Fpu w) (n : Nat) : FTarget w (Nat → BitVec w) where
  X := X
  n := n
  v a k := a k
  vdup x _ := x
  vabs a k := Fmt.vabs (a k)
  vsignum a k := X.F.vsignum (a k)
  vmin a b k := X.F.vmin (a k) (b k)
  vadd a b k := A.add (a k) (b k)
  vmul a b k := A.mul (a k) (b k)
  vshuf a b k := P.vshuf n a b k
  vshufU a b k := P.vshuf n a b k
  wrt f := f

/-- The `vshuf` of simd.hh on a register of `n` lanes that is made of `m` registers of `N` bits. -/
def shufM (N w m : Nat) (n : Nat) (a b : Nat → BitVec N) : Nat → BitVec N :=
  regs m fun i => ofLanes N w fun k => P.vshuf n (vw N w a) (vw N w b) (N / w * i + k)

/-- sse4_1.hh, `float`; `vshuf` is that of simd.hh -/
def sseF32 (A : Fpu 32) : FTarget 32 (BitVec 128) :=
  ⟨float32, 4, lane 32, sse.vdup_f32, sse.vabs_f32, sse.vsignum_f32, sse.vmin_f32, sse.vadd_f32 A, sse.vmul_f32 A,
    fun a b => ofLanes 128 32 (P.vshuf 4 (lane 32 a) (lane 32 b)), fun a b => ofLanes 128 32 (P.vshuf 4 (lane 32 a) (lane 32 b)), ofLanes 128 32⟩
/-- sse4_1.hh, `double` -/
def sseF64 (A : Fpu 64) : FTarget 64 (BitVec 128) :=
  ⟨float64, 2, lane 64, sse.vdup_f64, sse.vabs_f64, sse.vsignum_f64, sse.vmin_f64, sse.vadd_f64 A, sse.vmul_f64 A,
    fun a b => ofLanes 128 64 (P.vshuf 2 (lane 64 a) (lane 64 b)), fun a b => ofLanes 128 64 (P.vshuf 2 (lane 64 a) (lane 64 b)), ofLanes 128 64⟩
/-- sse4_1_double.hh, `float` -/
def sse2F32 (A : Fpu 32) : FTarget 32 (Nat → BitVec 128) :=
  ⟨float32, 8, vw 128 32, sse2.vdup_f32, sse2.vabs_f32, sse2.vsignum_f32, sse2.vmin_f32, sse2.vadd_f32 A, sse2.vmul_f32 A,
    shufM 128 32 2 8, shufM 128 32 2 8, fun f => regs 2 fun i => ofLanes 128 32 fun k => f (4 * i + k)⟩
/-- sse4_1_double.hh, `double` -/
def sse2F64 (A : Fpu 64) : FTarget 64 (Nat → BitVec 128) :=
  ⟨float64, 4, vw 128 64, sse2.vdup_f64, sse2.vabs_f64, sse2.vsignum_f64, sse2.vmin_f64, sse2.vadd_f64 A, sse2.vmul_f64 A,
    shufM 128 64 2 4, shufM 128 64 2 4, fun f => regs 2 fun i => ofLanes 128 64 fun k => f (2 * i + k)⟩
/-- sse4_1_triple.hh, `float` -/
def sse3F32 (A : Fpu 32) : FTarget 32 (Nat → BitVec 128) :=
  ⟨float32, 12, vw 128 32, sse3.vdup_f32, sse3.vabs_f32, sse3.vsignum_f32, sse3.vmin_f32, sse3.vadd_f32 A, sse3.vmul_f32 A,
    shufM 128 32 3 12, shufM 128 32 3 12, fun f => regs 3 fun i => ofLanes 128 32 fun k => f (4 * i + k)⟩
/-- sse4_1_triple.hh, `double` -/
def sse3F64 (A : Fpu 64) : FTarget 64 (Nat → BitVec 128) :=
  ⟨float64, 6, vw 128 64, sse3.vdup_f64, sse3.vabs_f64, sse3.vsignum_f64, sse3.vmin_f64, sse3.vadd_f64 A, sse3.vmul_f64 A,
    shufM 128 64 3 6, shufM 128 64 3 6, fun f => regs 3 fun i => ofLanes 128 64 fun k => f (2 * i + k)⟩
/-- sse4_1_quadruple.hh, `float` -/
def sse4F32 (A : Fpu 32) : FTarget 32 (Nat → BitVec 128) :=
  ⟨float32, 16, vw 128 32, sse4.vdup_f32, sse4.vabs_f32, sse4.vsignum_f32, sse4.vmin_f32, sse4.vadd_f32 A, sse4.vmul_f32 A,
    shufM 128 32 4 16, shufM 128 32 4 16, fun f => regs 4 fun i => ofLanes 128 32 fun k => f (4 * i + k)⟩
/-- sse4_1_quadruple.hh, `double` -/
def sse4F64 (A : Fpu 64) : FTarget 64 (Nat → BitVec 128) :=
  ⟨float64, 8, vw 128 64, sse4.vdup_f64, sse4.vabs_f64, sse4.vsignum_f64, sse4.vmin_f64, sse4.vadd_f64 A, sse4.vmul_f64 A,
    shufM 128 64 4 8, shufM 128 64 4 8, fun f => regs 4 fun i => ofLanes 128 64 fun k => f (2 * i + k)⟩
/-- avx2.hh, `float` -/
def avxF32 (A : Fpu 32) : FTarget 32 (BitVec 256) :=
  ⟨float32, 8, lane 32, avx.vdup_f32, avx.vabs_f32, avx.vsignum_f32, avx.vmin_f32, avx.vadd_f32 A, avx.vmul_f32 A, avx.vshuf_f32, avx.vshuf_u32, ofLanes 256 32⟩
/-- avx2.hh, `double`; `vshuf` is that of simd.hh -/
def avxF64 (A : Fpu 64) : FTarget 64 (BitVec 256) :=
  ⟨float64, 4, lane 64, avx.vdup_f64, avx.vabs_f64, avx.vsignum_f64, avx.vmin_f64, avx.vadd_f64 A, avx.vmul_f64 A,
    fun a b => ofLanes 256 64 (P.vshuf 4 (lane 64 a) (lane 64 b)), fun a b => ofLanes 256 64 (P.vshuf 4 (lane 64 a) (lane 64 b)), ofLanes 256 64⟩
/-- avx2_double.hh, `float` -/
def avx2F32 (A : Fpu 32) : FTarget 32 (Nat → BitVec 256) :=
  ⟨float32, 16, vw 256 32, avx2.vdup_f32, avx2.vabs_f32, avx2.vsignum_f32, avx2.vmin_f32, avx2.vadd_f32 A, avx2.vmul_f32 A, avx2.vshuf_f32, avx2.vshuf_u32,
    fun f => regs 2 fun i => ofLanes 256 32 fun k => f (8 * i + k)⟩
/-- avx2_double.hh, `double` -/
def avx2F64 (A : Fpu 64) : FTarget 64 (Nat → BitVec 256) :=
  ⟨float64, 8, vw 256 64, avx2.vdup_f64, avx2.vabs_f64, avx2.vsignum_f64, avx2.vmin_f64, avx2.vadd_f64 A, avx2.vmul_f64 A,
    shufM 256 64 2 8, shufM 256 64 2 8, fun f => regs 2 fun i => ofLanes 256 64 fun k => f (4 * i + k)⟩
/-- neon.hh, `float`; there are no overloads for `double` -/
def neonF32 (A : Fpu 32) : FTarget 32 (BitVec 128) :=
  ⟨float32, 4, lane 32, neon.vdup_f32, neon.vabs_f32, neon.vsignum_f32, neon.vmin_f32, neon.vadd_f32 A, neon.vmul_f32 A,
    fun a b => ofLanes 128 32 (P.vshuf 4 (lane 32 a) (lane 32 b)), fun a b => ofLanes 128 32 (P.vshuf 4 (lane 32 a) (lane 32 b)), ofLanes 128 32⟩
/-- neon_double.hh, `float` -/
def neon2F32 (A : Fpu 32) : FTarget 32 (Nat → BitVec 128) :=
  ⟨float32, 8, vw 128 32, neon2.vdup_f32, neon2.vabs_f32, neon2.vsignum_f32, neon2.vmin_f32, neon2.vadd_f32 A, neon2.vmul_f32 A,
    shufM 128 32 2 8, shufM 128 32 2 8, fun f => regs 2 fun i => ofLanes 128 32 fun k => f (4 * i + k)⟩
/-- neon_triple.hh, `float` -/
def neon3F32 (A : Fpu 32) : FTarget 32 (Nat → BitVec 128) :=
  ⟨float32, 12, vw 128 32, neon3.vdup_f32, neon3.vabs_f32, neon3.vsignum_f32, neon3.vmin_f32, neon3.vadd_f32 A, neon3.vmul_f32 A,
    shufM 128 32 3 12, shufM 128 32 3 12, fun f => regs 3 fun i => ofLanes 128 32 fun k => f (4 * i + k)⟩
/-- neon_quadruple.hh, `float` -/
def neon4F32 (A : Fpu 32) : FTarget 32 (Nat → BitVec 128) :=
  ⟨float32, 16, vw 128 32, neon4.vdup_f32, neon4.vabs_f32, neon4.vsignum_f32, neon4.vmin_f32, neon4.vadd_f32 A, neon4.vmul_f32 A,
    shufM 128 32 4 16, shufM 128 32 4 16, fun f => regs 4 fun i => ofLanes 128 32 fun k => f (4 * i + k)⟩

/-! ### They act on lanes -/

theorem lane_mkF {N w n : Nat} (hN : N = w * n) (f : Nat → BitVec w) {k : Nat} (hk : k < n) : SIMD.lane w (ofLanes N w f) k = f k :=
  lane_ofLanes f (by subst hN; rw [Nat.mul_comm w]; exact Nat.mul_le_mul_right w hk)

theorem vw_mkF {N w n m : Nat} (hw : 0 < w) (hN : N = w * n) (hn : 0 < n) (f : Nat → BitVec w) {k : Nat} (hk : k < n * m) :
    vw N w (regs m fun i => ofLanes N w fun j => f (n * i + j)) k = f k := by
  have e : N / w = n := by subst hN; exact Nat.mul_div_cancel_left _ hw
  unfold vw
  rw [e, regs_lt _ (Nat.div_lt_of_lt_mul hk), lane_mkF hN _ (Nat.mod_lt _ hn), Nat.div_add_mod]

theorem shufM_ok {N w n m : Nat} (hw : 0 < w) (hN : N = w * n) (hn : 0 < n) : LiftShuf (n * m) (fun j => j < n * m) (vw N w) (vw N w) (shufM N w m (n * m)) := by
  intro a b k hk _
  have e : N / w = n := by subst hN; exact Nat.mul_div_cancel_left _ hw
  unfold shufM
  rw [e]
  exact vw_mkF hw hN hn _ hk

theorem shuf1_ok {N w n : Nat} (hN : N = w * n) : LiftShuf n (fun j => j < n) (SIMD.lane w) (SIMD.lane w) (fun a b : BitVec N => ofLanes N w (P.vshuf n (SIMD.lane w a) (SIMD.lane w b))) :=
  fun _ _ _ hk _ => lane_mkF hN _ hk

theorem portF_ok (X : Format w) (A : Fpu w) (n : Nat) : (portF X A n).Ok A :=
  ⟨fun _ _ _ => rfl, fun _ _ _ => rfl, fun _ _ _ _ => rfl, fun _ _ _ _ _ _ => Or.inl rfl, fun _ _ _ _ => rfl, fun _ _ _ _ => rfl, fun _ _ _ _ _ => rfl,
    fun _ _ _ _ _ => rfl, fun _ _ _ => rfl⟩

theorem sseF32_ok (A : Fpu 32) : (sseF32 A).Ok A :=
  ⟨SIMD.sse_ok.vdup_f32, SIMD.sse_ok.vabs_f32, SIMD.sse_ok.vsignum_f32, SIMD.sse_ok.vmin_f32, SIMD.sse_ok.vadd_f32 A, SIMD.sse_ok.vmul_f32 A,
    shuf1_ok (N := 128) (w := 32) (n := 4) (by norm_num), shuf1_ok (N := 128) (w := 32) (n := 4) (by norm_num), fun f _ h => lane_mkF (N := 128) (w := 32) (n := 4) (by norm_num) f h⟩
theorem sseF64_ok (A : Fpu 64) : (sseF64 A).Ok A :=
  ⟨SIMD.sse_ok.vdup_f64, SIMD.sse_ok.vabs_f64, SIMD.sse_ok.vsignum_f64, SIMD.sse_ok.vmin_f64, SIMD.sse_ok.vadd_f64 A, SIMD.sse_ok.vmul_f64 A,
    shuf1_ok (N := 128) (w := 64) (n := 2) (by norm_num), shuf1_ok (N := 128) (w := 64) (n := 2) (by norm_num), fun f _ h => lane_mkF (N := 128) (w := 64) (n := 2) (by norm_num) f h⟩
theorem sse2F32_ok (A : Fpu 32) : (sse2F32 A).Ok A :=
  ⟨SIMD.sse2_ok.vdup_f32, SIMD.sse2_ok.vabs_f32, SIMD.sse2_ok.vsignum_f32, SIMD.sse2_ok.vmin_f32, SIMD.sse2_ok.vadd_f32 A, SIMD.sse2_ok.vmul_f32 A,
    shufM_ok (n := 4) (m := 2) (by norm_num) rfl (by norm_num), shufM_ok (n := 4) (m := 2) (by norm_num) rfl (by norm_num), fun f _ h => vw_mkF (n := 4) (m := 2) (by norm_num) rfl (by norm_num) f h⟩
theorem sse2F64_ok (A : Fpu 64) : (sse2F64 A).Ok A :=
  ⟨SIMD.sse2_ok.vdup_f64, SIMD.sse2_ok.vabs_f64, SIMD.sse2_ok.vsignum_f64, SIMD.sse2_ok.vmin_f64, SIMD.sse2_ok.vadd_f64 A, SIMD.sse2_ok.vmul_f64 A,
    shufM_ok (n := 2) (m := 2) (by norm_num) rfl (by norm_num), shufM_ok (n := 2) (m := 2) (by norm_num) rfl (by norm_num), fun f _ h => vw_mkF (n := 2) (m := 2) (by norm_num) rfl (by norm_num) f h⟩
theorem sse3F32_ok (A : Fpu 32) : (sse3F32 A).Ok A :=
  ⟨SIMD.sse3_ok.vdup_f32, SIMD.sse3_ok.vabs_f32, SIMD.sse3_ok.vsignum_f32, SIMD.sse3_ok.vmin_f32, SIMD.sse3_ok.vadd_f32 A, SIMD.sse3_ok.vmul_f32 A,
    shufM_ok (n := 4) (m := 3) (by norm_num) rfl (by norm_num), shufM_ok (n := 4) (m := 3) (by norm_num) rfl (by norm_num), fun f _ h => vw_mkF (n := 4) (m := 3) (by norm_num) rfl (by norm_num) f h⟩
theorem sse3F64_ok (A : Fpu 64) : (sse3F64 A).Ok A :=
  ⟨SIMD.sse3_ok.vdup_f64, SIMD.sse3_ok.vabs_f64, SIMD.sse3_ok.vsignum_f64, SIMD.sse3_ok.vmin_f64, SIMD.sse3_ok.vadd_f64 A, SIMD.sse3_ok.vmul_f64 A,
    shufM_ok (n := 2) (m := 3) (by norm_num) rfl (by norm_num), shufM_ok (n := 2) (m := 3) (by norm_num) rfl (by norm_num), fun f _ h => vw_mkF (n := 2) (m := 3) (by norm_num) rfl (by norm_num) f h⟩
theorem sse4F32_ok (A : Fpu 32) : (sse4F32 A).Ok A :=
  ⟨SIMD.sse4_ok.vdup_f32, SIMD.sse4_ok.vabs_f32, SIMD.sse4_ok.vsignum_f32, SIMD.sse4_ok.vmin_f32, SIMD.sse4_ok.vadd_f32 A, SIMD.sse4_ok.vmul_f32 A,
    shufM_ok (n := 4) (m := 4) (by norm_num) rfl (by norm_num), shufM_ok (n := 4) (m := 4) (by norm_num) rfl (by norm_num), fun f _ h => vw_mkF (n := 4) (m := 4) (by norm_num) rfl (by norm_num) f h⟩
theorem sse4F64_ok (A : Fpu 64) : (sse4F64 A).Ok A :=
  ⟨SIMD.sse4_ok.vdup_f64, SIMD.sse4_ok.vabs_f64, SIMD.sse4_ok.vsignum_f64, SIMD.sse4_ok.vmin_f64, SIMD.sse4_ok.vadd_f64 A, SIMD.sse4_ok.vmul_f64 A,
    shufM_ok (n := 2) (m := 4) (by norm_num) rfl (by norm_num), shufM_ok (n := 2) (m := 4) (by norm_num) rfl (by norm_num), fun f _ h => vw_mkF (n := 2) (m := 4) (by norm_num) rfl (by norm_num) f h⟩
theorem lane256 {w n : Nat} (hN : ∀ k, k < n → (k + 1) * w ≤ 256) (f : Nat → BitVec w) : ∀ k, k < n → SIMD.lane w (ofLanes 256 w f) k = f k := by
  have e : ∀ N, 256 ≤ N → ∀ k, k < n → SIMD.lane w (ofLanes N w f) k = f k := fun N h k hk => lane_ofLanes f ((hN k hk).trans h)
  exact e 256 (by norm_num)
theorem avx_shuf64 : LiftShuf 4 (fun j => j < 4) (SIMD.lane 64) (SIMD.lane 64) (fun a b : BitVec 256 => ofLanes 256 64 (P.vshuf 4 (SIMD.lane 64 a) (SIMD.lane 64 b))) := by
  intro a b k hk _
  dsimp only
  rw [lane256 (n := 4) (fun k _ => by omega) _ k hk]
set_option maxRecDepth 8000 in
theorem avxF32_ok (A : Fpu 32) : (avxF32 A).Ok A := by
  refine ⟨SIMD.avx_ok.vdup_f32, SIMD.avx_ok.vabs_f32, SIMD.avx_ok.vsignum_f32, SIMD.avx_ok.vmin_f32, SIMD.avx_ok.vadd_f32 A, SIMD.avx_ok.vmul_f32 A,
    SIMD.avx_ok.vshuf_f32, SIMD.avx_ok.vshuf_u32, fun f k h => ?_⟩
  have h : k < 8 := h
  unfold avxF32
  dsimp only
  rw [lane256 (n := 8) (fun k _ => by omega) f k h]
set_option maxRecDepth 8000 in
theorem avxF64_ok (A : Fpu 64) : (avxF64 A).Ok A := by
  refine ⟨SIMD.avx_ok.vdup_f64, SIMD.avx_ok.vabs_f64, SIMD.avx_ok.vsignum_f64, SIMD.avx_ok.vmin_f64, SIMD.avx_ok.vadd_f64 A, SIMD.avx_ok.vmul_f64 A,
    avx_shuf64, avx_shuf64, fun f k h => ?_⟩
  have h : k < 4 := h
  unfold avxF64
  dsimp only
  rw [lane256 (n := 4) (fun k _ => by omega) f k h]
theorem avx2F32_ok (A : Fpu 32) : (avx2F32 A).Ok A :=
  ⟨SIMD.avx2_ok.vdup_f32, SIMD.avx2_ok.vabs_f32, SIMD.avx2_ok.vsignum_f32, SIMD.avx2_ok.vmin_f32, SIMD.avx2_ok.vadd_f32 A, SIMD.avx2_ok.vmul_f32 A,
    SIMD.avx2_ok.vshuf_f32, SIMD.avx2_ok.vshuf_u32, fun f _ h => vw_mkF (n := 8) (m := 2) (by norm_num) rfl (by norm_num) f h⟩
theorem avx2F64_ok (A : Fpu 64) : (avx2F64 A).Ok A :=
  ⟨SIMD.avx2_ok.vdup_f64, SIMD.avx2_ok.vabs_f64, SIMD.avx2_ok.vsignum_f64, SIMD.avx2_ok.vmin_f64, SIMD.avx2_ok.vadd_f64 A, SIMD.avx2_ok.vmul_f64 A,
    shufM_ok (n := 4) (m := 2) (by norm_num) rfl (by norm_num), shufM_ok (n := 4) (m := 2) (by norm_num) rfl (by norm_num), fun f _ h => vw_mkF (n := 4) (m := 2) (by norm_num) rfl (by norm_num) f h⟩
theorem neonF32_ok (A : Fpu 32) : (neonF32 A).Ok A :=
  ⟨SIMD.neon_ok.vdup_f32, SIMD.neon_ok.vabs_f32, SIMD.neon_ok.vsignum_f32, SIMD.neon_ok.vmin_f32, SIMD.neon_ok.vadd_f32 A, SIMD.neon_ok.vmul_f32 A,
    shuf1_ok (N := 128) (w := 32) (n := 4) (by norm_num), shuf1_ok (N := 128) (w := 32) (n := 4) (by norm_num), fun f _ h => lane_mkF (N := 128) (w := 32) (n := 4) (by norm_num) f h⟩
theorem neon2F32_ok (A : Fpu 32) : (neon2F32 A).Ok A :=
  ⟨SIMD.neon2_ok.vdup_f32, SIMD.neon2_ok.vabs_f32, SIMD.neon2_ok.vsignum_f32, SIMD.neon2_ok.vmin_f32, SIMD.neon2_ok.vadd_f32 A, SIMD.neon2_ok.vmul_f32 A,
    shufM_ok (n := 4) (m := 2) (by norm_num) rfl (by norm_num), shufM_ok (n := 4) (m := 2) (by norm_num) rfl (by norm_num), fun f _ h => vw_mkF (n := 4) (m := 2) (by norm_num) rfl (by norm_num) f h⟩
theorem neon3F32_ok (A : Fpu 32) : (neon3F32 A).Ok A :=
  ⟨SIMD.neon3_ok.vdup_f32, SIMD.neon3_ok.vabs_f32, SIMD.neon3_ok.vsignum_f32, SIMD.neon3_ok.vmin_f32, SIMD.neon3_ok.vadd_f32 A, SIMD.neon3_ok.vmul_f32 A,
    shufM_ok (n := 4) (m := 3) (by norm_num) rfl (by norm_num), shufM_ok (n := 4) (m := 3) (by norm_num) rfl (by norm_num), fun f _ h => vw_mkF (n := 4) (m := 3) (by norm_num) rfl (by norm_num) f h⟩
theorem neon4F32_ok (A : Fpu 32) : (neon4F32 A).Ok A :=
  ⟨SIMD.neon4_ok.vdup_f32, SIMD.neon4_ok.vabs_f32, SIMD.neon4_ok.vsignum_f32, SIMD.neon4_ok.vmin_f32, SIMD.neon4_ok.vadd_f32 A, SIMD.neon4_ok.vmul_f32 A,
    shufM_ok (n := 4) (m := 4) (by norm_num) rfl (by norm_num), shufM_ok (n := 4) (m := 4) (by norm_num) rfl (by norm_num), fun f _ h => vw_mkF (n := 4) (m := 4) (by norm_num) rfl (by norm_num) f h⟩

end Verif.Targets
