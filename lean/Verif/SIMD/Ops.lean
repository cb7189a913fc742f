import Verif.SIMD.OkSse
import Verif.SIMD.OkSse2
import Verif.SIMD.OkSse3
import Verif.SIMD.OkSse4
import Verif.SIMD.OkAvx
import Verif.SIMD.OkAvx2
import Verif.SIMD.OkNeon
import Verif.SIMD.OkNeon2
import Verif.SIMD.OkNeon3
import Verif.SIMD.OkNeon4
/- The functions on `SIMD<int8_t, n>` and `SIMD<uint8_t, n>` that the decoders call, for every back end, and the code of
polar_helper.hh and ldpc_decoder.hh that is written in terms of them. -/
namespace Verif.SIMD

/-- The overloads that a compilation target provides; `R` is the register type. -/
structure Ops (R : Type) where
  n : Nat
  v : R → Nat → BitVec 8
  vdup : BitVec 8 → R
  vzero : R → R
  vqadd : R → R → R
  vqsub : R → R → R
  vqsubU : R → R → R
  vqabs : R → R
  vmul : R → R → R
  vsignum : R → R
  vsign : R → R → R
  vmin : R → R → R
  vmax : R → R → R
  vclamp : R → BitVec 8 → BitVec 8 → R
  vceq : R → R → R
  vceqz : R → R
  vcgtz : R → R
  vcltz : R → R
  vclez : R → R
  vand : R → R → R
  vorr : R → R → R
  veor : R → R → R
  vbsl : R → R → R → R
  vmask : R → R
  vback : R → R
  vshuf : R → R → R
  vshufU : R → R → R

/-- They all act on lanes like the portable templates, `vshuf` for indices that name a lane. -/
structure Ops.Ok {R : Type} (O : Ops R) : Prop where
  vdup : LiftDup O.n O.v O.vdup
  vzero : ∀ tmp, Lift0 O.n O.v (O.vzero tmp) 0
  vqadd : Lift2 O.n O.v O.vqadd P.vqadd
  vqsub : Lift2 O.n O.v O.vqsub P.vqsub
  vqsubU : Lift2 O.n O.v O.vqsubU P.vqsubU
  vqabs : Lift1 O.n O.v O.vqabs P.vqabs
  vmul : Lift2 O.n O.v O.vmul P.vmul
  vsignum : Lift1 O.n O.v O.vsignum P.vsignum
  vsign : Lift2 O.n O.v O.vsign P.vsign
  vmin : Lift2 O.n O.v O.vmin P.vmin
  vmax : Lift2 O.n O.v O.vmax P.vmax
  vclamp : LiftS O.n O.v O.vclamp P.vclamp
  vceq : Lift2 O.n O.v O.vceq P.vceq
  vceqz : Lift1 O.n O.v O.vceqz P.vceqz
  vcgtz : Lift1 O.n O.v O.vcgtz P.vcgtz
  vcltz : Lift1 O.n O.v O.vcltz P.vcltz
  vclez : Lift1 O.n O.v O.vclez P.vclez
  vand : Lift2 O.n O.v O.vand P.vand
  vorr : Lift2 O.n O.v O.vorr P.vorr
  veor : Lift2 O.n O.v O.veor P.veor
  vbsl : Lift3 O.n O.v O.vbsl P.vbsl
  vmask : Lift1 O.n O.v O.vmask fun x => x
  vback : Lift1 O.n O.v O.vback fun x => x
  vshuf : LiftShuf O.n (fun j => j < O.n) O.v O.v O.vshuf
  vshufU : LiftShuf O.n (fun j => j < O.n) O.v O.v O.vshufU

/-- simd.hh: all templates are the portable ones; a register is the array of its lanes. -/
def portOps (n : Nat) : Ops (Nat → BitVec 8) where
  n := n
  v a := a
  vdup x _ := x
  vzero tmp k := tmp k ^^^ tmp k
  vqadd a b k := P.vqadd (a k) (b k)
  vqsub a b k := P.vqsub (a k) (b k)
  vqsubU a b k := P.vqsubU (a k) (b k)
  vqabs a k := P.vqabs (a k)
  vmul a b k := P.vmul (a k) (b k)
  vsignum a k := P.vsignum (a k)
  vsign a b k := P.vsign (a k) (b k)
  vmin a b k := P.vmin (a k) (b k)
  vmax a b k := P.vmax (a k) (b k)
  vclamp x a b k := P.vclamp (x k) a b
  vceq a b k := P.vceq (a k) (b k)
  vceqz a k := P.vceqz (a k)
  vcgtz a k := P.vcgtz (a k)
  vcltz a k := P.vcltz (a k)
  vclez a k := P.vclez (a k)
  vand a b k := P.vand (a k) (b k)
  vorr a b k := P.vorr (a k) (b k)
  veor a b k := P.veor (a k) (b k)
  vbsl a b c k := P.vbsl (a k) (b k) (c k)
  vmask a := a
  vback a := a
  vshuf a b k := P.vshuf n a b k
  vshufU a b k := P.vshuf n a b k

theorem portOps_ok (n : Nat) : (portOps n).Ok where
  vdup _ _ _ := rfl
  vzero _ _ _ := BitVec.xor_self
  vqadd _ _ _ _ := rfl
  vqsub _ _ _ _ := rfl
  vqsubU _ _ _ _ := rfl
  vqabs _ _ _ := rfl
  vmul _ _ _ _ := rfl
  vsignum _ _ _ := rfl
  vsign _ _ _ _ := rfl
  vmin _ _ _ _ := rfl
  vmax _ _ _ _ := rfl
  vclamp _ _ _ _ _ := rfl
  vceq _ _ _ _ := rfl
  vceqz _ _ _ := rfl
  vcgtz _ _ _ := rfl
  vcltz _ _ _ := rfl
  vclez _ _ _ := rfl
  vand _ _ _ _ := rfl
  vorr _ _ _ _ := rfl
  veor _ _ _ _ := rfl
  vbsl _ _ _ _ _ := rfl
  vmask _ _ _ := rfl
  vback _ _ _ := rfl
  vshuf _ _ _ _ _ := rfl
  vshufU _ _ _ _ _ := rfl

/-- `vmul` has no SSE4.1 or AVX2 overload: the portable template on the lanes of a union. -/
def mulReg (N : Nat) (a b : BitVec N) : BitVec N := ofLanes N 8 fun k => P.vmul (lane 8 a k) (lane 8 b k)
/-- The same on several registers. -/
def mulRegs (N M : Nat) (a b : Nat → BitVec N) : Nat → BitVec N := regs M fun i => mulReg N (a i) (b i)

/-- sse4_1.hh: `SIMD<int8_t, 16>` -/
def sseOps : Ops (BitVec 128) where
  n := 16
  v := lane 8
  vdup := sse.vdup_i8
  vzero := fun _ => sse.vzero_i8
  vqadd := sse.vqadd_i8
  vqsub := sse.vqsub_i8
  vqsubU := sse.vqsub_u8
  vqabs := sse.vqabs_i8
  vmul := mulReg 128
  vsignum := sse.vsignum_i8
  vsign := sse.vsign_i8
  vmin := sse.vmin_i8
  vmax := sse.vmax_i8
  vclamp := sse.vclamp_i8
  vceq := sse.vceq_i8
  vceqz := sse.vceqz_i8
  vcgtz := sse.vcgtz_i8
  vcltz := sse.vcltz_i8
  vclez := sse.vclez_i8
  vand := sse.vand_u8
  vorr := sse.vorr_u8
  veor := sse.veor_u8
  vbsl := sse.vbsl_u8
  vmask := sse.vreinterpret_i8_u8
  vback := sse.vreinterpret_u8_i8
  vshuf := sse.vshuf_i8
  vshufU := sse.vshuf_u8

theorem sseOps_ok : sseOps.Ok where
  vdup := sse_ok.vdup_i8
  vzero := fun _ => sse_ok.vzero_i8
  vqadd := sse_ok.vqadd_i8
  vqsub := sse_ok.vqsub_i8
  vqsubU := sse_ok.vqsub_u8
  vqabs := sse_ok.vqabs_i8
  vmul := by
    intro a b k hk
    change k < 16 at hk
    change lane 8 (mulReg 128 a b) k = P.vmul (lane 8 a k) (lane 8 b k)
    simp (disch := omega) only [mulReg, lane_ofLanes]
  vsignum := sse_ok.vsignum_i8
  vsign := sse_ok.vsign_i8
  vmin := sse_ok.vmin_i8
  vmax := sse_ok.vmax_i8
  vclamp := sse_ok.vclamp_i8
  vceq := sse_ok.vceq_i8
  vceqz := sse_ok.vceqz_i8
  vcgtz := sse_ok.vcgtz_i8
  vcltz := sse_ok.vcltz_i8
  vclez := sse_ok.vclez_i8
  vand := sse_ok.vand_u8
  vorr := sse_ok.vorr_u8
  veor := sse_ok.veor_u8
  vbsl := sse_ok.vbsl_u8
  vmask := sse_ok.vreinterpret_i8_u8
  vback := sse_ok.vreinterpret_u8_i8
  vshuf := fun a b k hk hj => sse_ok.vshuf_i8 a b k hk (Or.inl hj)
  vshufU := fun a b k hk hj => sse_ok.vshuf_u8 a b k hk (Or.inl hj)

/-- sse4_1_double.hh: `SIMD<int8_t, 32>` -/
def sse2Ops : Ops (Nat → BitVec 128) where
  n := 32
  v := vw 128 8
  vdup := sse2.vdup_i8
  vzero := fun _ => sse2.vzero_i8
  vqadd := sse2.vqadd_i8
  vqsub := sse2.vqsub_i8
  vqsubU := sse2.vqsub_u8
  vqabs := sse2.vqabs_i8
  vmul := mulRegs 128 2
  vsignum := sse2.vsignum_i8
  vsign := sse2.vsign_i8
  vmin := sse2.vmin_i8
  vmax := sse2.vmax_i8
  vclamp := sse2.vclamp_i8
  vceq := sse2.vceq_i8
  vceqz := sse2.vceqz_i8
  vcgtz := sse2.vcgtz_i8
  vcltz := sse2.vcltz_i8
  vclez := sse2.vclez_i8
  vand := sse2.vand_u8
  vorr := sse2.vorr_u8
  veor := sse2.veor_u8
  vbsl := sse2.vbsl_u8
  vmask := sse2.vreinterpret_i8_u8
  vback := sse2.vreinterpret_u8_i8
  vshuf := sse2.vshuf_i8
  vshufU := sse2.vshuf_u8

theorem sse2Ops_ok : sse2Ops.Ok where
  vdup := sse2_ok.vdup_i8
  vzero := fun _ => sse2_ok.vzero_i8
  vqadd := sse2_ok.vqadd_i8
  vqsub := sse2_ok.vqsub_i8
  vqsubU := sse2_ok.vqsub_u8
  vqabs := sse2_ok.vqabs_i8
  vmul := by
    intro a b k hk
    change k < 32 at hk
    change vw 128 8 (mulRegs 128 2 a b) k = P.vmul (vw 128 8 a k) (vw 128 8 b k)
    simp (disch := omega) only [vw, mulRegs, mulReg, regs_lt, Nat.reduceDiv, lane_ofLanes]
  vsignum := sse2_ok.vsignum_i8
  vsign := sse2_ok.vsign_i8
  vmin := sse2_ok.vmin_i8
  vmax := sse2_ok.vmax_i8
  vclamp := sse2_ok.vclamp_i8
  vceq := sse2_ok.vceq_i8
  vceqz := sse2_ok.vceqz_i8
  vcgtz := sse2_ok.vcgtz_i8
  vcltz := sse2_ok.vcltz_i8
  vclez := sse2_ok.vclez_i8
  vand := sse2_ok.vand_u8
  vorr := sse2_ok.vorr_u8
  veor := sse2_ok.veor_u8
  vbsl := sse2_ok.vbsl_u8
  vmask := sse2_ok.vreinterpret_i8_u8
  vback := sse2_ok.vreinterpret_u8_i8
  vshuf := fun a b k hk hj => sse2_ok.vshuf_i8 a b k hk (Or.inl hj)
  vshufU := fun a b k hk hj => sse2_ok.vshuf_u8 a b k hk (Or.inl hj)

/-- sse4_1_triple.hh: `SIMD<int8_t, 48>` -/
def sse3Ops : Ops (Nat → BitVec 128) where
  n := 48
  v := vw 128 8
  vdup := sse3.vdup_i8
  vzero := fun _ => sse3.vzero_i8
  vqadd := sse3.vqadd_i8
  vqsub := sse3.vqsub_i8
  vqsubU := sse3.vqsub_u8
  vqabs := sse3.vqabs_i8
  vmul := mulRegs 128 3
  vsignum := sse3.vsignum_i8
  vsign := sse3.vsign_i8
  vmin := sse3.vmin_i8
  vmax := sse3.vmax_i8
  vclamp := sse3.vclamp_i8
  vceq := sse3.vceq_i8
  vceqz := sse3.vceqz_i8
  vcgtz := sse3.vcgtz_i8
  vcltz := sse3.vcltz_i8
  vclez := sse3.vclez_i8
  vand := sse3.vand_u8
  vorr := sse3.vorr_u8
  veor := sse3.veor_u8
  vbsl := sse3.vbsl_u8
  vmask := sse3.vreinterpret_i8_u8
  vback := sse3.vreinterpret_u8_i8
  vshuf := sse3.vshuf_i8
  vshufU := sse3.vshuf_u8

theorem sse3Ops_ok : sse3Ops.Ok where
  vdup := sse3_ok.vdup_i8
  vzero := fun _ => sse3_ok.vzero_i8
  vqadd := sse3_ok.vqadd_i8
  vqsub := sse3_ok.vqsub_i8
  vqsubU := sse3_ok.vqsub_u8
  vqabs := sse3_ok.vqabs_i8
  vmul := by
    intro a b k hk
    change k < 48 at hk
    change vw 128 8 (mulRegs 128 3 a b) k = P.vmul (vw 128 8 a k) (vw 128 8 b k)
    simp (disch := omega) only [vw, mulRegs, mulReg, regs_lt, Nat.reduceDiv, lane_ofLanes]
  vsignum := sse3_ok.vsignum_i8
  vsign := sse3_ok.vsign_i8
  vmin := sse3_ok.vmin_i8
  vmax := sse3_ok.vmax_i8
  vclamp := sse3_ok.vclamp_i8
  vceq := sse3_ok.vceq_i8
  vceqz := sse3_ok.vceqz_i8
  vcgtz := sse3_ok.vcgtz_i8
  vcltz := sse3_ok.vcltz_i8
  vclez := sse3_ok.vclez_i8
  vand := sse3_ok.vand_u8
  vorr := sse3_ok.vorr_u8
  veor := sse3_ok.veor_u8
  vbsl := sse3_ok.vbsl_u8
  vmask := sse3_ok.vreinterpret_i8_u8
  vback := sse3_ok.vreinterpret_u8_i8
  vshuf := fun a b k hk hj => sse3_ok.vshuf_i8 a b k hk (Or.inl hj)
  vshufU := fun a b k hk hj => sse3_ok.vshuf_u8 a b k hk (Or.inl hj)

/-- sse4_1_quadruple.hh: `SIMD<int8_t, 64>` -/
def sse4Ops : Ops (Nat → BitVec 128) where
  n := 64
  v := vw 128 8
  vdup := sse4.vdup_i8
  vzero := fun _ => sse4.vzero_i8
  vqadd := sse4.vqadd_i8
  vqsub := sse4.vqsub_i8
  vqsubU := sse4.vqsub_u8
  vqabs := sse4.vqabs_i8
  vmul := mulRegs 128 4
  vsignum := sse4.vsignum_i8
  vsign := sse4.vsign_i8
  vmin := sse4.vmin_i8
  vmax := sse4.vmax_i8
  vclamp := sse4.vclamp_i8
  vceq := sse4.vceq_i8
  vceqz := sse4.vceqz_i8
  vcgtz := sse4.vcgtz_i8
  vcltz := sse4.vcltz_i8
  vclez := sse4.vclez_i8
  vand := sse4.vand_u8
  vorr := sse4.vorr_u8
  veor := sse4.veor_u8
  vbsl := sse4.vbsl_u8
  vmask := sse4.vreinterpret_i8_u8
  vback := sse4.vreinterpret_u8_i8
  vshuf := sse4.vshuf_i8
  vshufU := sse4.vshuf_u8

theorem sse4Ops_ok : sse4Ops.Ok where
  vdup := sse4_ok.vdup_i8
  vzero := fun _ => sse4_ok.vzero_i8
  vqadd := sse4_ok.vqadd_i8
  vqsub := sse4_ok.vqsub_i8
  vqsubU := sse4_ok.vqsub_u8
  vqabs := sse4_ok.vqabs_i8
  vmul := by
    intro a b k hk
    change k < 64 at hk
    change vw 128 8 (mulRegs 128 4 a b) k = P.vmul (vw 128 8 a k) (vw 128 8 b k)
    simp (disch := omega) only [vw, mulRegs, mulReg, regs_lt, Nat.reduceDiv, lane_ofLanes]
  vsignum := sse4_ok.vsignum_i8
  vsign := sse4_ok.vsign_i8
  vmin := sse4_ok.vmin_i8
  vmax := sse4_ok.vmax_i8
  vclamp := sse4_ok.vclamp_i8
  vceq := sse4_ok.vceq_i8
  vceqz := sse4_ok.vceqz_i8
  vcgtz := sse4_ok.vcgtz_i8
  vcltz := sse4_ok.vcltz_i8
  vclez := sse4_ok.vclez_i8
  vand := sse4_ok.vand_u8
  vorr := sse4_ok.vorr_u8
  veor := sse4_ok.veor_u8
  vbsl := sse4_ok.vbsl_u8
  vmask := sse4_ok.vreinterpret_i8_u8
  vback := sse4_ok.vreinterpret_u8_i8
  vshuf := fun a b k hk hj => sse4_ok.vshuf_i8 a b k hk (Or.inl hj)
  vshufU := fun a b k hk hj => sse4_ok.vshuf_u8 a b k hk (Or.inl hj)

/-- avx2.hh: `SIMD<int8_t, 32>` -/
def avxOps : Ops (BitVec 256) where
  n := 32
  v := lane 8
  vdup := avx.vdup_i8
  vzero := fun _ => avx.vzero_i8
  vqadd := avx.vqadd_i8
  vqsub := avx.vqsub_i8
  vqsubU := avx.vqsub_u8
  vqabs := avx.vqabs_i8
  vmul := mulReg 256
  vsignum := avx.vsignum_i8
  vsign := avx.vsign_i8
  vmin := avx.vmin_i8
  vmax := avx.vmax_i8
  vclamp := avx.vclamp_i8
  vceq := avx.vceq_i8
  vceqz := avx.vceqz_i8
  vcgtz := avx.vcgtz_i8
  vcltz := avx.vcltz_i8
  vclez := avx.vclez_i8
  vand := avx.vand_u8
  vorr := avx.vorr_u8
  veor := avx.veor_u8
  vbsl := avx.vbsl_u8
  vmask := avx.vreinterpret_i8_u8
  vback := avx.vreinterpret_u8_i8
  vshuf := avx.vshuf_i8
  vshufU := avx.vshuf_u8

set_option maxRecDepth 4000 in
theorem avxOps_ok : avxOps.Ok where
  vdup := avx_ok.vdup_i8
  vzero := fun _ => avx_ok.vzero_i8
  vqadd := avx_ok.vqadd_i8
  vqsub := avx_ok.vqsub_i8
  vqsubU := avx_ok.vqsub_u8
  vqabs := avx_ok.vqabs_i8
  vmul := by
    intro a b k hk
    change k < 32 at hk
    change lane 8 (mulReg 256 a b) k = P.vmul (lane 8 a k) (lane 8 b k)
    simp (disch := omega) only [mulReg, lane_ofLanes]
  vsignum := avx_ok.vsignum_i8
  vsign := avx_ok.vsign_i8
  vmin := avx_ok.vmin_i8
  vmax := avx_ok.vmax_i8
  vclamp := avx_ok.vclamp_i8
  vceq := avx_ok.vceq_i8
  vceqz := avx_ok.vceqz_i8
  vcgtz := avx_ok.vcgtz_i8
  vcltz := avx_ok.vcltz_i8
  vclez := avx_ok.vclez_i8
  vand := avx_ok.vand_u8
  vorr := avx_ok.vorr_u8
  veor := avx_ok.veor_u8
  vbsl := avx_ok.vbsl_u8
  vmask := avx_ok.vreinterpret_i8_u8
  vback := avx_ok.vreinterpret_u8_i8
  vshuf := fun a b k hk hj => avx_ok.vshuf_i8 a b k hk (Or.inl hj)
  vshufU := fun a b k hk hj => avx_ok.vshuf_u8 a b k hk (Or.inl hj)

/-- avx2_double.hh: `SIMD<int8_t, 64>` -/
def avx2Ops : Ops (Nat → BitVec 256) where
  n := 64
  v := vw 256 8
  vdup := avx2.vdup_i8
  vzero := fun _ => avx2.vzero_i8
  vqadd := avx2.vqadd_i8
  vqsub := avx2.vqsub_i8
  vqsubU := avx2.vqsub_u8
  vqabs := avx2.vqabs_i8
  vmul := mulRegs 256 2
  vsignum := avx2.vsignum_i8
  vsign := avx2.vsign_i8
  vmin := avx2.vmin_i8
  vmax := avx2.vmax_i8
  vclamp := avx2.vclamp_i8
  vceq := avx2.vceq_i8
  vceqz := avx2.vceqz_i8
  vcgtz := avx2.vcgtz_i8
  vcltz := avx2.vcltz_i8
  vclez := avx2.vclez_i8
  vand := avx2.vand_u8
  vorr := avx2.vorr_u8
  veor := avx2.veor_u8
  vbsl := avx2.vbsl_u8
  vmask := avx2.vreinterpret_i8_u8
  vback := avx2.vreinterpret_u8_i8
  vshuf := avx2.vshuf_i8
  vshufU := avx2.vshuf_u8

theorem avx2Ops_ok : avx2Ops.Ok where
  vdup := avx2_ok.vdup_i8
  vzero := fun _ => avx2_ok.vzero_i8
  vqadd := avx2_ok.vqadd_i8
  vqsub := avx2_ok.vqsub_i8
  vqsubU := avx2_ok.vqsub_u8
  vqabs := avx2_ok.vqabs_i8
  vmul := by
    intro a b k hk
    change k < 64 at hk
    change vw 256 8 (mulRegs 256 2 a b) k = P.vmul (vw 256 8 a k) (vw 256 8 b k)
    simp (disch := omega) only [vw, mulRegs, mulReg, regs_lt, Nat.reduceDiv, lane_ofLanes]
  vsignum := avx2_ok.vsignum_i8
  vsign := avx2_ok.vsign_i8
  vmin := avx2_ok.vmin_i8
  vmax := avx2_ok.vmax_i8
  vclamp := avx2_ok.vclamp_i8
  vceq := avx2_ok.vceq_i8
  vceqz := avx2_ok.vceqz_i8
  vcgtz := avx2_ok.vcgtz_i8
  vcltz := avx2_ok.vcltz_i8
  vclez := avx2_ok.vclez_i8
  vand := avx2_ok.vand_u8
  vorr := avx2_ok.vorr_u8
  veor := avx2_ok.veor_u8
  vbsl := avx2_ok.vbsl_u8
  vmask := avx2_ok.vreinterpret_i8_u8
  vback := avx2_ok.vreinterpret_u8_i8
  vshuf := fun a b k hk hj => avx2_ok.vshuf_i8 a b k hk (Or.inl hj)
  vshufU := fun a b k hk hj => avx2_ok.vshuf_u8 a b k hk (Or.inl hj)

/-- neon.hh, AArch64: `SIMD<int8_t, 16>` -/
def neon_a64Ops : Ops (BitVec 128) where
  n := 16
  v := lane 8
  vdup := neon.vdup_i8
  vzero := neon.vzero_i8
  vqadd := neon.vqadd_i8
  vqsub := neon.vqsub_i8
  vqsubU := neon.vqsub_u8
  vqabs := neon.vqabs_i8
  vmul := neon.vmul_i8
  vsignum := neon.vsignum_i8
  vsign := neon.vsign_i8
  vmin := neon.vmin_i8
  vmax := neon.vmax_i8
  vclamp := neon.vclamp_i8
  vceq := neon.vceq_i8
  vceqz := neon.vceqz_i8
  vcgtz := neon.vcgtz_i8
  vcltz := neon.vcltz_i8
  vclez := neon.vclez_i8
  vand := neon.vand_u8
  vorr := neon.vorr_u8
  veor := neon.veor_u8
  vbsl := neon.vbsl_u8
  vmask := neon.vreinterpret_i8_u8
  vback := neon.vreinterpret_u8_i8
  vshuf := neon.vshuf_i8_a64
  vshufU := neon.vshuf_u8_a64

theorem neon_a64Ops_ok : neon_a64Ops.Ok where
  vdup := neon_ok.vdup_i8
  vzero := neon_ok.vzero_i8
  vqadd := neon_ok.vqadd_i8
  vqsub := neon_ok.vqsub_i8
  vqsubU := neon_ok.vqsub_u8
  vqabs := neon_ok.vqabs_i8
  vmul := neon_ok.vmul_i8
  vsignum := neon_ok.vsignum_i8
  vsign := neon_ok.vsign_i8
  vmin := neon_ok.vmin_i8
  vmax := neon_ok.vmax_i8
  vclamp := neon_ok.vclamp_i8
  vceq := neon_ok.vceq_i8
  vceqz := neon_ok.vceqz_i8
  vcgtz := neon_ok.vcgtz_i8
  vcltz := neon_ok.vcltz_i8
  vclez := neon_ok.vclez_i8
  vand := neon_ok.vand_u8
  vorr := neon_ok.vorr_u8
  veor := neon_ok.veor_u8
  vbsl := neon_ok.vbsl_u8
  vmask := neon_ok.vreinterpret_i8_u8
  vback := neon_ok.vreinterpret_u8_i8
  vshuf := fun a b k hk _ => neon_ok.vshuf_i8_a64 a b k hk trivial
  vshufU := fun a b k hk _ => neon_ok.vshuf_u8_a64 a b k hk trivial

/-- neon.hh, 32 bit: `SIMD<int8_t, 16>` -/
def neon_a32Ops : Ops (BitVec 128) where
  n := 16
  v := lane 8
  vdup := neon.vdup_i8
  vzero := neon.vzero_i8
  vqadd := neon.vqadd_i8
  vqsub := neon.vqsub_i8
  vqsubU := neon.vqsub_u8
  vqabs := neon.vqabs_i8
  vmul := neon.vmul_i8
  vsignum := neon.vsignum_i8
  vsign := neon.vsign_i8
  vmin := neon.vmin_i8
  vmax := neon.vmax_i8
  vclamp := neon.vclamp_i8
  vceq := neon.vceq_i8
  vceqz := neon.vceqz_i8
  vcgtz := neon.vcgtz_i8
  vcltz := neon.vcltz_i8
  vclez := neon.vclez_i8
  vand := neon.vand_u8
  vorr := neon.vorr_u8
  veor := neon.veor_u8
  vbsl := neon.vbsl_u8
  vmask := neon.vreinterpret_i8_u8
  vback := neon.vreinterpret_u8_i8
  vshuf := neon.vshuf_i8_a32
  vshufU := neon.vshuf_u8_a32

theorem neon_a32Ops_ok : neon_a32Ops.Ok where
  vdup := neon_ok.vdup_i8
  vzero := neon_ok.vzero_i8
  vqadd := neon_ok.vqadd_i8
  vqsub := neon_ok.vqsub_i8
  vqsubU := neon_ok.vqsub_u8
  vqabs := neon_ok.vqabs_i8
  vmul := neon_ok.vmul_i8
  vsignum := neon_ok.vsignum_i8
  vsign := neon_ok.vsign_i8
  vmin := neon_ok.vmin_i8
  vmax := neon_ok.vmax_i8
  vclamp := neon_ok.vclamp_i8
  vceq := neon_ok.vceq_i8
  vceqz := neon_ok.vceqz_i8
  vcgtz := neon_ok.vcgtz_i8
  vcltz := neon_ok.vcltz_i8
  vclez := neon_ok.vclez_i8
  vand := neon_ok.vand_u8
  vorr := neon_ok.vorr_u8
  veor := neon_ok.veor_u8
  vbsl := neon_ok.vbsl_u8
  vmask := neon_ok.vreinterpret_i8_u8
  vback := neon_ok.vreinterpret_u8_i8
  vshuf := fun a b k hk _ => neon_ok.vshuf_i8_a32 a b k hk trivial
  vshufU := fun a b k hk _ => neon_ok.vshuf_u8_a32 a b k hk trivial

/-- neon_double.hh: `SIMD<int8_t, 32>` -/
def neon2Ops : Ops (Nat → BitVec 128) where
  n := 32
  v := vw 128 8
  vdup := neon2.vdup_i8
  vzero := neon2.vzero_i8
  vqadd := neon2.vqadd_i8
  vqsub := neon2.vqsub_i8
  vqsubU := neon2.vqsub_u8
  vqabs := neon2.vqabs_i8
  vmul := neon2.vmul_i8
  vsignum := neon2.vsignum_i8
  vsign := neon2.vsign_i8
  vmin := neon2.vmin_i8
  vmax := neon2.vmax_i8
  vclamp := neon2.vclamp_i8
  vceq := neon2.vceq_i8
  vceqz := neon2.vceqz_i8
  vcgtz := neon2.vcgtz_i8
  vcltz := neon2.vcltz_i8
  vclez := neon2.vclez_i8
  vand := neon2.vand_u8
  vorr := neon2.vorr_u8
  veor := neon2.veor_u8
  vbsl := neon2.vbsl_u8
  vmask := neon2.vreinterpret_i8_u8
  vback := neon2.vreinterpret_u8_i8
  vshuf := neon2.vshuf_i8
  vshufU := neon2.vshuf_u8

theorem neon2Ops_ok : neon2Ops.Ok where
  vdup := neon2_ok.vdup_i8
  vzero := neon2_ok.vzero_i8
  vqadd := neon2_ok.vqadd_i8
  vqsub := neon2_ok.vqsub_i8
  vqsubU := neon2_ok.vqsub_u8
  vqabs := neon2_ok.vqabs_i8
  vmul := neon2_ok.vmul_i8
  vsignum := neon2_ok.vsignum_i8
  vsign := neon2_ok.vsign_i8
  vmin := neon2_ok.vmin_i8
  vmax := neon2_ok.vmax_i8
  vclamp := neon2_ok.vclamp_i8
  vceq := neon2_ok.vceq_i8
  vceqz := neon2_ok.vceqz_i8
  vcgtz := neon2_ok.vcgtz_i8
  vcltz := neon2_ok.vcltz_i8
  vclez := neon2_ok.vclez_i8
  vand := neon2_ok.vand_u8
  vorr := neon2_ok.vorr_u8
  veor := neon2_ok.veor_u8
  vbsl := neon2_ok.vbsl_u8
  vmask := neon2_ok.vreinterpret_i8_u8
  vback := neon2_ok.vreinterpret_u8_i8
  vshuf := fun a b k hk _ => neon2_ok.vshuf_i8 a b k hk trivial
  vshufU := fun a b k hk _ => neon2_ok.vshuf_u8 a b k hk trivial

/-- neon_triple.hh: `SIMD<int8_t, 48>` -/
def neon3Ops : Ops (Nat → BitVec 128) where
  n := 48
  v := vw 128 8
  vdup := neon3.vdup_i8
  vzero := neon3.vzero_i8
  vqadd := neon3.vqadd_i8
  vqsub := neon3.vqsub_i8
  vqsubU := neon3.vqsub_u8
  vqabs := neon3.vqabs_i8
  vmul := neon3.vmul_i8
  vsignum := neon3.vsignum_i8
  vsign := neon3.vsign_i8
  vmin := neon3.vmin_i8
  vmax := neon3.vmax_i8
  vclamp := neon3.vclamp_i8
  vceq := neon3.vceq_i8
  vceqz := neon3.vceqz_i8
  vcgtz := neon3.vcgtz_i8
  vcltz := neon3.vcltz_i8
  vclez := neon3.vclez_i8
  vand := neon3.vand_u8
  vorr := neon3.vorr_u8
  veor := neon3.veor_u8
  vbsl := neon3.vbsl_u8
  vmask := neon3.vreinterpret_i8_u8
  vback := neon3.vreinterpret_u8_i8
  vshuf := neon3.vshuf_i8
  vshufU := neon3.vshuf_u8

theorem neon3Ops_ok : neon3Ops.Ok where
  vdup := neon3_ok.vdup_i8
  vzero := neon3_ok.vzero_i8
  vqadd := neon3_ok.vqadd_i8
  vqsub := neon3_ok.vqsub_i8
  vqsubU := neon3_ok.vqsub_u8
  vqabs := neon3_ok.vqabs_i8
  vmul := neon3_ok.vmul_i8
  vsignum := neon3_ok.vsignum_i8
  vsign := neon3_ok.vsign_i8
  vmin := neon3_ok.vmin_i8
  vmax := neon3_ok.vmax_i8
  vclamp := neon3_ok.vclamp_i8
  vceq := neon3_ok.vceq_i8
  vceqz := neon3_ok.vceqz_i8
  vcgtz := neon3_ok.vcgtz_i8
  vcltz := neon3_ok.vcltz_i8
  vclez := neon3_ok.vclez_i8
  vand := neon3_ok.vand_u8
  vorr := neon3_ok.vorr_u8
  veor := neon3_ok.veor_u8
  vbsl := neon3_ok.vbsl_u8
  vmask := neon3_ok.vreinterpret_i8_u8
  vback := neon3_ok.vreinterpret_u8_i8
  vshuf := fun a b k hk _ => neon3_ok.vshuf_i8 a b k hk trivial
  vshufU := fun a b k hk _ => neon3_ok.vshuf_u8 a b k hk trivial

/-- neon_quadruple.hh: `SIMD<int8_t, 64>` -/
def neon4Ops : Ops (Nat → BitVec 128) where
  n := 64
  v := vw 128 8
  vdup := neon4.vdup_i8
  vzero := neon4.vzero_i8
  vqadd := neon4.vqadd_i8
  vqsub := neon4.vqsub_i8
  vqsubU := neon4.vqsub_u8
  vqabs := neon4.vqabs_i8
  vmul := neon4.vmul_i8
  vsignum := neon4.vsignum_i8
  vsign := neon4.vsign_i8
  vmin := neon4.vmin_i8
  vmax := neon4.vmax_i8
  vclamp := neon4.vclamp_i8
  vceq := neon4.vceq_i8
  vceqz := neon4.vceqz_i8
  vcgtz := neon4.vcgtz_i8
  vcltz := neon4.vcltz_i8
  vclez := neon4.vclez_i8
  vand := neon4.vand_u8
  vorr := neon4.vorr_u8
  veor := neon4.veor_u8
  vbsl := neon4.vbsl_u8
  vmask := neon4.vreinterpret_i8_u8
  vback := neon4.vreinterpret_u8_i8
  vshuf := neon4.vshuf_i8
  vshufU := neon4.vshuf_u8

theorem neon4Ops_ok : neon4Ops.Ok where
  vdup := neon4_ok.vdup_i8
  vzero := neon4_ok.vzero_i8
  vqadd := neon4_ok.vqadd_i8
  vqsub := neon4_ok.vqsub_i8
  vqsubU := neon4_ok.vqsub_u8
  vqabs := neon4_ok.vqabs_i8
  vmul := neon4_ok.vmul_i8
  vsignum := neon4_ok.vsignum_i8
  vsign := neon4_ok.vsign_i8
  vmin := neon4_ok.vmin_i8
  vmax := neon4_ok.vmax_i8
  vclamp := neon4_ok.vclamp_i8
  vceq := neon4_ok.vceq_i8
  vceqz := neon4_ok.vceqz_i8
  vcgtz := neon4_ok.vcgtz_i8
  vcltz := neon4_ok.vcltz_i8
  vclez := neon4_ok.vclez_i8
  vand := neon4_ok.vand_u8
  vorr := neon4_ok.vorr_u8
  veor := neon4_ok.veor_u8
  vbsl := neon4_ok.vbsl_u8
  vmask := neon4_ok.vreinterpret_i8_u8
  vback := neon4_ok.vreinterpret_u8_i8
  vshuf := fun a b k hk _ => neon4_ok.vshuf_i8 a b k hk trivial
  vshufU := fun a b k hk _ => neon4_ok.vshuf_u8 a b k hk trivial

end Verif.SIMD
