import Verif.SIMD.OkNeon
import Verif.SIMD.OkNeon2
import Verif.SIMD.OkNeon3
import Verif.SIMD.OkNeon4
/- C54 (neon.hh, neon_double.hh, neon_triple.hh, neon_quadruple.hh): the register functions of these headers act on every lane like the portable templates of simd.hh.
Generated by tools/gen_simd.py; the predicates are in Spec.lean, the lane functions in Port.lean. -/
namespace Verif.SIMD

/-- neon.hh, `SIMD<int8_t, 16>` -/
theorem C54_neon_i8 :
    (Lift1 16 (lane 8) neon.vreinterpret_i8_u8 fun x => x) ∧
    LiftDup 16 (lane 8) neon.vdup_i8 ∧
    (∀ tmp, Lift0 16 (lane 8) (neon.vzero_i8 tmp) 0) ∧
    Lift2 16 (lane 8) neon.vadd_i8 P.vadd ∧
    Lift2 16 (lane 8) neon.vqadd_i8 P.vqadd ∧
    Lift2 16 (lane 8) neon.vsub_i8 P.vsub ∧
    Lift2 16 (lane 8) neon.vqsub_i8 P.vqsub ∧
    Lift2 16 (lane 8) neon.vmul_i8 P.vmul ∧
    Lift1 16 (lane 8) neon.vqabs_i8 P.vqabs ∧
    Lift1 16 (lane 8) neon.vsignum_i8 P.vsignum ∧
    Lift2 16 (lane 8) neon.vsign_i8 P.vsign ∧
    Lift1 16 (lane 8) neon.vceqz_i8 P.vceqz ∧
    Lift2 16 (lane 8) neon.vceq_i8 P.vceq ∧
    Lift1 16 (lane 8) neon.vcgtz_i8 P.vcgtz ∧
    Lift1 16 (lane 8) neon.vcltz_i8 P.vcltz ∧
    Lift1 16 (lane 8) neon.vclez_i8 P.vclez ∧
    Lift2 16 (lane 8) neon.vmin_i8 P.vmin ∧
    Lift2 16 (lane 8) neon.vmax_i8 P.vmax ∧
    LiftS 16 (lane 8) neon.vclamp_i8 P.vclamp ∧
    (LiftShuf 16 (fun _ => True) (lane 8) (lane 8) neon.vshuf_i8_a64) ∧
    (LiftShuf 16 (fun _ => True) (lane 8) (lane 8) neon.vshuf_i8_a32) :=
  ⟨neon_ok.vreinterpret_i8_u8, neon_ok.vdup_i8, neon_ok.vzero_i8, neon_ok.vadd_i8, neon_ok.vqadd_i8, neon_ok.vsub_i8, neon_ok.vqsub_i8, neon_ok.vmul_i8, neon_ok.vqabs_i8, neon_ok.vsignum_i8, neon_ok.vsign_i8, neon_ok.vceqz_i8, neon_ok.vceq_i8, neon_ok.vcgtz_i8, neon_ok.vcltz_i8, neon_ok.vclez_i8, neon_ok.vmin_i8, neon_ok.vmax_i8, neon_ok.vclamp_i8, neon_ok.vshuf_i8_a64, neon_ok.vshuf_i8_a32⟩

/-- neon.hh, `SIMD<int16_t, 8>` -/
theorem C54_neon_i16 :
    (Lift1 8 (lane 16) neon.vreinterpret_i16_u16 fun x => x) ∧
    LiftDup 8 (lane 16) neon.vdup_i16 ∧
    (∀ tmp, Lift0 8 (lane 16) (neon.vzero_i16 tmp) 0) ∧
    Lift2 8 (lane 16) neon.vadd_i16 P.vadd ∧
    Lift2 8 (lane 16) neon.vqadd_i16 P.vqadd ∧
    Lift2 8 (lane 16) neon.vsub_i16 P.vsub ∧
    Lift2 8 (lane 16) neon.vqsub_i16 P.vqsub ∧
    Lift1 8 (lane 16) neon.vqabs_i16 P.vqabs ∧
    Lift1 8 (lane 16) neon.vceqz_i16 P.vceqz ∧
    Lift2 8 (lane 16) neon.vceq_i16 P.vceq ∧
    Lift1 8 (lane 16) neon.vcgtz_i16 P.vcgtz ∧
    Lift1 8 (lane 16) neon.vcltz_i16 P.vcltz ∧
    Lift1 8 (lane 16) neon.vclez_i16 P.vclez ∧
    Lift2 8 (lane 16) neon.vmin_i16 P.vmin ∧
    Lift2 8 (lane 16) neon.vmax_i16 P.vmax ∧
    LiftS 8 (lane 16) neon.vclamp_i16 P.vclamp :=
  ⟨neon_ok.vreinterpret_i16_u16, neon_ok.vdup_i16, neon_ok.vzero_i16, neon_ok.vadd_i16, neon_ok.vqadd_i16, neon_ok.vsub_i16, neon_ok.vqsub_i16, neon_ok.vqabs_i16, neon_ok.vceqz_i16, neon_ok.vceq_i16, neon_ok.vcgtz_i16, neon_ok.vcltz_i16, neon_ok.vclez_i16, neon_ok.vmin_i16, neon_ok.vmax_i16, neon_ok.vclamp_i16⟩

/-- neon.hh, `SIMD<int32_t, 4>` -/
theorem C54_neon_i32 :
    (Lift1 4 (lane 32) neon.vreinterpret_i32_u32 fun x => x) ∧
    LiftDup 4 (lane 32) neon.vdup_i32 ∧
    (∀ tmp, Lift0 4 (lane 32) (neon.vzero_i32 tmp) 0) ∧
    Lift2 4 (lane 32) neon.vadd_i32 P.vadd ∧
    Lift2 4 (lane 32) neon.vsub_i32 P.vsub ∧
    Lift1 4 (lane 32) neon.vceqz_i32 P.vceqz ∧
    Lift2 4 (lane 32) neon.vceq_i32 P.vceq ∧
    Lift1 4 (lane 32) neon.vcgtz_i32 P.vcgtz ∧
    Lift1 4 (lane 32) neon.vcltz_i32 P.vcltz ∧
    Lift1 4 (lane 32) neon.vclez_i32 P.vclez ∧
    Lift2 4 (lane 32) neon.vmin_i32 P.vmin ∧
    Lift2 4 (lane 32) neon.vmax_i32 P.vmax ∧
    LiftS 4 (lane 32) neon.vclamp_i32 P.vclamp :=
  ⟨neon_ok.vreinterpret_i32_u32, neon_ok.vdup_i32, neon_ok.vzero_i32, neon_ok.vadd_i32, neon_ok.vsub_i32, neon_ok.vceqz_i32, neon_ok.vceq_i32, neon_ok.vcgtz_i32, neon_ok.vcltz_i32, neon_ok.vclez_i32, neon_ok.vmin_i32, neon_ok.vmax_i32, neon_ok.vclamp_i32⟩

/-- neon.hh, `SIMD<int64_t, 2>` -/
theorem C54_neon_i64 :
    LiftDup 2 (lane 64) neon.vdup_i64 ∧
    (∀ tmp, Lift0 2 (lane 64) (neon.vzero_i64 tmp) 0) ∧
    Lift2 2 (lane 64) neon.vadd_i64 P.vadd ∧
    Lift2 2 (lane 64) neon.vsub_i64 P.vsub :=
  ⟨neon_ok.vdup_i64, neon_ok.vzero_i64, neon_ok.vadd_i64, neon_ok.vsub_i64⟩

/-- neon.hh, `SIMD<uint8_t, 16>` -/
theorem C54_neon_u8 :
    (Lift1 16 (lane 8) neon.vreinterpret_u8_i8 fun x => x) ∧
    LiftDup 16 (lane 8) neon.vdup_u8 ∧
    (∀ tmp, Lift0 16 (lane 8) (neon.vzero_u8 tmp) 0) ∧
    Lift2 16 (lane 8) neon.vqsub_u8 P.vqsubU ∧
    Lift2 16 (lane 8) neon.vorr_u8 P.vorr ∧
    Lift2 16 (lane 8) neon.vand_u8 P.vand ∧
    Lift2 16 (lane 8) neon.veor_u8 P.veor ∧
    Lift2 16 (lane 8) neon.vbic_u8 P.vbic ∧
    Lift3 16 (lane 8) neon.vbsl_u8 P.vbsl ∧
    (LiftShuf 16 (fun _ => True) (lane 8) (lane 8) neon.vshuf_u8_a64) ∧
    (LiftShuf 16 (fun _ => True) (lane 8) (lane 8) neon.vshuf_u8_a32) :=
  ⟨neon_ok.vreinterpret_u8_i8, neon_ok.vdup_u8, neon_ok.vzero_u8, neon_ok.vqsub_u8, neon_ok.vorr_u8, neon_ok.vand_u8, neon_ok.veor_u8, neon_ok.vbic_u8, neon_ok.vbsl_u8, neon_ok.vshuf_u8_a64, neon_ok.vshuf_u8_a32⟩

/-- neon.hh, `SIMD<uint16_t, 8>` -/
theorem C54_neon_u16 :
    (Lift1 8 (lane 16) neon.vreinterpret_u16_i16 fun x => x) ∧
    LiftDup 8 (lane 16) neon.vdup_u16 ∧
    (∀ tmp, Lift0 8 (lane 16) (neon.vzero_u16 tmp) 0) ∧
    Lift2 8 (lane 16) neon.vqsub_u16 P.vqsubU ∧
    Lift2 8 (lane 16) neon.vorr_u16 P.vorr ∧
    Lift2 8 (lane 16) neon.vand_u16 P.vand ∧
    Lift2 8 (lane 16) neon.veor_u16 P.veor ∧
    Lift2 8 (lane 16) neon.vbic_u16 P.vbic ∧
    Lift3 8 (lane 16) neon.vbsl_u16 P.vbsl :=
  ⟨neon_ok.vreinterpret_u16_i16, neon_ok.vdup_u16, neon_ok.vzero_u16, neon_ok.vqsub_u16, neon_ok.vorr_u16, neon_ok.vand_u16, neon_ok.veor_u16, neon_ok.vbic_u16, neon_ok.vbsl_u16⟩

/-- neon.hh, `SIMD<uint32_t, 4>` -/
theorem C54_neon_u32 :
    (Lift1 4 (lane 32) neon.vreinterpret_u32_f32 fun x => x) ∧
    (Lift1 4 (lane 32) neon.vreinterpret_u32_i32 fun x => x) ∧
    LiftDup 4 (lane 32) neon.vdup_u32 ∧
    (∀ tmp, Lift0 4 (lane 32) (neon.vzero_u32 tmp) 0) ∧
    Lift2 4 (lane 32) neon.vorr_u32 P.vorr ∧
    Lift2 4 (lane 32) neon.vand_u32 P.vand ∧
    Lift2 4 (lane 32) neon.veor_u32 P.veor ∧
    Lift2 4 (lane 32) neon.vbic_u32 P.vbic ∧
    Lift3 4 (lane 32) neon.vbsl_u32 P.vbsl :=
  ⟨neon_ok.vreinterpret_u32_f32, neon_ok.vreinterpret_u32_i32, neon_ok.vdup_u32, neon_ok.vzero_u32, neon_ok.vorr_u32, neon_ok.vand_u32, neon_ok.veor_u32, neon_ok.vbic_u32, neon_ok.vbsl_u32⟩

/-- neon.hh, `SIMD<uint64_t, 2>` -/
theorem C54_neon_u64 :
    LiftDup 2 (lane 64) neon.vdup_u64 ∧
    (∀ tmp, Lift0 2 (lane 64) (neon.vzero_u64 tmp) 0) ∧
    Lift2 2 (lane 64) neon.vorr_u64 P.vorr ∧
    Lift2 2 (lane 64) neon.vand_u64 P.vand ∧
    Lift2 2 (lane 64) neon.veor_u64 P.veor ∧
    Lift2 2 (lane 64) neon.vbic_u64 P.vbic ∧
    Lift3 2 (lane 64) neon.vbsl_u64 P.vbsl :=
  ⟨neon_ok.vdup_u64, neon_ok.vzero_u64, neon_ok.vorr_u64, neon_ok.vand_u64, neon_ok.veor_u64, neon_ok.vbic_u64, neon_ok.vbsl_u64⟩

/-- neon.hh, `SIMD<float, 4>` -/
theorem C54_neon_f32 :
    (Lift1 4 (lane 32) neon.vreinterpret_f32_u32 fun x => x) ∧
    LiftDup 4 (lane 32) neon.vdup_f32 ∧
    (∀ tmp, Lift0 4 (lane 32) (neon.vzero_f32 tmp) 0) ∧
    (∀ A32 : Fpu 32, Lift2 4 (lane 32) (neon.vadd_f32 A32) A32.add) ∧
    (∀ A32 : Fpu 32, Lift2 4 (lane 32) (neon.vsub_f32 A32) A32.sub) ∧
    (∀ A32 : Fpu 32, Lift2 4 (lane 32) (neon.vmul_f32 A32) A32.mul) ∧
    Lift1 4 (lane 32) neon.vabs_f32 Fmt.vabs ∧
    LiftSignum f32 4 (lane 32) neon.vsignum_f32 ∧
    LiftSign f32 4 (lane 32) neon.vsign_f32 ∧
    Lift2 4 (lane 32) neon.vcopysign_f32 Fmt.vcopysign ∧
    Lift1 4 (lane 32) neon.vceqz_f32 f32.vceqz ∧
    Lift2 4 (lane 32) neon.vceq_f32 f32.vceq ∧
    Lift1 4 (lane 32) neon.vcgtz_f32 f32.vcgtz ∧
    Lift1 4 (lane 32) neon.vcltz_f32 f32.vcltz ∧
    Lift1 4 (lane 32) neon.vclez_f32 f32.vclez ∧
    LiftNum2 f32 4 (lane 32) neon.vmin_f32 f32.vmin ∧
    LiftNum2 f32 4 (lane 32) neon.vmax_f32 f32.vmax ∧
    LiftClamp f32 4 (lane 32) neon.vclamp_f32 :=
  ⟨neon_ok.vreinterpret_f32_u32, neon_ok.vdup_f32, neon_ok.vzero_f32, neon_ok.vadd_f32, neon_ok.vsub_f32, neon_ok.vmul_f32, neon_ok.vabs_f32, neon_ok.vsignum_f32, neon_ok.vsign_f32, neon_ok.vcopysign_f32, neon_ok.vceqz_f32, neon_ok.vceq_f32, neon_ok.vcgtz_f32, neon_ok.vcltz_f32, neon_ok.vclez_f32, neon_ok.vmin_f32, neon_ok.vmax_f32, neon_ok.vclamp_f32⟩

/-- neon_double.hh, `SIMD<int8_t, 32>` -/
theorem C54_neon2_i8 :
    (Lift1 32 (vw 128 8) neon2.vreinterpret_i8_u8 fun x => x) ∧
    LiftDup 32 (vw 128 8) neon2.vdup_i8 ∧
    (∀ tmp, Lift0 32 (vw 128 8) (neon2.vzero_i8 tmp) 0) ∧
    Lift2 32 (vw 128 8) neon2.vadd_i8 P.vadd ∧
    Lift2 32 (vw 128 8) neon2.vqadd_i8 P.vqadd ∧
    Lift2 32 (vw 128 8) neon2.vsub_i8 P.vsub ∧
    Lift2 32 (vw 128 8) neon2.vqsub_i8 P.vqsub ∧
    Lift2 32 (vw 128 8) neon2.vmul_i8 P.vmul ∧
    Lift1 32 (vw 128 8) neon2.vqabs_i8 P.vqabs ∧
    Lift1 32 (vw 128 8) neon2.vsignum_i8 P.vsignum ∧
    Lift2 32 (vw 128 8) neon2.vsign_i8 P.vsign ∧
    Lift1 32 (vw 128 8) neon2.vceqz_i8 P.vceqz ∧
    Lift2 32 (vw 128 8) neon2.vceq_i8 P.vceq ∧
    Lift1 32 (vw 128 8) neon2.vcgtz_i8 P.vcgtz ∧
    Lift1 32 (vw 128 8) neon2.vcltz_i8 P.vcltz ∧
    Lift1 32 (vw 128 8) neon2.vclez_i8 P.vclez ∧
    Lift2 32 (vw 128 8) neon2.vmin_i8 P.vmin ∧
    Lift2 32 (vw 128 8) neon2.vmax_i8 P.vmax ∧
    LiftS 32 (vw 128 8) neon2.vclamp_i8 P.vclamp ∧
    (LiftShuf 32 (fun _ => True) (vw 128 8) (vw 128 8) neon2.vshuf_i8) :=
  ⟨neon2_ok.vreinterpret_i8_u8, neon2_ok.vdup_i8, neon2_ok.vzero_i8, neon2_ok.vadd_i8, neon2_ok.vqadd_i8, neon2_ok.vsub_i8, neon2_ok.vqsub_i8, neon2_ok.vmul_i8, neon2_ok.vqabs_i8, neon2_ok.vsignum_i8, neon2_ok.vsign_i8, neon2_ok.vceqz_i8, neon2_ok.vceq_i8, neon2_ok.vcgtz_i8, neon2_ok.vcltz_i8, neon2_ok.vclez_i8, neon2_ok.vmin_i8, neon2_ok.vmax_i8, neon2_ok.vclamp_i8, neon2_ok.vshuf_i8⟩

/-- neon_double.hh, `SIMD<int16_t, 16>` -/
theorem C54_neon2_i16 :
    (Lift1 16 (vw 128 16) neon2.vreinterpret_i16_u16 fun x => x) ∧
    LiftDup 16 (vw 128 16) neon2.vdup_i16 ∧
    (∀ tmp, Lift0 16 (vw 128 16) (neon2.vzero_i16 tmp) 0) ∧
    Lift2 16 (vw 128 16) neon2.vadd_i16 P.vadd ∧
    Lift2 16 (vw 128 16) neon2.vqadd_i16 P.vqadd ∧
    Lift2 16 (vw 128 16) neon2.vsub_i16 P.vsub ∧
    Lift2 16 (vw 128 16) neon2.vqsub_i16 P.vqsub ∧
    Lift1 16 (vw 128 16) neon2.vqabs_i16 P.vqabs ∧
    Lift1 16 (vw 128 16) neon2.vceqz_i16 P.vceqz ∧
    Lift2 16 (vw 128 16) neon2.vceq_i16 P.vceq ∧
    Lift1 16 (vw 128 16) neon2.vcgtz_i16 P.vcgtz ∧
    Lift1 16 (vw 128 16) neon2.vcltz_i16 P.vcltz ∧
    Lift1 16 (vw 128 16) neon2.vclez_i16 P.vclez ∧
    Lift2 16 (vw 128 16) neon2.vmin_i16 P.vmin ∧
    Lift2 16 (vw 128 16) neon2.vmax_i16 P.vmax ∧
    LiftS 16 (vw 128 16) neon2.vclamp_i16 P.vclamp :=
  ⟨neon2_ok.vreinterpret_i16_u16, neon2_ok.vdup_i16, neon2_ok.vzero_i16, neon2_ok.vadd_i16, neon2_ok.vqadd_i16, neon2_ok.vsub_i16, neon2_ok.vqsub_i16, neon2_ok.vqabs_i16, neon2_ok.vceqz_i16, neon2_ok.vceq_i16, neon2_ok.vcgtz_i16, neon2_ok.vcltz_i16, neon2_ok.vclez_i16, neon2_ok.vmin_i16, neon2_ok.vmax_i16, neon2_ok.vclamp_i16⟩

/-- neon_double.hh, `SIMD<int32_t, 8>` -/
theorem C54_neon2_i32 :
    (Lift1 8 (vw 128 32) neon2.vreinterpret_i32_u32 fun x => x) ∧
    LiftDup 8 (vw 128 32) neon2.vdup_i32 ∧
    (∀ tmp, Lift0 8 (vw 128 32) (neon2.vzero_i32 tmp) 0) ∧
    Lift2 8 (vw 128 32) neon2.vadd_i32 P.vadd ∧
    Lift2 8 (vw 128 32) neon2.vsub_i32 P.vsub ∧
    Lift1 8 (vw 128 32) neon2.vceqz_i32 P.vceqz ∧
    Lift2 8 (vw 128 32) neon2.vceq_i32 P.vceq ∧
    Lift1 8 (vw 128 32) neon2.vcgtz_i32 P.vcgtz ∧
    Lift1 8 (vw 128 32) neon2.vcltz_i32 P.vcltz ∧
    Lift1 8 (vw 128 32) neon2.vclez_i32 P.vclez ∧
    Lift2 8 (vw 128 32) neon2.vmin_i32 P.vmin ∧
    Lift2 8 (vw 128 32) neon2.vmax_i32 P.vmax ∧
    LiftS 8 (vw 128 32) neon2.vclamp_i32 P.vclamp :=
  ⟨neon2_ok.vreinterpret_i32_u32, neon2_ok.vdup_i32, neon2_ok.vzero_i32, neon2_ok.vadd_i32, neon2_ok.vsub_i32, neon2_ok.vceqz_i32, neon2_ok.vceq_i32, neon2_ok.vcgtz_i32, neon2_ok.vcltz_i32, neon2_ok.vclez_i32, neon2_ok.vmin_i32, neon2_ok.vmax_i32, neon2_ok.vclamp_i32⟩

/-- neon_double.hh, `SIMD<int64_t, 4>` -/
theorem C54_neon2_i64 :
    LiftDup 4 (vw 128 64) neon2.vdup_i64 ∧
    (∀ tmp, Lift0 4 (vw 128 64) (neon2.vzero_i64 tmp) 0) ∧
    Lift2 4 (vw 128 64) neon2.vadd_i64 P.vadd ∧
    Lift2 4 (vw 128 64) neon2.vsub_i64 P.vsub :=
  ⟨neon2_ok.vdup_i64, neon2_ok.vzero_i64, neon2_ok.vadd_i64, neon2_ok.vsub_i64⟩

/-- neon_double.hh, `SIMD<uint8_t, 32>` -/
theorem C54_neon2_u8 :
    (Lift1 32 (vw 128 8) neon2.vreinterpret_u8_i8 fun x => x) ∧
    LiftDup 32 (vw 128 8) neon2.vdup_u8 ∧
    (∀ tmp, Lift0 32 (vw 128 8) (neon2.vzero_u8 tmp) 0) ∧
    Lift2 32 (vw 128 8) neon2.vqsub_u8 P.vqsubU ∧
    Lift2 32 (vw 128 8) neon2.vorr_u8 P.vorr ∧
    Lift2 32 (vw 128 8) neon2.vand_u8 P.vand ∧
    Lift2 32 (vw 128 8) neon2.veor_u8 P.veor ∧
    Lift2 32 (vw 128 8) neon2.vbic_u8 P.vbic ∧
    Lift3 32 (vw 128 8) neon2.vbsl_u8 P.vbsl ∧
    (LiftShuf 32 (fun _ => True) (vw 128 8) (vw 128 8) neon2.vshuf_u8) :=
  ⟨neon2_ok.vreinterpret_u8_i8, neon2_ok.vdup_u8, neon2_ok.vzero_u8, neon2_ok.vqsub_u8, neon2_ok.vorr_u8, neon2_ok.vand_u8, neon2_ok.veor_u8, neon2_ok.vbic_u8, neon2_ok.vbsl_u8, neon2_ok.vshuf_u8⟩

/-- neon_double.hh, `SIMD<uint16_t, 16>` -/
theorem C54_neon2_u16 :
    (Lift1 16 (vw 128 16) neon2.vreinterpret_u16_i16 fun x => x) ∧
    LiftDup 16 (vw 128 16) neon2.vdup_u16 ∧
    (∀ tmp, Lift0 16 (vw 128 16) (neon2.vzero_u16 tmp) 0) ∧
    Lift2 16 (vw 128 16) neon2.vqsub_u16 P.vqsubU ∧
    Lift2 16 (vw 128 16) neon2.vorr_u16 P.vorr ∧
    Lift2 16 (vw 128 16) neon2.vand_u16 P.vand ∧
    Lift2 16 (vw 128 16) neon2.veor_u16 P.veor ∧
    Lift2 16 (vw 128 16) neon2.vbic_u16 P.vbic ∧
    Lift3 16 (vw 128 16) neon2.vbsl_u16 P.vbsl :=
  ⟨neon2_ok.vreinterpret_u16_i16, neon2_ok.vdup_u16, neon2_ok.vzero_u16, neon2_ok.vqsub_u16, neon2_ok.vorr_u16, neon2_ok.vand_u16, neon2_ok.veor_u16, neon2_ok.vbic_u16, neon2_ok.vbsl_u16⟩

/-- neon_double.hh, `SIMD<uint32_t, 8>` -/
theorem C54_neon2_u32 :
    (Lift1 8 (vw 128 32) neon2.vreinterpret_u32_f32 fun x => x) ∧
    (Lift1 8 (vw 128 32) neon2.vreinterpret_u32_i32 fun x => x) ∧
    LiftDup 8 (vw 128 32) neon2.vdup_u32 ∧
    (∀ tmp, Lift0 8 (vw 128 32) (neon2.vzero_u32 tmp) 0) ∧
    Lift2 8 (vw 128 32) neon2.vorr_u32 P.vorr ∧
    Lift2 8 (vw 128 32) neon2.vand_u32 P.vand ∧
    Lift2 8 (vw 128 32) neon2.veor_u32 P.veor ∧
    Lift2 8 (vw 128 32) neon2.vbic_u32 P.vbic ∧
    Lift3 8 (vw 128 32) neon2.vbsl_u32 P.vbsl :=
  ⟨neon2_ok.vreinterpret_u32_f32, neon2_ok.vreinterpret_u32_i32, neon2_ok.vdup_u32, neon2_ok.vzero_u32, neon2_ok.vorr_u32, neon2_ok.vand_u32, neon2_ok.veor_u32, neon2_ok.vbic_u32, neon2_ok.vbsl_u32⟩

/-- neon_double.hh, `SIMD<uint64_t, 4>` -/
theorem C54_neon2_u64 :
    LiftDup 4 (vw 128 64) neon2.vdup_u64 ∧
    (∀ tmp, Lift0 4 (vw 128 64) (neon2.vzero_u64 tmp) 0) ∧
    Lift2 4 (vw 128 64) neon2.vorr_u64 P.vorr ∧
    Lift2 4 (vw 128 64) neon2.vand_u64 P.vand ∧
    Lift2 4 (vw 128 64) neon2.veor_u64 P.veor ∧
    Lift2 4 (vw 128 64) neon2.vbic_u64 P.vbic ∧
    Lift3 4 (vw 128 64) neon2.vbsl_u64 P.vbsl :=
  ⟨neon2_ok.vdup_u64, neon2_ok.vzero_u64, neon2_ok.vorr_u64, neon2_ok.vand_u64, neon2_ok.veor_u64, neon2_ok.vbic_u64, neon2_ok.vbsl_u64⟩

/-- neon_double.hh, `SIMD<float, 8>` -/
theorem C54_neon2_f32 :
    (Lift1 8 (vw 128 32) neon2.vreinterpret_f32_u32 fun x => x) ∧
    LiftDup 8 (vw 128 32) neon2.vdup_f32 ∧
    (∀ tmp, Lift0 8 (vw 128 32) (neon2.vzero_f32 tmp) 0) ∧
    (∀ A32 : Fpu 32, Lift2 8 (vw 128 32) (neon2.vadd_f32 A32) A32.add) ∧
    (∀ A32 : Fpu 32, Lift2 8 (vw 128 32) (neon2.vsub_f32 A32) A32.sub) ∧
    (∀ A32 : Fpu 32, Lift2 8 (vw 128 32) (neon2.vmul_f32 A32) A32.mul) ∧
    Lift1 8 (vw 128 32) neon2.vabs_f32 Fmt.vabs ∧
    LiftSignum f32 8 (vw 128 32) neon2.vsignum_f32 ∧
    LiftSign f32 8 (vw 128 32) neon2.vsign_f32 ∧
    Lift2 8 (vw 128 32) neon2.vcopysign_f32 Fmt.vcopysign ∧
    Lift1 8 (vw 128 32) neon2.vceqz_f32 f32.vceqz ∧
    Lift2 8 (vw 128 32) neon2.vceq_f32 f32.vceq ∧
    Lift1 8 (vw 128 32) neon2.vcgtz_f32 f32.vcgtz ∧
    Lift1 8 (vw 128 32) neon2.vcltz_f32 f32.vcltz ∧
    Lift1 8 (vw 128 32) neon2.vclez_f32 f32.vclez ∧
    LiftNum2 f32 8 (vw 128 32) neon2.vmin_f32 f32.vmin ∧
    LiftNum2 f32 8 (vw 128 32) neon2.vmax_f32 f32.vmax ∧
    LiftClamp f32 8 (vw 128 32) neon2.vclamp_f32 :=
  ⟨neon2_ok.vreinterpret_f32_u32, neon2_ok.vdup_f32, neon2_ok.vzero_f32, neon2_ok.vadd_f32, neon2_ok.vsub_f32, neon2_ok.vmul_f32, neon2_ok.vabs_f32, neon2_ok.vsignum_f32, neon2_ok.vsign_f32, neon2_ok.vcopysign_f32, neon2_ok.vceqz_f32, neon2_ok.vceq_f32, neon2_ok.vcgtz_f32, neon2_ok.vcltz_f32, neon2_ok.vclez_f32, neon2_ok.vmin_f32, neon2_ok.vmax_f32, neon2_ok.vclamp_f32⟩

/-- neon_triple.hh, `SIMD<int8_t, 48>` -/
theorem C54_neon3_i8 :
    (Lift1 48 (vw 128 8) neon3.vreinterpret_i8_u8 fun x => x) ∧
    LiftDup 48 (vw 128 8) neon3.vdup_i8 ∧
    (∀ tmp, Lift0 48 (vw 128 8) (neon3.vzero_i8 tmp) 0) ∧
    Lift2 48 (vw 128 8) neon3.vadd_i8 P.vadd ∧
    Lift2 48 (vw 128 8) neon3.vqadd_i8 P.vqadd ∧
    Lift2 48 (vw 128 8) neon3.vsub_i8 P.vsub ∧
    Lift2 48 (vw 128 8) neon3.vqsub_i8 P.vqsub ∧
    Lift2 48 (vw 128 8) neon3.vmul_i8 P.vmul ∧
    Lift1 48 (vw 128 8) neon3.vqabs_i8 P.vqabs ∧
    Lift1 48 (vw 128 8) neon3.vsignum_i8 P.vsignum ∧
    Lift2 48 (vw 128 8) neon3.vsign_i8 P.vsign ∧
    Lift1 48 (vw 128 8) neon3.vceqz_i8 P.vceqz ∧
    Lift2 48 (vw 128 8) neon3.vceq_i8 P.vceq ∧
    Lift1 48 (vw 128 8) neon3.vcgtz_i8 P.vcgtz ∧
    Lift1 48 (vw 128 8) neon3.vcltz_i8 P.vcltz ∧
    Lift1 48 (vw 128 8) neon3.vclez_i8 P.vclez ∧
    Lift2 48 (vw 128 8) neon3.vmin_i8 P.vmin ∧
    Lift2 48 (vw 128 8) neon3.vmax_i8 P.vmax ∧
    LiftS 48 (vw 128 8) neon3.vclamp_i8 P.vclamp ∧
    (LiftShuf 48 (fun _ => True) (vw 128 8) (vw 128 8) neon3.vshuf_i8) :=
  ⟨neon3_ok.vreinterpret_i8_u8, neon3_ok.vdup_i8, neon3_ok.vzero_i8, neon3_ok.vadd_i8, neon3_ok.vqadd_i8, neon3_ok.vsub_i8, neon3_ok.vqsub_i8, neon3_ok.vmul_i8, neon3_ok.vqabs_i8, neon3_ok.vsignum_i8, neon3_ok.vsign_i8, neon3_ok.vceqz_i8, neon3_ok.vceq_i8, neon3_ok.vcgtz_i8, neon3_ok.vcltz_i8, neon3_ok.vclez_i8, neon3_ok.vmin_i8, neon3_ok.vmax_i8, neon3_ok.vclamp_i8, neon3_ok.vshuf_i8⟩

/-- neon_triple.hh, `SIMD<int16_t, 24>` -/
theorem C54_neon3_i16 :
    (Lift1 24 (vw 128 16) neon3.vreinterpret_i16_u16 fun x => x) ∧
    LiftDup 24 (vw 128 16) neon3.vdup_i16 ∧
    (∀ tmp, Lift0 24 (vw 128 16) (neon3.vzero_i16 tmp) 0) ∧
    Lift2 24 (vw 128 16) neon3.vadd_i16 P.vadd ∧
    Lift2 24 (vw 128 16) neon3.vqadd_i16 P.vqadd ∧
    Lift2 24 (vw 128 16) neon3.vsub_i16 P.vsub ∧
    Lift2 24 (vw 128 16) neon3.vqsub_i16 P.vqsub ∧
    Lift1 24 (vw 128 16) neon3.vqabs_i16 P.vqabs ∧
    Lift1 24 (vw 128 16) neon3.vceqz_i16 P.vceqz ∧
    Lift2 24 (vw 128 16) neon3.vceq_i16 P.vceq ∧
    Lift1 24 (vw 128 16) neon3.vcgtz_i16 P.vcgtz ∧
    Lift1 24 (vw 128 16) neon3.vcltz_i16 P.vcltz ∧
    Lift1 24 (vw 128 16) neon3.vclez_i16 P.vclez ∧
    Lift2 24 (vw 128 16) neon3.vmin_i16 P.vmin ∧
    Lift2 24 (vw 128 16) neon3.vmax_i16 P.vmax ∧
    LiftS 24 (vw 128 16) neon3.vclamp_i16 P.vclamp :=
  ⟨neon3_ok.vreinterpret_i16_u16, neon3_ok.vdup_i16, neon3_ok.vzero_i16, neon3_ok.vadd_i16, neon3_ok.vqadd_i16, neon3_ok.vsub_i16, neon3_ok.vqsub_i16, neon3_ok.vqabs_i16, neon3_ok.vceqz_i16, neon3_ok.vceq_i16, neon3_ok.vcgtz_i16, neon3_ok.vcltz_i16, neon3_ok.vclez_i16, neon3_ok.vmin_i16, neon3_ok.vmax_i16, neon3_ok.vclamp_i16⟩

/-- neon_triple.hh, `SIMD<int32_t, 12>` -/
theorem C54_neon3_i32 :
    (Lift1 12 (vw 128 32) neon3.vreinterpret_i32_u32 fun x => x) ∧
    LiftDup 12 (vw 128 32) neon3.vdup_i32 ∧
    (∀ tmp, Lift0 12 (vw 128 32) (neon3.vzero_i32 tmp) 0) ∧
    Lift2 12 (vw 128 32) neon3.vadd_i32 P.vadd ∧
    Lift2 12 (vw 128 32) neon3.vsub_i32 P.vsub ∧
    Lift1 12 (vw 128 32) neon3.vceqz_i32 P.vceqz ∧
    Lift2 12 (vw 128 32) neon3.vceq_i32 P.vceq ∧
    Lift1 12 (vw 128 32) neon3.vcgtz_i32 P.vcgtz ∧
    Lift1 12 (vw 128 32) neon3.vcltz_i32 P.vcltz ∧
    Lift1 12 (vw 128 32) neon3.vclez_i32 P.vclez ∧
    Lift2 12 (vw 128 32) neon3.vmin_i32 P.vmin ∧
    Lift2 12 (vw 128 32) neon3.vmax_i32 P.vmax ∧
    LiftS 12 (vw 128 32) neon3.vclamp_i32 P.vclamp :=
  ⟨neon3_ok.vreinterpret_i32_u32, neon3_ok.vdup_i32, neon3_ok.vzero_i32, neon3_ok.vadd_i32, neon3_ok.vsub_i32, neon3_ok.vceqz_i32, neon3_ok.vceq_i32, neon3_ok.vcgtz_i32, neon3_ok.vcltz_i32, neon3_ok.vclez_i32, neon3_ok.vmin_i32, neon3_ok.vmax_i32, neon3_ok.vclamp_i32⟩

/-- neon_triple.hh, `SIMD<int64_t, 6>` -/
theorem C54_neon3_i64 :
    LiftDup 6 (vw 128 64) neon3.vdup_i64 ∧
    (∀ tmp, Lift0 6 (vw 128 64) (neon3.vzero_i64 tmp) 0) ∧
    Lift2 6 (vw 128 64) neon3.vadd_i64 P.vadd ∧
    Lift2 6 (vw 128 64) neon3.vsub_i64 P.vsub :=
  ⟨neon3_ok.vdup_i64, neon3_ok.vzero_i64, neon3_ok.vadd_i64, neon3_ok.vsub_i64⟩

/-- neon_triple.hh, `SIMD<uint8_t, 48>` -/
theorem C54_neon3_u8 :
    (Lift1 48 (vw 128 8) neon3.vreinterpret_u8_i8 fun x => x) ∧
    LiftDup 48 (vw 128 8) neon3.vdup_u8 ∧
    (∀ tmp, Lift0 48 (vw 128 8) (neon3.vzero_u8 tmp) 0) ∧
    Lift2 48 (vw 128 8) neon3.vqsub_u8 P.vqsubU ∧
    Lift2 48 (vw 128 8) neon3.vorr_u8 P.vorr ∧
    Lift2 48 (vw 128 8) neon3.vand_u8 P.vand ∧
    Lift2 48 (vw 128 8) neon3.veor_u8 P.veor ∧
    Lift2 48 (vw 128 8) neon3.vbic_u8 P.vbic ∧
    Lift3 48 (vw 128 8) neon3.vbsl_u8 P.vbsl ∧
    (LiftShuf 48 (fun _ => True) (vw 128 8) (vw 128 8) neon3.vshuf_u8) :=
  ⟨neon3_ok.vreinterpret_u8_i8, neon3_ok.vdup_u8, neon3_ok.vzero_u8, neon3_ok.vqsub_u8, neon3_ok.vorr_u8, neon3_ok.vand_u8, neon3_ok.veor_u8, neon3_ok.vbic_u8, neon3_ok.vbsl_u8, neon3_ok.vshuf_u8⟩

/-- neon_triple.hh, `SIMD<uint16_t, 24>` -/
theorem C54_neon3_u16 :
    (Lift1 24 (vw 128 16) neon3.vreinterpret_u16_i16 fun x => x) ∧
    LiftDup 24 (vw 128 16) neon3.vdup_u16 ∧
    (∀ tmp, Lift0 24 (vw 128 16) (neon3.vzero_u16 tmp) 0) ∧
    Lift2 24 (vw 128 16) neon3.vqsub_u16 P.vqsubU ∧
    Lift2 24 (vw 128 16) neon3.vorr_u16 P.vorr ∧
    Lift2 24 (vw 128 16) neon3.vand_u16 P.vand ∧
    Lift2 24 (vw 128 16) neon3.veor_u16 P.veor ∧
    Lift2 24 (vw 128 16) neon3.vbic_u16 P.vbic ∧
    Lift3 24 (vw 128 16) neon3.vbsl_u16 P.vbsl :=
  ⟨neon3_ok.vreinterpret_u16_i16, neon3_ok.vdup_u16, neon3_ok.vzero_u16, neon3_ok.vqsub_u16, neon3_ok.vorr_u16, neon3_ok.vand_u16, neon3_ok.veor_u16, neon3_ok.vbic_u16, neon3_ok.vbsl_u16⟩

/-- neon_triple.hh, `SIMD<uint32_t, 12>` -/
theorem C54_neon3_u32 :
    (Lift1 12 (vw 128 32) neon3.vreinterpret_u32_f32 fun x => x) ∧
    (Lift1 12 (vw 128 32) neon3.vreinterpret_u32_i32 fun x => x) ∧
    LiftDup 12 (vw 128 32) neon3.vdup_u32 ∧
    (∀ tmp, Lift0 12 (vw 128 32) (neon3.vzero_u32 tmp) 0) ∧
    Lift2 12 (vw 128 32) neon3.vorr_u32 P.vorr ∧
    Lift2 12 (vw 128 32) neon3.vand_u32 P.vand ∧
    Lift2 12 (vw 128 32) neon3.veor_u32 P.veor ∧
    Lift2 12 (vw 128 32) neon3.vbic_u32 P.vbic ∧
    Lift3 12 (vw 128 32) neon3.vbsl_u32 P.vbsl :=
  ⟨neon3_ok.vreinterpret_u32_f32, neon3_ok.vreinterpret_u32_i32, neon3_ok.vdup_u32, neon3_ok.vzero_u32, neon3_ok.vorr_u32, neon3_ok.vand_u32, neon3_ok.veor_u32, neon3_ok.vbic_u32, neon3_ok.vbsl_u32⟩

/-- neon_triple.hh, `SIMD<uint64_t, 6>` -/
theorem C54_neon3_u64 :
    LiftDup 6 (vw 128 64) neon3.vdup_u64 ∧
    (∀ tmp, Lift0 6 (vw 128 64) (neon3.vzero_u64 tmp) 0) ∧
    Lift2 6 (vw 128 64) neon3.vorr_u64 P.vorr ∧
    Lift2 6 (vw 128 64) neon3.vand_u64 P.vand ∧
    Lift2 6 (vw 128 64) neon3.veor_u64 P.veor ∧
    Lift2 6 (vw 128 64) neon3.vbic_u64 P.vbic ∧
    Lift3 6 (vw 128 64) neon3.vbsl_u64 P.vbsl :=
  ⟨neon3_ok.vdup_u64, neon3_ok.vzero_u64, neon3_ok.vorr_u64, neon3_ok.vand_u64, neon3_ok.veor_u64, neon3_ok.vbic_u64, neon3_ok.vbsl_u64⟩

/-- neon_triple.hh, `SIMD<float, 12>` -/
theorem C54_neon3_f32 :
    (Lift1 12 (vw 128 32) neon3.vreinterpret_f32_u32 fun x => x) ∧
    LiftDup 12 (vw 128 32) neon3.vdup_f32 ∧
    (∀ tmp, Lift0 12 (vw 128 32) (neon3.vzero_f32 tmp) 0) ∧
    (∀ A32 : Fpu 32, Lift2 12 (vw 128 32) (neon3.vadd_f32 A32) A32.add) ∧
    (∀ A32 : Fpu 32, Lift2 12 (vw 128 32) (neon3.vsub_f32 A32) A32.sub) ∧
    (∀ A32 : Fpu 32, Lift2 12 (vw 128 32) (neon3.vmul_f32 A32) A32.mul) ∧
    Lift1 12 (vw 128 32) neon3.vabs_f32 Fmt.vabs ∧
    LiftSignum f32 12 (vw 128 32) neon3.vsignum_f32 ∧
    LiftSign f32 12 (vw 128 32) neon3.vsign_f32 ∧
    Lift2 12 (vw 128 32) neon3.vcopysign_f32 Fmt.vcopysign ∧
    Lift1 12 (vw 128 32) neon3.vceqz_f32 f32.vceqz ∧
    Lift2 12 (vw 128 32) neon3.vceq_f32 f32.vceq ∧
    Lift1 12 (vw 128 32) neon3.vcgtz_f32 f32.vcgtz ∧
    Lift1 12 (vw 128 32) neon3.vcltz_f32 f32.vcltz ∧
    Lift1 12 (vw 128 32) neon3.vclez_f32 f32.vclez ∧
    LiftNum2 f32 12 (vw 128 32) neon3.vmin_f32 f32.vmin ∧
    LiftNum2 f32 12 (vw 128 32) neon3.vmax_f32 f32.vmax ∧
    LiftClamp f32 12 (vw 128 32) neon3.vclamp_f32 :=
  ⟨neon3_ok.vreinterpret_f32_u32, neon3_ok.vdup_f32, neon3_ok.vzero_f32, neon3_ok.vadd_f32, neon3_ok.vsub_f32, neon3_ok.vmul_f32, neon3_ok.vabs_f32, neon3_ok.vsignum_f32, neon3_ok.vsign_f32, neon3_ok.vcopysign_f32, neon3_ok.vceqz_f32, neon3_ok.vceq_f32, neon3_ok.vcgtz_f32, neon3_ok.vcltz_f32, neon3_ok.vclez_f32, neon3_ok.vmin_f32, neon3_ok.vmax_f32, neon3_ok.vclamp_f32⟩

/-- neon_quadruple.hh, `SIMD<int8_t, 64>` -/
theorem C54_neon4_i8 :
    (Lift1 64 (vw 128 8) neon4.vreinterpret_i8_u8 fun x => x) ∧
    LiftDup 64 (vw 128 8) neon4.vdup_i8 ∧
    (∀ tmp, Lift0 64 (vw 128 8) (neon4.vzero_i8 tmp) 0) ∧
    Lift2 64 (vw 128 8) neon4.vadd_i8 P.vadd ∧
    Lift2 64 (vw 128 8) neon4.vqadd_i8 P.vqadd ∧
    Lift2 64 (vw 128 8) neon4.vsub_i8 P.vsub ∧
    Lift2 64 (vw 128 8) neon4.vqsub_i8 P.vqsub ∧
    Lift2 64 (vw 128 8) neon4.vmul_i8 P.vmul ∧
    Lift1 64 (vw 128 8) neon4.vqabs_i8 P.vqabs ∧
    Lift1 64 (vw 128 8) neon4.vsignum_i8 P.vsignum ∧
    Lift2 64 (vw 128 8) neon4.vsign_i8 P.vsign ∧
    Lift1 64 (vw 128 8) neon4.vceqz_i8 P.vceqz ∧
    Lift2 64 (vw 128 8) neon4.vceq_i8 P.vceq ∧
    Lift1 64 (vw 128 8) neon4.vcgtz_i8 P.vcgtz ∧
    Lift1 64 (vw 128 8) neon4.vcltz_i8 P.vcltz ∧
    Lift1 64 (vw 128 8) neon4.vclez_i8 P.vclez ∧
    Lift2 64 (vw 128 8) neon4.vmin_i8 P.vmin ∧
    Lift2 64 (vw 128 8) neon4.vmax_i8 P.vmax ∧
    LiftS 64 (vw 128 8) neon4.vclamp_i8 P.vclamp ∧
    (LiftShuf 64 (fun _ => True) (vw 128 8) (vw 128 8) neon4.vshuf_i8) :=
  ⟨neon4_ok.vreinterpret_i8_u8, neon4_ok.vdup_i8, neon4_ok.vzero_i8, neon4_ok.vadd_i8, neon4_ok.vqadd_i8, neon4_ok.vsub_i8, neon4_ok.vqsub_i8, neon4_ok.vmul_i8, neon4_ok.vqabs_i8, neon4_ok.vsignum_i8, neon4_ok.vsign_i8, neon4_ok.vceqz_i8, neon4_ok.vceq_i8, neon4_ok.vcgtz_i8, neon4_ok.vcltz_i8, neon4_ok.vclez_i8, neon4_ok.vmin_i8, neon4_ok.vmax_i8, neon4_ok.vclamp_i8, neon4_ok.vshuf_i8⟩

/-- neon_quadruple.hh, `SIMD<int16_t, 32>` -/
theorem C54_neon4_i16 :
    (Lift1 32 (vw 128 16) neon4.vreinterpret_i16_u16 fun x => x) ∧
    LiftDup 32 (vw 128 16) neon4.vdup_i16 ∧
    (∀ tmp, Lift0 32 (vw 128 16) (neon4.vzero_i16 tmp) 0) ∧
    Lift2 32 (vw 128 16) neon4.vadd_i16 P.vadd ∧
    Lift2 32 (vw 128 16) neon4.vqadd_i16 P.vqadd ∧
    Lift2 32 (vw 128 16) neon4.vsub_i16 P.vsub ∧
    Lift2 32 (vw 128 16) neon4.vqsub_i16 P.vqsub ∧
    Lift1 32 (vw 128 16) neon4.vqabs_i16 P.vqabs ∧
    Lift1 32 (vw 128 16) neon4.vceqz_i16 P.vceqz ∧
    Lift2 32 (vw 128 16) neon4.vceq_i16 P.vceq ∧
    Lift1 32 (vw 128 16) neon4.vcgtz_i16 P.vcgtz ∧
    Lift1 32 (vw 128 16) neon4.vcltz_i16 P.vcltz ∧
    Lift1 32 (vw 128 16) neon4.vclez_i16 P.vclez ∧
    Lift2 32 (vw 128 16) neon4.vmin_i16 P.vmin ∧
    Lift2 32 (vw 128 16) neon4.vmax_i16 P.vmax ∧
    LiftS 32 (vw 128 16) neon4.vclamp_i16 P.vclamp :=
  ⟨neon4_ok.vreinterpret_i16_u16, neon4_ok.vdup_i16, neon4_ok.vzero_i16, neon4_ok.vadd_i16, neon4_ok.vqadd_i16, neon4_ok.vsub_i16, neon4_ok.vqsub_i16, neon4_ok.vqabs_i16, neon4_ok.vceqz_i16, neon4_ok.vceq_i16, neon4_ok.vcgtz_i16, neon4_ok.vcltz_i16, neon4_ok.vclez_i16, neon4_ok.vmin_i16, neon4_ok.vmax_i16, neon4_ok.vclamp_i16⟩

/-- neon_quadruple.hh, `SIMD<int32_t, 16>` -/
theorem C54_neon4_i32 :
    (Lift1 16 (vw 128 32) neon4.vreinterpret_i32_u32 fun x => x) ∧
    LiftDup 16 (vw 128 32) neon4.vdup_i32 ∧
    (∀ tmp, Lift0 16 (vw 128 32) (neon4.vzero_i32 tmp) 0) ∧
    Lift2 16 (vw 128 32) neon4.vadd_i32 P.vadd ∧
    Lift2 16 (vw 128 32) neon4.vsub_i32 P.vsub ∧
    Lift1 16 (vw 128 32) neon4.vceqz_i32 P.vceqz ∧
    Lift2 16 (vw 128 32) neon4.vceq_i32 P.vceq ∧
    Lift1 16 (vw 128 32) neon4.vcgtz_i32 P.vcgtz ∧
    Lift1 16 (vw 128 32) neon4.vcltz_i32 P.vcltz ∧
    Lift1 16 (vw 128 32) neon4.vclez_i32 P.vclez ∧
    Lift2 16 (vw 128 32) neon4.vmin_i32 P.vmin ∧
    Lift2 16 (vw 128 32) neon4.vmax_i32 P.vmax ∧
    LiftS 16 (vw 128 32) neon4.vclamp_i32 P.vclamp :=
  ⟨neon4_ok.vreinterpret_i32_u32, neon4_ok.vdup_i32, neon4_ok.vzero_i32, neon4_ok.vadd_i32, neon4_ok.vsub_i32, neon4_ok.vceqz_i32, neon4_ok.vceq_i32, neon4_ok.vcgtz_i32, neon4_ok.vcltz_i32, neon4_ok.vclez_i32, neon4_ok.vmin_i32, neon4_ok.vmax_i32, neon4_ok.vclamp_i32⟩

/-- neon_quadruple.hh, `SIMD<int64_t, 8>` -/
theorem C54_neon4_i64 :
    LiftDup 8 (vw 128 64) neon4.vdup_i64 ∧
    (∀ tmp, Lift0 8 (vw 128 64) (neon4.vzero_i64 tmp) 0) ∧
    Lift2 8 (vw 128 64) neon4.vadd_i64 P.vadd ∧
    Lift2 8 (vw 128 64) neon4.vsub_i64 P.vsub :=
  ⟨neon4_ok.vdup_i64, neon4_ok.vzero_i64, neon4_ok.vadd_i64, neon4_ok.vsub_i64⟩

/-- neon_quadruple.hh, `SIMD<uint8_t, 64>` -/
theorem C54_neon4_u8 :
    (Lift1 64 (vw 128 8) neon4.vreinterpret_u8_i8 fun x => x) ∧
    LiftDup 64 (vw 128 8) neon4.vdup_u8 ∧
    (∀ tmp, Lift0 64 (vw 128 8) (neon4.vzero_u8 tmp) 0) ∧
    Lift2 64 (vw 128 8) neon4.vqsub_u8 P.vqsubU ∧
    Lift2 64 (vw 128 8) neon4.vorr_u8 P.vorr ∧
    Lift2 64 (vw 128 8) neon4.vand_u8 P.vand ∧
    Lift2 64 (vw 128 8) neon4.veor_u8 P.veor ∧
    Lift2 64 (vw 128 8) neon4.vbic_u8 P.vbic ∧
    Lift3 64 (vw 128 8) neon4.vbsl_u8 P.vbsl ∧
    (LiftShuf 64 (fun _ => True) (vw 128 8) (vw 128 8) neon4.vshuf_u8) :=
  ⟨neon4_ok.vreinterpret_u8_i8, neon4_ok.vdup_u8, neon4_ok.vzero_u8, neon4_ok.vqsub_u8, neon4_ok.vorr_u8, neon4_ok.vand_u8, neon4_ok.veor_u8, neon4_ok.vbic_u8, neon4_ok.vbsl_u8, neon4_ok.vshuf_u8⟩

/-- neon_quadruple.hh, `SIMD<uint16_t, 32>` -/
theorem C54_neon4_u16 :
    (Lift1 32 (vw 128 16) neon4.vreinterpret_u16_i16 fun x => x) ∧
    LiftDup 32 (vw 128 16) neon4.vdup_u16 ∧
    (∀ tmp, Lift0 32 (vw 128 16) (neon4.vzero_u16 tmp) 0) ∧
    Lift2 32 (vw 128 16) neon4.vqsub_u16 P.vqsubU ∧
    Lift2 32 (vw 128 16) neon4.vorr_u16 P.vorr ∧
    Lift2 32 (vw 128 16) neon4.vand_u16 P.vand ∧
    Lift2 32 (vw 128 16) neon4.veor_u16 P.veor ∧
    Lift2 32 (vw 128 16) neon4.vbic_u16 P.vbic ∧
    Lift3 32 (vw 128 16) neon4.vbsl_u16 P.vbsl :=
  ⟨neon4_ok.vreinterpret_u16_i16, neon4_ok.vdup_u16, neon4_ok.vzero_u16, neon4_ok.vqsub_u16, neon4_ok.vorr_u16, neon4_ok.vand_u16, neon4_ok.veor_u16, neon4_ok.vbic_u16, neon4_ok.vbsl_u16⟩

/-- neon_quadruple.hh, `SIMD<uint32_t, 16>` -/
theorem C54_neon4_u32 :
    (Lift1 16 (vw 128 32) neon4.vreinterpret_u32_f32 fun x => x) ∧
    (Lift1 16 (vw 128 32) neon4.vreinterpret_u32_i32 fun x => x) ∧
    LiftDup 16 (vw 128 32) neon4.vdup_u32 ∧
    (∀ tmp, Lift0 16 (vw 128 32) (neon4.vzero_u32 tmp) 0) ∧
    Lift2 16 (vw 128 32) neon4.vorr_u32 P.vorr ∧
    Lift2 16 (vw 128 32) neon4.vand_u32 P.vand ∧
    Lift2 16 (vw 128 32) neon4.veor_u32 P.veor ∧
    Lift2 16 (vw 128 32) neon4.vbic_u32 P.vbic ∧
    Lift3 16 (vw 128 32) neon4.vbsl_u32 P.vbsl :=
  ⟨neon4_ok.vreinterpret_u32_f32, neon4_ok.vreinterpret_u32_i32, neon4_ok.vdup_u32, neon4_ok.vzero_u32, neon4_ok.vorr_u32, neon4_ok.vand_u32, neon4_ok.veor_u32, neon4_ok.vbic_u32, neon4_ok.vbsl_u32⟩

/-- neon_quadruple.hh, `SIMD<uint64_t, 8>` -/
theorem C54_neon4_u64 :
    LiftDup 8 (vw 128 64) neon4.vdup_u64 ∧
    (∀ tmp, Lift0 8 (vw 128 64) (neon4.vzero_u64 tmp) 0) ∧
    Lift2 8 (vw 128 64) neon4.vorr_u64 P.vorr ∧
    Lift2 8 (vw 128 64) neon4.vand_u64 P.vand ∧
    Lift2 8 (vw 128 64) neon4.veor_u64 P.veor ∧
    Lift2 8 (vw 128 64) neon4.vbic_u64 P.vbic ∧
    Lift3 8 (vw 128 64) neon4.vbsl_u64 P.vbsl :=
  ⟨neon4_ok.vdup_u64, neon4_ok.vzero_u64, neon4_ok.vorr_u64, neon4_ok.vand_u64, neon4_ok.veor_u64, neon4_ok.vbic_u64, neon4_ok.vbsl_u64⟩

/-- neon_quadruple.hh, `SIMD<float, 16>` -/
theorem C54_neon4_f32 :
    (Lift1 16 (vw 128 32) neon4.vreinterpret_f32_u32 fun x => x) ∧
    LiftDup 16 (vw 128 32) neon4.vdup_f32 ∧
    (∀ tmp, Lift0 16 (vw 128 32) (neon4.vzero_f32 tmp) 0) ∧
    (∀ A32 : Fpu 32, Lift2 16 (vw 128 32) (neon4.vadd_f32 A32) A32.add) ∧
    (∀ A32 : Fpu 32, Lift2 16 (vw 128 32) (neon4.vsub_f32 A32) A32.sub) ∧
    (∀ A32 : Fpu 32, Lift2 16 (vw 128 32) (neon4.vmul_f32 A32) A32.mul) ∧
    Lift1 16 (vw 128 32) neon4.vabs_f32 Fmt.vabs ∧
    LiftSignum f32 16 (vw 128 32) neon4.vsignum_f32 ∧
    LiftSign f32 16 (vw 128 32) neon4.vsign_f32 ∧
    Lift2 16 (vw 128 32) neon4.vcopysign_f32 Fmt.vcopysign ∧
    Lift1 16 (vw 128 32) neon4.vceqz_f32 f32.vceqz ∧
    Lift2 16 (vw 128 32) neon4.vceq_f32 f32.vceq ∧
    Lift1 16 (vw 128 32) neon4.vcgtz_f32 f32.vcgtz ∧
    Lift1 16 (vw 128 32) neon4.vcltz_f32 f32.vcltz ∧
    Lift1 16 (vw 128 32) neon4.vclez_f32 f32.vclez ∧
    LiftNum2 f32 16 (vw 128 32) neon4.vmin_f32 f32.vmin ∧
    LiftNum2 f32 16 (vw 128 32) neon4.vmax_f32 f32.vmax ∧
    LiftClamp f32 16 (vw 128 32) neon4.vclamp_f32 :=
  ⟨neon4_ok.vreinterpret_f32_u32, neon4_ok.vdup_f32, neon4_ok.vzero_f32, neon4_ok.vadd_f32, neon4_ok.vsub_f32, neon4_ok.vmul_f32, neon4_ok.vabs_f32, neon4_ok.vsignum_f32, neon4_ok.vsign_f32, neon4_ok.vcopysign_f32, neon4_ok.vceqz_f32, neon4_ok.vceq_f32, neon4_ok.vcgtz_f32, neon4_ok.vcltz_f32, neon4_ok.vclez_f32, neon4_ok.vmin_f32, neon4_ok.vmax_f32, neon4_ok.vclamp_f32⟩

/-- `vsignum` of a NaN is 1 or -1 instead of 0. -/
theorem C54_vsignum_nan (a : BitVec 128) (k : Nat) (hk : k < 4) (h : f32.nan (lane 32 a k)) :
    lane 32 (neon.vsignum_f32 a) k = (if (lane 32 a k).msb then 0xbf800000#32 else 0x3f800000#32) ∧ f32.vsignum (lane 32 a k) = 0 := by
  simp (disch := omega) only [neon.vsignum_f32, vbicq_u32, veorq_u32, vdupq_n_f32, vandq_u32, vceqq_f32,
    lane_and, lane_xor, lane_not, lane_map2, lane_ofLanes]
  constructor
  · have e : I.fcmpeq f32 (lane 32 a k) (0#32) = 0 := if_neg fun h' => h'.1 h
    rw [e, LL.negz_and (by decide)]
    split <;> decide
  · unfold Fmt.vsignum Fmt.fsgn
    rw [if_neg (fun h' => h'.2.1 h), if_neg (fun h' => h'.1 h)]; decide


end Verif.SIMD
