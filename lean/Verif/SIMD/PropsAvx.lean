import Verif.SIMD.OkAvx
import Verif.SIMD.OkAvx2
/- C53 (avx2.hh, avx2_double.hh): the register functions of these headers act on every lane like the portable templates of simd.hh.
Generated by tools/gen_simd.py; the predicates are in Spec.lean, the lane functions in Port.lean. -/
namespace Verif.SIMD

/-- avx2.hh, `SIMD<int8_t, 32>` -/
theorem C53_avx_i8 :
    (Lift1 32 (lane 8) avx.vreinterpret_i8_u8 fun x => x) ∧
    LiftDup 32 (lane 8) avx.vdup_i8 ∧
    Lift0 32 (lane 8) avx.vzero_i8 0 ∧
    Lift2 32 (lane 8) avx.vadd_i8 P.vadd ∧
    Lift2 32 (lane 8) avx.vqadd_i8 P.vqadd ∧
    Lift2 32 (lane 8) avx.vsub_i8 P.vsub ∧
    Lift2 32 (lane 8) avx.vqsub_i8 P.vqsub ∧
    Lift1 32 (lane 8) avx.vqabs_i8 P.vqabs ∧
    Lift1 32 (lane 8) avx.vsignum_i8 P.vsignum ∧
    Lift2 32 (lane 8) avx.vsign_i8 P.vsign ∧
    Lift1 32 (lane 8) avx.vceqz_i8 P.vceqz ∧
    Lift2 32 (lane 8) avx.vceq_i8 P.vceq ∧
    Lift1 32 (lane 8) avx.vcgtz_i8 P.vcgtz ∧
    Lift1 32 (lane 8) avx.vcltz_i8 P.vcltz ∧
    Lift1 32 (lane 8) avx.vclez_i8 P.vclez ∧
    Lift2 32 (lane 8) avx.vmin_i8 P.vmin ∧
    Lift2 32 (lane 8) avx.vmax_i8 P.vmax ∧
    LiftS 32 (lane 8) avx.vclamp_i8 P.vclamp ∧
    (LiftShuf 32 (fun j => j < 32 ∨ 144 ≤ j) (lane 8) (lane 8) avx.vshuf_i8) :=
  ⟨avx_ok.vreinterpret_i8_u8, avx_ok.vdup_i8, avx_ok.vzero_i8, avx_ok.vadd_i8, avx_ok.vqadd_i8, avx_ok.vsub_i8, avx_ok.vqsub_i8, avx_ok.vqabs_i8, avx_ok.vsignum_i8, avx_ok.vsign_i8, avx_ok.vceqz_i8, avx_ok.vceq_i8, avx_ok.vcgtz_i8, avx_ok.vcltz_i8, avx_ok.vclez_i8, avx_ok.vmin_i8, avx_ok.vmax_i8, avx_ok.vclamp_i8, avx_ok.vshuf_i8⟩

/-- avx2.hh, `SIMD<int16_t, 16>` -/
theorem C53_avx_i16 :
    (Lift1 16 (lane 16) avx.vreinterpret_i16_u16 fun x => x) ∧
    LiftDup 16 (lane 16) avx.vdup_i16 ∧
    Lift0 16 (lane 16) avx.vzero_i16 0 ∧
    Lift2 16 (lane 16) avx.vadd_i16 P.vadd ∧
    Lift2 16 (lane 16) avx.vqadd_i16 P.vqadd ∧
    Lift2 16 (lane 16) avx.vsub_i16 P.vsub ∧
    Lift2 16 (lane 16) avx.vqsub_i16 P.vqsub ∧
    Lift1 16 (lane 16) avx.vqabs_i16 P.vqabs ∧
    Lift1 16 (lane 16) avx.vsignum_i16 P.vsignum ∧
    Lift2 16 (lane 16) avx.vsign_i16 P.vsign ∧
    Lift1 16 (lane 16) avx.vceqz_i16 P.vceqz ∧
    Lift2 16 (lane 16) avx.vceq_i16 P.vceq ∧
    Lift1 16 (lane 16) avx.vcgtz_i16 P.vcgtz ∧
    Lift1 16 (lane 16) avx.vcltz_i16 P.vcltz ∧
    Lift1 16 (lane 16) avx.vclez_i16 P.vclez ∧
    Lift2 16 (lane 16) avx.vmin_i16 P.vmin ∧
    Lift2 16 (lane 16) avx.vmax_i16 P.vmax ∧
    LiftS 16 (lane 16) avx.vclamp_i16 P.vclamp :=
  ⟨avx_ok.vreinterpret_i16_u16, avx_ok.vdup_i16, avx_ok.vzero_i16, avx_ok.vadd_i16, avx_ok.vqadd_i16, avx_ok.vsub_i16, avx_ok.vqsub_i16, avx_ok.vqabs_i16, avx_ok.vsignum_i16, avx_ok.vsign_i16, avx_ok.vceqz_i16, avx_ok.vceq_i16, avx_ok.vcgtz_i16, avx_ok.vcltz_i16, avx_ok.vclez_i16, avx_ok.vmin_i16, avx_ok.vmax_i16, avx_ok.vclamp_i16⟩

/-- avx2.hh, `SIMD<int32_t, 8>` -/
theorem C53_avx_i32 :
    (Lift1 8 (lane 32) avx.vreinterpret_i32_u32 fun x => x) ∧
    LiftDup 8 (lane 32) avx.vdup_i32 ∧
    Lift0 8 (lane 32) avx.vzero_i32 0 ∧
    Lift2 8 (lane 32) avx.vadd_i32 P.vadd ∧
    Lift2 8 (lane 32) avx.vsub_i32 P.vsub ∧
    Lift1 8 (lane 32) avx.vqabs_i32 P.vqabs ∧
    Lift1 8 (lane 32) avx.vsignum_i32 P.vsignum ∧
    Lift2 8 (lane 32) avx.vsign_i32 P.vsign ∧
    Lift1 8 (lane 32) avx.vceqz_i32 P.vceqz ∧
    Lift2 8 (lane 32) avx.vceq_i32 P.vceq ∧
    Lift1 8 (lane 32) avx.vcgtz_i32 P.vcgtz ∧
    Lift1 8 (lane 32) avx.vcltz_i32 P.vcltz ∧
    Lift1 8 (lane 32) avx.vclez_i32 P.vclez ∧
    Lift2 8 (lane 32) avx.vmin_i32 P.vmin ∧
    Lift2 8 (lane 32) avx.vmax_i32 P.vmax ∧
    LiftS 8 (lane 32) avx.vclamp_i32 P.vclamp :=
  ⟨avx_ok.vreinterpret_i32_u32, avx_ok.vdup_i32, avx_ok.vzero_i32, avx_ok.vadd_i32, avx_ok.vsub_i32, avx_ok.vqabs_i32, avx_ok.vsignum_i32, avx_ok.vsign_i32, avx_ok.vceqz_i32, avx_ok.vceq_i32, avx_ok.vcgtz_i32, avx_ok.vcltz_i32, avx_ok.vclez_i32, avx_ok.vmin_i32, avx_ok.vmax_i32, avx_ok.vclamp_i32⟩

/-- avx2.hh, `SIMD<int64_t, 4>` -/
theorem C53_avx_i64 :
    (Lift1 4 (lane 64) avx.vreinterpret_i64_u64 fun x => x) ∧
    LiftDup 4 (lane 64) avx.vdup_i64 ∧
    Lift0 4 (lane 64) avx.vzero_i64 0 ∧
    Lift2 4 (lane 64) avx.vadd_i64 P.vadd ∧
    Lift2 4 (lane 64) avx.vsub_i64 P.vsub ∧
    Lift1 4 (lane 64) avx.vceqz_i64 P.vceqz ∧
    Lift2 4 (lane 64) avx.vceq_i64 P.vceq ∧
    Lift1 4 (lane 64) avx.vcgtz_i64 P.vcgtz ∧
    Lift1 4 (lane 64) avx.vcltz_i64 P.vcltz ∧
    Lift1 4 (lane 64) avx.vclez_i64 P.vclez ∧
    LiftS 4 (lane 64) avx.vclamp_i64 P.vclamp :=
  ⟨avx_ok.vreinterpret_i64_u64, avx_ok.vdup_i64, avx_ok.vzero_i64, avx_ok.vadd_i64, avx_ok.vsub_i64, avx_ok.vceqz_i64, avx_ok.vceq_i64, avx_ok.vcgtz_i64, avx_ok.vcltz_i64, avx_ok.vclez_i64, avx_ok.vclamp_i64⟩

/-- avx2.hh, `SIMD<uint8_t, 32>` -/
theorem C53_avx_u8 :
    (Lift1 32 (lane 8) avx.vreinterpret_u8_i8 fun x => x) ∧
    Lift2 32 (lane 8) avx.vqsub_u8 P.vqsubU ∧
    Lift2 32 (lane 8) avx.vorr_u8 P.vorr ∧
    Lift2 32 (lane 8) avx.vand_u8 P.vand ∧
    Lift2 32 (lane 8) avx.veor_u8 P.veor ∧
    Lift2 32 (lane 8) avx.vbic_u8 P.vbic ∧
    Lift3 32 (lane 8) avx.vbsl_u8 P.vbsl ∧
    (LiftShuf 32 (fun j => j < 32 ∨ 144 ≤ j) (lane 8) (lane 8) avx.vshuf_u8) :=
  ⟨avx_ok.vreinterpret_u8_i8, avx_ok.vqsub_u8, avx_ok.vorr_u8, avx_ok.vand_u8, avx_ok.veor_u8, avx_ok.vbic_u8, avx_ok.vbsl_u8, avx_ok.vshuf_u8⟩

/-- avx2.hh, `SIMD<uint16_t, 16>` -/
theorem C53_avx_u16 :
    (Lift1 16 (lane 16) avx.vreinterpret_u16_i16 fun x => x) ∧
    Lift2 16 (lane 16) avx.vqsub_u16 P.vqsubU ∧
    Lift2 16 (lane 16) avx.vorr_u16 P.vorr ∧
    Lift2 16 (lane 16) avx.vand_u16 P.vand ∧
    Lift2 16 (lane 16) avx.veor_u16 P.veor ∧
    Lift2 16 (lane 16) avx.vbic_u16 P.vbic ∧
    Lift3 16 (lane 16) avx.vbsl_u16 P.vbsl :=
  ⟨avx_ok.vreinterpret_u16_i16, avx_ok.vqsub_u16, avx_ok.vorr_u16, avx_ok.vand_u16, avx_ok.veor_u16, avx_ok.vbic_u16, avx_ok.vbsl_u16⟩

/-- avx2.hh, `SIMD<uint32_t, 8>` -/
theorem C53_avx_u32 :
    (Lift1 8 (lane 32) avx.vreinterpret_u32_f32 fun x => x) ∧
    (Lift1 8 (lane 32) avx.vreinterpret_u32_i32 fun x => x) ∧
    Lift2 8 (lane 32) avx.vorr_u32 P.vorr ∧
    Lift2 8 (lane 32) avx.vand_u32 P.vand ∧
    Lift2 8 (lane 32) avx.veor_u32 P.veor ∧
    Lift2 8 (lane 32) avx.vbic_u32 P.vbic ∧
    Lift3 8 (lane 32) avx.vbsl_u32 P.vbsl ∧
    (LiftShuf 8 (fun j => j < 8) (lane 32) (lane 32) avx.vshuf_u32) :=
  ⟨avx_ok.vreinterpret_u32_f32, avx_ok.vreinterpret_u32_i32, avx_ok.vorr_u32, avx_ok.vand_u32, avx_ok.veor_u32, avx_ok.vbic_u32, avx_ok.vbsl_u32, avx_ok.vshuf_u32⟩

/-- avx2.hh, `SIMD<uint64_t, 4>` -/
theorem C53_avx_u64 :
    (Lift1 4 (lane 64) avx.vreinterpret_u64_f64 fun x => x) ∧
    (Lift1 4 (lane 64) avx.vreinterpret_u64_i64 fun x => x) ∧
    Lift2 4 (lane 64) avx.vorr_u64 P.vorr ∧
    Lift2 4 (lane 64) avx.vand_u64 P.vand ∧
    Lift2 4 (lane 64) avx.veor_u64 P.veor ∧
    Lift2 4 (lane 64) avx.vbic_u64 P.vbic ∧
    Lift3 4 (lane 64) avx.vbsl_u64 P.vbsl :=
  ⟨avx_ok.vreinterpret_u64_f64, avx_ok.vreinterpret_u64_i64, avx_ok.vorr_u64, avx_ok.vand_u64, avx_ok.veor_u64, avx_ok.vbic_u64, avx_ok.vbsl_u64⟩

/-- avx2.hh, `SIMD<float, 8>` -/
theorem C53_avx_f32 :
    (Lift1 8 (lane 32) avx.vreinterpret_f32_u32 fun x => x) ∧
    LiftDup 8 (lane 32) avx.vdup_f32 ∧
    Lift0 8 (lane 32) avx.vzero_f32 0 ∧
    (∀ A32 : Fpu 32, Lift2 8 (lane 32) (avx.vadd_f32 A32) A32.add) ∧
    (∀ A32 : Fpu 32, Lift2 8 (lane 32) (avx.vsub_f32 A32) A32.sub) ∧
    (∀ A32 : Fpu 32, Lift2 8 (lane 32) (avx.vmul_f32 A32) A32.mul) ∧
    Lift1 8 (lane 32) avx.vabs_f32 Fmt.vabs ∧
    LiftSignum f32 8 (lane 32) avx.vsignum_f32 ∧
    LiftSign f32 8 (lane 32) avx.vsign_f32 ∧
    Lift2 8 (lane 32) avx.vcopysign_f32 Fmt.vcopysign ∧
    Lift1 8 (lane 32) avx.vceqz_f32 f32.vceqz ∧
    Lift2 8 (lane 32) avx.vceq_f32 f32.vceq ∧
    Lift1 8 (lane 32) avx.vcgtz_f32 f32.vcgtz ∧
    Lift1 8 (lane 32) avx.vcltz_f32 f32.vcltz ∧
    Lift1 8 (lane 32) avx.vclez_f32 f32.vclez ∧
    LiftNum2 f32 8 (lane 32) avx.vmin_f32 f32.vmin ∧
    LiftNum2 f32 8 (lane 32) avx.vmax_f32 f32.vmax ∧
    LiftClamp f32 8 (lane 32) avx.vclamp_f32 ∧
    (LiftShuf 8 (fun j => j < 8) (lane 32) (lane 32) avx.vshuf_f32) :=
  ⟨avx_ok.vreinterpret_f32_u32, avx_ok.vdup_f32, avx_ok.vzero_f32, avx_ok.vadd_f32, avx_ok.vsub_f32, avx_ok.vmul_f32, avx_ok.vabs_f32, avx_ok.vsignum_f32, avx_ok.vsign_f32, avx_ok.vcopysign_f32, avx_ok.vceqz_f32, avx_ok.vceq_f32, avx_ok.vcgtz_f32, avx_ok.vcltz_f32, avx_ok.vclez_f32, avx_ok.vmin_f32, avx_ok.vmax_f32, avx_ok.vclamp_f32, avx_ok.vshuf_f32⟩

/-- avx2.hh, `SIMD<double, 4>` -/
theorem C53_avx_f64 :
    (Lift1 4 (lane 64) avx.vreinterpret_f64_u64 fun x => x) ∧
    LiftDup 4 (lane 64) avx.vdup_f64 ∧
    Lift0 4 (lane 64) avx.vzero_f64 0 ∧
    (∀ A64 : Fpu 64, Lift2 4 (lane 64) (avx.vadd_f64 A64) A64.add) ∧
    (∀ A64 : Fpu 64, Lift2 4 (lane 64) (avx.vsub_f64 A64) A64.sub) ∧
    (∀ A64 : Fpu 64, Lift2 4 (lane 64) (avx.vmul_f64 A64) A64.mul) ∧
    Lift1 4 (lane 64) avx.vabs_f64 Fmt.vabs ∧
    LiftSignum f64 4 (lane 64) avx.vsignum_f64 ∧
    LiftSign f64 4 (lane 64) avx.vsign_f64 ∧
    Lift2 4 (lane 64) avx.vcopysign_f64 Fmt.vcopysign ∧
    Lift1 4 (lane 64) avx.vceqz_f64 f64.vceqz ∧
    Lift2 4 (lane 64) avx.vceq_f64 f64.vceq ∧
    Lift1 4 (lane 64) avx.vcgtz_f64 f64.vcgtz ∧
    Lift1 4 (lane 64) avx.vcltz_f64 f64.vcltz ∧
    Lift1 4 (lane 64) avx.vclez_f64 f64.vclez ∧
    LiftNum2 f64 4 (lane 64) avx.vmin_f64 f64.vmin ∧
    LiftNum2 f64 4 (lane 64) avx.vmax_f64 f64.vmax ∧
    LiftClamp f64 4 (lane 64) avx.vclamp_f64 :=
  ⟨avx_ok.vreinterpret_f64_u64, avx_ok.vdup_f64, avx_ok.vzero_f64, avx_ok.vadd_f64, avx_ok.vsub_f64, avx_ok.vmul_f64, avx_ok.vabs_f64, avx_ok.vsignum_f64, avx_ok.vsign_f64, avx_ok.vcopysign_f64, avx_ok.vceqz_f64, avx_ok.vceq_f64, avx_ok.vcgtz_f64, avx_ok.vcltz_f64, avx_ok.vclez_f64, avx_ok.vmin_f64, avx_ok.vmax_f64, avx_ok.vclamp_f64⟩

/-- avx2_double.hh, `SIMD<int8_t, 64>` -/
theorem C53_avx2_i8 :
    (Lift1 64 (vw 256 8) avx2.vreinterpret_i8_u8 fun x => x) ∧
    LiftDup 64 (vw 256 8) avx2.vdup_i8 ∧
    Lift0 64 (vw 256 8) avx2.vzero_i8 0 ∧
    Lift2 64 (vw 256 8) avx2.vadd_i8 P.vadd ∧
    Lift2 64 (vw 256 8) avx2.vqadd_i8 P.vqadd ∧
    Lift2 64 (vw 256 8) avx2.vsub_i8 P.vsub ∧
    Lift2 64 (vw 256 8) avx2.vqsub_i8 P.vqsub ∧
    Lift1 64 (vw 256 8) avx2.vqabs_i8 P.vqabs ∧
    Lift1 64 (vw 256 8) avx2.vsignum_i8 P.vsignum ∧
    Lift2 64 (vw 256 8) avx2.vsign_i8 P.vsign ∧
    Lift1 64 (vw 256 8) avx2.vceqz_i8 P.vceqz ∧
    Lift2 64 (vw 256 8) avx2.vceq_i8 P.vceq ∧
    Lift1 64 (vw 256 8) avx2.vcgtz_i8 P.vcgtz ∧
    Lift1 64 (vw 256 8) avx2.vcltz_i8 P.vcltz ∧
    Lift1 64 (vw 256 8) avx2.vclez_i8 P.vclez ∧
    Lift2 64 (vw 256 8) avx2.vmin_i8 P.vmin ∧
    Lift2 64 (vw 256 8) avx2.vmax_i8 P.vmax ∧
    LiftS 64 (vw 256 8) avx2.vclamp_i8 P.vclamp ∧
    (LiftShuf 64 (fun j => j < 64 ∨ 176 ≤ j) (vw 256 8) (vw 256 8) avx2.vshuf_i8) :=
  ⟨avx2_ok.vreinterpret_i8_u8, avx2_ok.vdup_i8, avx2_ok.vzero_i8, avx2_ok.vadd_i8, avx2_ok.vqadd_i8, avx2_ok.vsub_i8, avx2_ok.vqsub_i8, avx2_ok.vqabs_i8, avx2_ok.vsignum_i8, avx2_ok.vsign_i8, avx2_ok.vceqz_i8, avx2_ok.vceq_i8, avx2_ok.vcgtz_i8, avx2_ok.vcltz_i8, avx2_ok.vclez_i8, avx2_ok.vmin_i8, avx2_ok.vmax_i8, avx2_ok.vclamp_i8, avx2_ok.vshuf_i8⟩

/-- avx2_double.hh, `SIMD<int16_t, 32>` -/
theorem C53_avx2_i16 :
    (Lift1 32 (vw 256 16) avx2.vreinterpret_i16_u16 fun x => x) ∧
    LiftDup 32 (vw 256 16) avx2.vdup_i16 ∧
    Lift0 32 (vw 256 16) avx2.vzero_i16 0 ∧
    Lift2 32 (vw 256 16) avx2.vadd_i16 P.vadd ∧
    Lift2 32 (vw 256 16) avx2.vqadd_i16 P.vqadd ∧
    Lift2 32 (vw 256 16) avx2.vsub_i16 P.vsub ∧
    Lift2 32 (vw 256 16) avx2.vqsub_i16 P.vqsub ∧
    Lift1 32 (vw 256 16) avx2.vqabs_i16 P.vqabs ∧
    Lift1 32 (vw 256 16) avx2.vsignum_i16 P.vsignum ∧
    Lift2 32 (vw 256 16) avx2.vsign_i16 P.vsign ∧
    Lift1 32 (vw 256 16) avx2.vceqz_i16 P.vceqz ∧
    Lift2 32 (vw 256 16) avx2.vceq_i16 P.vceq ∧
    Lift1 32 (vw 256 16) avx2.vcgtz_i16 P.vcgtz ∧
    Lift1 32 (vw 256 16) avx2.vcltz_i16 P.vcltz ∧
    Lift1 32 (vw 256 16) avx2.vclez_i16 P.vclez ∧
    Lift2 32 (vw 256 16) avx2.vmin_i16 P.vmin ∧
    Lift2 32 (vw 256 16) avx2.vmax_i16 P.vmax ∧
    LiftS 32 (vw 256 16) avx2.vclamp_i16 P.vclamp :=
  ⟨avx2_ok.vreinterpret_i16_u16, avx2_ok.vdup_i16, avx2_ok.vzero_i16, avx2_ok.vadd_i16, avx2_ok.vqadd_i16, avx2_ok.vsub_i16, avx2_ok.vqsub_i16, avx2_ok.vqabs_i16, avx2_ok.vsignum_i16, avx2_ok.vsign_i16, avx2_ok.vceqz_i16, avx2_ok.vceq_i16, avx2_ok.vcgtz_i16, avx2_ok.vcltz_i16, avx2_ok.vclez_i16, avx2_ok.vmin_i16, avx2_ok.vmax_i16, avx2_ok.vclamp_i16⟩

/-- avx2_double.hh, `SIMD<int32_t, 16>` -/
theorem C53_avx2_i32 :
    (Lift1 16 (vw 256 32) avx2.vreinterpret_i32_u32 fun x => x) ∧
    LiftDup 16 (vw 256 32) avx2.vdup_i32 ∧
    Lift0 16 (vw 256 32) avx2.vzero_i32 0 ∧
    Lift2 16 (vw 256 32) avx2.vadd_i32 P.vadd ∧
    Lift2 16 (vw 256 32) avx2.vsub_i32 P.vsub ∧
    Lift1 16 (vw 256 32) avx2.vqabs_i32 P.vqabs ∧
    Lift1 16 (vw 256 32) avx2.vsignum_i32 P.vsignum ∧
    Lift2 16 (vw 256 32) avx2.vsign_i32 P.vsign ∧
    Lift1 16 (vw 256 32) avx2.vceqz_i32 P.vceqz ∧
    Lift2 16 (vw 256 32) avx2.vceq_i32 P.vceq ∧
    Lift1 16 (vw 256 32) avx2.vcgtz_i32 P.vcgtz ∧
    Lift1 16 (vw 256 32) avx2.vcltz_i32 P.vcltz ∧
    Lift1 16 (vw 256 32) avx2.vclez_i32 P.vclez ∧
    Lift2 16 (vw 256 32) avx2.vmin_i32 P.vmin ∧
    Lift2 16 (vw 256 32) avx2.vmax_i32 P.vmax ∧
    LiftS 16 (vw 256 32) avx2.vclamp_i32 P.vclamp :=
  ⟨avx2_ok.vreinterpret_i32_u32, avx2_ok.vdup_i32, avx2_ok.vzero_i32, avx2_ok.vadd_i32, avx2_ok.vsub_i32, avx2_ok.vqabs_i32, avx2_ok.vsignum_i32, avx2_ok.vsign_i32, avx2_ok.vceqz_i32, avx2_ok.vceq_i32, avx2_ok.vcgtz_i32, avx2_ok.vcltz_i32, avx2_ok.vclez_i32, avx2_ok.vmin_i32, avx2_ok.vmax_i32, avx2_ok.vclamp_i32⟩

/-- avx2_double.hh, `SIMD<int64_t, 8>` -/
theorem C53_avx2_i64 :
    (Lift1 8 (vw 256 64) avx2.vreinterpret_i64_u64 fun x => x) ∧
    LiftDup 8 (vw 256 64) avx2.vdup_i64 ∧
    Lift0 8 (vw 256 64) avx2.vzero_i64 0 ∧
    Lift2 8 (vw 256 64) avx2.vadd_i64 P.vadd ∧
    Lift2 8 (vw 256 64) avx2.vsub_i64 P.vsub ∧
    Lift1 8 (vw 256 64) avx2.vceqz_i64 P.vceqz ∧
    Lift2 8 (vw 256 64) avx2.vceq_i64 P.vceq ∧
    Lift1 8 (vw 256 64) avx2.vcgtz_i64 P.vcgtz ∧
    Lift1 8 (vw 256 64) avx2.vcltz_i64 P.vcltz ∧
    Lift1 8 (vw 256 64) avx2.vclez_i64 P.vclez ∧
    LiftS 8 (vw 256 64) avx2.vclamp_i64 P.vclamp :=
  ⟨avx2_ok.vreinterpret_i64_u64, avx2_ok.vdup_i64, avx2_ok.vzero_i64, avx2_ok.vadd_i64, avx2_ok.vsub_i64, avx2_ok.vceqz_i64, avx2_ok.vceq_i64, avx2_ok.vcgtz_i64, avx2_ok.vcltz_i64, avx2_ok.vclez_i64, avx2_ok.vclamp_i64⟩

/-- avx2_double.hh, `SIMD<uint8_t, 64>` -/
theorem C53_avx2_u8 :
    (Lift1 64 (vw 256 8) avx2.vreinterpret_u8_i8 fun x => x) ∧
    Lift2 64 (vw 256 8) avx2.vqsub_u8 P.vqsubU ∧
    Lift2 64 (vw 256 8) avx2.vorr_u8 P.vorr ∧
    Lift2 64 (vw 256 8) avx2.vand_u8 P.vand ∧
    Lift2 64 (vw 256 8) avx2.veor_u8 P.veor ∧
    Lift2 64 (vw 256 8) avx2.vbic_u8 P.vbic ∧
    Lift3 64 (vw 256 8) avx2.vbsl_u8 P.vbsl ∧
    (LiftShuf 64 (fun j => j < 64 ∨ 176 ≤ j) (vw 256 8) (vw 256 8) avx2.vshuf_u8) :=
  ⟨avx2_ok.vreinterpret_u8_i8, avx2_ok.vqsub_u8, avx2_ok.vorr_u8, avx2_ok.vand_u8, avx2_ok.veor_u8, avx2_ok.vbic_u8, avx2_ok.vbsl_u8, avx2_ok.vshuf_u8⟩

/-- avx2_double.hh, `SIMD<uint16_t, 32>` -/
theorem C53_avx2_u16 :
    (Lift1 32 (vw 256 16) avx2.vreinterpret_u16_i16 fun x => x) ∧
    Lift2 32 (vw 256 16) avx2.vqsub_u16 P.vqsubU ∧
    Lift2 32 (vw 256 16) avx2.vorr_u16 P.vorr ∧
    Lift2 32 (vw 256 16) avx2.vand_u16 P.vand ∧
    Lift2 32 (vw 256 16) avx2.veor_u16 P.veor ∧
    Lift2 32 (vw 256 16) avx2.vbic_u16 P.vbic ∧
    Lift3 32 (vw 256 16) avx2.vbsl_u16 P.vbsl :=
  ⟨avx2_ok.vreinterpret_u16_i16, avx2_ok.vqsub_u16, avx2_ok.vorr_u16, avx2_ok.vand_u16, avx2_ok.veor_u16, avx2_ok.vbic_u16, avx2_ok.vbsl_u16⟩

/-- avx2_double.hh, `SIMD<uint32_t, 16>` -/
theorem C53_avx2_u32 :
    (Lift1 16 (vw 256 32) avx2.vreinterpret_u32_f32 fun x => x) ∧
    (Lift1 16 (vw 256 32) avx2.vreinterpret_u32_i32 fun x => x) ∧
    Lift2 16 (vw 256 32) avx2.vorr_u32 P.vorr ∧
    Lift2 16 (vw 256 32) avx2.vand_u32 P.vand ∧
    Lift2 16 (vw 256 32) avx2.veor_u32 P.veor ∧
    Lift2 16 (vw 256 32) avx2.vbic_u32 P.vbic ∧
    Lift3 16 (vw 256 32) avx2.vbsl_u32 P.vbsl ∧
    (LiftShuf 16 (fun j => j < 16) (vw 256 32) (vw 256 32) avx2.vshuf_u32) :=
  ⟨avx2_ok.vreinterpret_u32_f32, avx2_ok.vreinterpret_u32_i32, avx2_ok.vorr_u32, avx2_ok.vand_u32, avx2_ok.veor_u32, avx2_ok.vbic_u32, avx2_ok.vbsl_u32, avx2_ok.vshuf_u32⟩

/-- avx2_double.hh, `SIMD<uint64_t, 8>` -/
theorem C53_avx2_u64 :
    (Lift1 8 (vw 256 64) avx2.vreinterpret_u64_f64 fun x => x) ∧
    (Lift1 8 (vw 256 64) avx2.vreinterpret_u64_i64 fun x => x) ∧
    Lift2 8 (vw 256 64) avx2.vorr_u64 P.vorr ∧
    Lift2 8 (vw 256 64) avx2.vand_u64 P.vand ∧
    Lift2 8 (vw 256 64) avx2.veor_u64 P.veor ∧
    Lift2 8 (vw 256 64) avx2.vbic_u64 P.vbic ∧
    Lift3 8 (vw 256 64) avx2.vbsl_u64 P.vbsl :=
  ⟨avx2_ok.vreinterpret_u64_f64, avx2_ok.vreinterpret_u64_i64, avx2_ok.vorr_u64, avx2_ok.vand_u64, avx2_ok.veor_u64, avx2_ok.vbic_u64, avx2_ok.vbsl_u64⟩

/-- avx2_double.hh, `SIMD<float, 16>` -/
theorem C53_avx2_f32 :
    (Lift1 16 (vw 256 32) avx2.vreinterpret_f32_u32 fun x => x) ∧
    LiftDup 16 (vw 256 32) avx2.vdup_f32 ∧
    Lift0 16 (vw 256 32) avx2.vzero_f32 0 ∧
    (∀ A32 : Fpu 32, Lift2 16 (vw 256 32) (avx2.vadd_f32 A32) A32.add) ∧
    (∀ A32 : Fpu 32, Lift2 16 (vw 256 32) (avx2.vsub_f32 A32) A32.sub) ∧
    (∀ A32 : Fpu 32, Lift2 16 (vw 256 32) (avx2.vmul_f32 A32) A32.mul) ∧
    Lift1 16 (vw 256 32) avx2.vabs_f32 Fmt.vabs ∧
    LiftSignum f32 16 (vw 256 32) avx2.vsignum_f32 ∧
    LiftSign f32 16 (vw 256 32) avx2.vsign_f32 ∧
    Lift2 16 (vw 256 32) avx2.vcopysign_f32 Fmt.vcopysign ∧
    Lift1 16 (vw 256 32) avx2.vceqz_f32 f32.vceqz ∧
    Lift2 16 (vw 256 32) avx2.vceq_f32 f32.vceq ∧
    Lift1 16 (vw 256 32) avx2.vcgtz_f32 f32.vcgtz ∧
    Lift1 16 (vw 256 32) avx2.vcltz_f32 f32.vcltz ∧
    Lift1 16 (vw 256 32) avx2.vclez_f32 f32.vclez ∧
    LiftNum2 f32 16 (vw 256 32) avx2.vmin_f32 f32.vmin ∧
    LiftNum2 f32 16 (vw 256 32) avx2.vmax_f32 f32.vmax ∧
    LiftClamp f32 16 (vw 256 32) avx2.vclamp_f32 ∧
    (LiftShuf 16 (fun j => j < 16) (vw 256 32) (vw 256 32) avx2.vshuf_f32) :=
  ⟨avx2_ok.vreinterpret_f32_u32, avx2_ok.vdup_f32, avx2_ok.vzero_f32, avx2_ok.vadd_f32, avx2_ok.vsub_f32, avx2_ok.vmul_f32, avx2_ok.vabs_f32, avx2_ok.vsignum_f32, avx2_ok.vsign_f32, avx2_ok.vcopysign_f32, avx2_ok.vceqz_f32, avx2_ok.vceq_f32, avx2_ok.vcgtz_f32, avx2_ok.vcltz_f32, avx2_ok.vclez_f32, avx2_ok.vmin_f32, avx2_ok.vmax_f32, avx2_ok.vclamp_f32, avx2_ok.vshuf_f32⟩

/-- avx2_double.hh, `SIMD<double, 8>` -/
theorem C53_avx2_f64 :
    (Lift1 8 (vw 256 64) avx2.vreinterpret_f64_u64 fun x => x) ∧
    LiftDup 8 (vw 256 64) avx2.vdup_f64 ∧
    Lift0 8 (vw 256 64) avx2.vzero_f64 0 ∧
    (∀ A64 : Fpu 64, Lift2 8 (vw 256 64) (avx2.vadd_f64 A64) A64.add) ∧
    (∀ A64 : Fpu 64, Lift2 8 (vw 256 64) (avx2.vsub_f64 A64) A64.sub) ∧
    (∀ A64 : Fpu 64, Lift2 8 (vw 256 64) (avx2.vmul_f64 A64) A64.mul) ∧
    Lift1 8 (vw 256 64) avx2.vabs_f64 Fmt.vabs ∧
    LiftSignum f64 8 (vw 256 64) avx2.vsignum_f64 ∧
    LiftSign f64 8 (vw 256 64) avx2.vsign_f64 ∧
    Lift2 8 (vw 256 64) avx2.vcopysign_f64 Fmt.vcopysign ∧
    Lift1 8 (vw 256 64) avx2.vceqz_f64 f64.vceqz ∧
    Lift2 8 (vw 256 64) avx2.vceq_f64 f64.vceq ∧
    Lift1 8 (vw 256 64) avx2.vcgtz_f64 f64.vcgtz ∧
    Lift1 8 (vw 256 64) avx2.vcltz_f64 f64.vcltz ∧
    Lift1 8 (vw 256 64) avx2.vclez_f64 f64.vclez ∧
    LiftNum2 f64 8 (vw 256 64) avx2.vmin_f64 f64.vmin ∧
    LiftNum2 f64 8 (vw 256 64) avx2.vmax_f64 f64.vmax ∧
    LiftClamp f64 8 (vw 256 64) avx2.vclamp_f64 :=
  ⟨avx2_ok.vreinterpret_f64_u64, avx2_ok.vdup_f64, avx2_ok.vzero_f64, avx2_ok.vadd_f64, avx2_ok.vsub_f64, avx2_ok.vmul_f64, avx2_ok.vabs_f64, avx2_ok.vsignum_f64, avx2_ok.vsign_f64, avx2_ok.vcopysign_f64, avx2_ok.vceqz_f64, avx2_ok.vceq_f64, avx2_ok.vcgtz_f64, avx2_ok.vcltz_f64, avx2_ok.vclez_f64, avx2_ok.vmin_f64, avx2_ok.vmax_f64, avx2_ok.vclamp_f64⟩

/-! ### The conditions of the `vshuf` statements are needed -/

/-- A 32 bit index is taken modulo 8; the portable template returns 0 from index 8 on. -/
theorem C53_vshuf_index (a b : BitVec 256) (k : Nat) (hk : k < 8) : lane 32 (avx.vshuf_f32 a b) k = lane 32 a ((lane 32 b k).toNat % 8) := by
  simp (disch := omega) only [avx.vshuf_f32, _mm256_permutevar8x32_ps, lane_ofLanes]

/-- An index byte from 128 to 143 selects one of the upper 16 bytes instead of returning 0. -/
theorem C53_vshuf_index_8 (a b : BitVec 256) (k : Nat) (hk : k < 32) (h1 : 128 ≤ (lane 8 b k).toNat) (h2 : (lane 8 b k).toNat < 144) :
    lane 8 (avx.vshuf_i8 a b) k = lane 8 a (16 + (lane 8 b k).toNat % 16) := by
  simp (disch := omega) only [avx.vshuf_i8, _mm256_cmpgt_epi8, _mm256_or_si256, _mm256_permute2x128_si256, _mm256_set1_epi8,
    _mm256_shuffle_epi8, _mm256_sub_epi8, LL.lane_low, LL.lane_high, lane_map2, lane_or, lane_ofLanes]
  have h : ∀ j : BitVec 8, 128 ≤ j.toNat → j.toNat < 144 → (j - 16).msb = false ∧ (j - 16).toNat % 16 = j.toNat % 16 := by decide +kernel
  obtain ⟨h3, h4⟩ := h _ h1 h2
  rw [LL.sh_first, if_neg (by omega)]
  unfold LL.sh
  rw [h3, h4]; simp


end Verif.SIMD
