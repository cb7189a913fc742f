import Verif.SIMD.OkSse
import Verif.SIMD.OkSse2
import Verif.SIMD.OkSse3
import Verif.SIMD.OkSse4
/- C52 (sse4_1.hh, sse4_1_double.hh, sse4_1_triple.hh, sse4_1_quadruple.hh): the register functions of these headers act on every lane like the portable templates of simd.hh.
Generated by tools/gen_simd.py; the predicates are in Spec.lean, the lane functions in Port.lean. -/
namespace Verif.SIMD

/-- sse4_1.hh, `SIMD<int8_t, 16>` -/
theorem C52_sse_i8 :
    (Lift1 16 (lane 8) sse.vreinterpret_i8_u8 fun x => x) ∧
    LiftDup 16 (lane 8) sse.vdup_i8 ∧
    Lift0 16 (lane 8) sse.vzero_i8 0 ∧
    Lift2 16 (lane 8) sse.vadd_i8 P.vadd ∧
    Lift2 16 (lane 8) sse.vqadd_i8 P.vqadd ∧
    Lift2 16 (lane 8) sse.vsub_i8 P.vsub ∧
    Lift2 16 (lane 8) sse.vqsub_i8 P.vqsub ∧
    Lift1 16 (lane 8) sse.vqabs_i8 P.vqabs ∧
    Lift1 16 (lane 8) sse.vsignum_i8 P.vsignum ∧
    Lift2 16 (lane 8) sse.vsign_i8 P.vsign ∧
    Lift1 16 (lane 8) sse.vceqz_i8 P.vceqz ∧
    Lift2 16 (lane 8) sse.vceq_i8 P.vceq ∧
    Lift1 16 (lane 8) sse.vcgtz_i8 P.vcgtz ∧
    Lift1 16 (lane 8) sse.vcltz_i8 P.vcltz ∧
    Lift1 16 (lane 8) sse.vclez_i8 P.vclez ∧
    Lift2 16 (lane 8) sse.vmin_i8 P.vmin ∧
    Lift2 16 (lane 8) sse.vmax_i8 P.vmax ∧
    LiftS 16 (lane 8) sse.vclamp_i8 P.vclamp ∧
    (LiftShuf 16 (fun j => j < 16 ∨ 128 ≤ j) (lane 8) (lane 8) sse.vshuf_i8) :=
  ⟨sse_ok.vreinterpret_i8_u8, sse_ok.vdup_i8, sse_ok.vzero_i8, sse_ok.vadd_i8, sse_ok.vqadd_i8, sse_ok.vsub_i8, sse_ok.vqsub_i8, sse_ok.vqabs_i8, sse_ok.vsignum_i8, sse_ok.vsign_i8, sse_ok.vceqz_i8, sse_ok.vceq_i8, sse_ok.vcgtz_i8, sse_ok.vcltz_i8, sse_ok.vclez_i8, sse_ok.vmin_i8, sse_ok.vmax_i8, sse_ok.vclamp_i8, sse_ok.vshuf_i8⟩

/-- sse4_1.hh, `SIMD<int16_t, 8>` -/
theorem C52_sse_i16 :
    (Lift1 8 (lane 16) sse.vreinterpret_i16_u16 fun x => x) ∧
    LiftDup 8 (lane 16) sse.vdup_i16 ∧
    Lift0 8 (lane 16) sse.vzero_i16 0 ∧
    Lift2 8 (lane 16) sse.vadd_i16 P.vadd ∧
    Lift2 8 (lane 16) sse.vqadd_i16 P.vqadd ∧
    Lift2 8 (lane 16) sse.vsub_i16 P.vsub ∧
    Lift2 8 (lane 16) sse.vqsub_i16 P.vqsub ∧
    Lift1 8 (lane 16) sse.vqabs_i16 P.vqabs ∧
    Lift1 8 (lane 16) sse.vsignum_i16 P.vsignum ∧
    Lift2 8 (lane 16) sse.vsign_i16 P.vsign ∧
    Lift1 8 (lane 16) sse.vceqz_i16 P.vceqz ∧
    Lift2 8 (lane 16) sse.vceq_i16 P.vceq ∧
    Lift1 8 (lane 16) sse.vcgtz_i16 P.vcgtz ∧
    Lift1 8 (lane 16) sse.vcltz_i16 P.vcltz ∧
    Lift1 8 (lane 16) sse.vclez_i16 P.vclez ∧
    Lift2 8 (lane 16) sse.vmin_i16 P.vmin ∧
    Lift2 8 (lane 16) sse.vmax_i16 P.vmax ∧
    LiftS 8 (lane 16) sse.vclamp_i16 P.vclamp :=
  ⟨sse_ok.vreinterpret_i16_u16, sse_ok.vdup_i16, sse_ok.vzero_i16, sse_ok.vadd_i16, sse_ok.vqadd_i16, sse_ok.vsub_i16, sse_ok.vqsub_i16, sse_ok.vqabs_i16, sse_ok.vsignum_i16, sse_ok.vsign_i16, sse_ok.vceqz_i16, sse_ok.vceq_i16, sse_ok.vcgtz_i16, sse_ok.vcltz_i16, sse_ok.vclez_i16, sse_ok.vmin_i16, sse_ok.vmax_i16, sse_ok.vclamp_i16⟩

/-- sse4_1.hh, `SIMD<int32_t, 4>` -/
theorem C52_sse_i32 :
    (Lift1 4 (lane 32) sse.vreinterpret_i32_u32 fun x => x) ∧
    LiftDup 4 (lane 32) sse.vdup_i32 ∧
    Lift0 4 (lane 32) sse.vzero_i32 0 ∧
    Lift2 4 (lane 32) sse.vadd_i32 P.vadd ∧
    Lift2 4 (lane 32) sse.vsub_i32 P.vsub ∧
    Lift1 4 (lane 32) sse.vqabs_i32 P.vqabs ∧
    Lift1 4 (lane 32) sse.vsignum_i32 P.vsignum ∧
    Lift2 4 (lane 32) sse.vsign_i32 P.vsign ∧
    Lift1 4 (lane 32) sse.vceqz_i32 P.vceqz ∧
    Lift2 4 (lane 32) sse.vceq_i32 P.vceq ∧
    Lift1 4 (lane 32) sse.vcgtz_i32 P.vcgtz ∧
    Lift1 4 (lane 32) sse.vcltz_i32 P.vcltz ∧
    Lift1 4 (lane 32) sse.vclez_i32 P.vclez ∧
    Lift2 4 (lane 32) sse.vmin_i32 P.vmin ∧
    Lift2 4 (lane 32) sse.vmax_i32 P.vmax ∧
    LiftS 4 (lane 32) sse.vclamp_i32 P.vclamp :=
  ⟨sse_ok.vreinterpret_i32_u32, sse_ok.vdup_i32, sse_ok.vzero_i32, sse_ok.vadd_i32, sse_ok.vsub_i32, sse_ok.vqabs_i32, sse_ok.vsignum_i32, sse_ok.vsign_i32, sse_ok.vceqz_i32, sse_ok.vceq_i32, sse_ok.vcgtz_i32, sse_ok.vcltz_i32, sse_ok.vclez_i32, sse_ok.vmin_i32, sse_ok.vmax_i32, sse_ok.vclamp_i32⟩

/-- sse4_1.hh, `SIMD<int64_t, 2>` -/
theorem C52_sse_i64 :
    (Lift1 2 (lane 64) sse.vreinterpret_i64_u64 fun x => x) ∧
    LiftDup 2 (lane 64) sse.vdup_i64 ∧
    Lift0 2 (lane 64) sse.vzero_i64 0 ∧
    Lift2 2 (lane 64) sse.vadd_i64 P.vadd ∧
    Lift2 2 (lane 64) sse.vsub_i64 P.vsub ∧
    Lift1 2 (lane 64) sse.vceqz_i64 P.vceqz ∧
    Lift2 2 (lane 64) sse.vceq_i64 P.vceq ∧
    Lift1 2 (lane 64) sse.vcgtz_i64 P.vcgtz ∧
    Lift1 2 (lane 64) sse.vcltz_i64 P.vcltz ∧
    Lift1 2 (lane 64) sse.vclez_i64 P.vclez :=
  ⟨sse_ok.vreinterpret_i64_u64, sse_ok.vdup_i64, sse_ok.vzero_i64, sse_ok.vadd_i64, sse_ok.vsub_i64, sse_ok.vceqz_i64, sse_ok.vceq_i64, sse_ok.vcgtz_i64, sse_ok.vcltz_i64, sse_ok.vclez_i64⟩

/-- sse4_1.hh, `SIMD<uint8_t, 16>` -/
theorem C52_sse_u8 :
    (Lift1 16 (lane 8) sse.vreinterpret_u8_i8 fun x => x) ∧
    Lift2 16 (lane 8) sse.vqsub_u8 P.vqsubU ∧
    Lift2 16 (lane 8) sse.vorr_u8 P.vorr ∧
    Lift2 16 (lane 8) sse.vand_u8 P.vand ∧
    Lift2 16 (lane 8) sse.veor_u8 P.veor ∧
    Lift2 16 (lane 8) sse.vbic_u8 P.vbic ∧
    Lift3 16 (lane 8) sse.vbsl_u8 P.vbsl ∧
    (LiftShuf 16 (fun j => j < 16 ∨ 128 ≤ j) (lane 8) (lane 8) sse.vshuf_u8) :=
  ⟨sse_ok.vreinterpret_u8_i8, sse_ok.vqsub_u8, sse_ok.vorr_u8, sse_ok.vand_u8, sse_ok.veor_u8, sse_ok.vbic_u8, sse_ok.vbsl_u8, sse_ok.vshuf_u8⟩

/-- sse4_1.hh, `SIMD<uint16_t, 8>` -/
theorem C52_sse_u16 :
    (Lift1 8 (lane 16) sse.vreinterpret_u16_i16 fun x => x) ∧
    Lift2 8 (lane 16) sse.vqsub_u16 P.vqsubU ∧
    Lift2 8 (lane 16) sse.vorr_u16 P.vorr ∧
    Lift2 8 (lane 16) sse.vand_u16 P.vand ∧
    Lift2 8 (lane 16) sse.veor_u16 P.veor ∧
    Lift2 8 (lane 16) sse.vbic_u16 P.vbic ∧
    Lift3 8 (lane 16) sse.vbsl_u16 P.vbsl :=
  ⟨sse_ok.vreinterpret_u16_i16, sse_ok.vqsub_u16, sse_ok.vorr_u16, sse_ok.vand_u16, sse_ok.veor_u16, sse_ok.vbic_u16, sse_ok.vbsl_u16⟩

/-- sse4_1.hh, `SIMD<uint32_t, 4>` -/
theorem C52_sse_u32 :
    (Lift1 4 (lane 32) sse.vreinterpret_u32_f32 fun x => x) ∧
    (Lift1 4 (lane 32) sse.vreinterpret_u32_i32 fun x => x) ∧
    Lift2 4 (lane 32) sse.vorr_u32 P.vorr ∧
    Lift2 4 (lane 32) sse.vand_u32 P.vand ∧
    Lift2 4 (lane 32) sse.veor_u32 P.veor ∧
    Lift2 4 (lane 32) sse.vbic_u32 P.vbic ∧
    Lift3 4 (lane 32) sse.vbsl_u32 P.vbsl :=
  ⟨sse_ok.vreinterpret_u32_f32, sse_ok.vreinterpret_u32_i32, sse_ok.vorr_u32, sse_ok.vand_u32, sse_ok.veor_u32, sse_ok.vbic_u32, sse_ok.vbsl_u32⟩

/-- sse4_1.hh, `SIMD<uint64_t, 2>` -/
theorem C52_sse_u64 :
    (Lift1 2 (lane 64) sse.vreinterpret_u64_f64 fun x => x) ∧
    (Lift1 2 (lane 64) sse.vreinterpret_u64_i64 fun x => x) ∧
    Lift2 2 (lane 64) sse.vorr_u64 P.vorr ∧
    Lift2 2 (lane 64) sse.vand_u64 P.vand ∧
    Lift2 2 (lane 64) sse.veor_u64 P.veor ∧
    Lift2 2 (lane 64) sse.vbic_u64 P.vbic ∧
    Lift3 2 (lane 64) sse.vbsl_u64 P.vbsl :=
  ⟨sse_ok.vreinterpret_u64_f64, sse_ok.vreinterpret_u64_i64, sse_ok.vorr_u64, sse_ok.vand_u64, sse_ok.veor_u64, sse_ok.vbic_u64, sse_ok.vbsl_u64⟩

/-- sse4_1.hh, `SIMD<float, 4>` -/
theorem C52_sse_f32 :
    (Lift1 4 (lane 32) sse.vreinterpret_f32_u32 fun x => x) ∧
    LiftDup 4 (lane 32) sse.vdup_f32 ∧
    Lift0 4 (lane 32) sse.vzero_f32 0 ∧
    (∀ A32 : Fpu 32, Lift2 4 (lane 32) (sse.vadd_f32 A32) A32.add) ∧
    (∀ A32 : Fpu 32, Lift2 4 (lane 32) (sse.vsub_f32 A32) A32.sub) ∧
    (∀ A32 : Fpu 32, Lift2 4 (lane 32) (sse.vmul_f32 A32) A32.mul) ∧
    Lift1 4 (lane 32) sse.vabs_f32 Fmt.vabs ∧
    LiftSignum f32 4 (lane 32) sse.vsignum_f32 ∧
    LiftSign f32 4 (lane 32) sse.vsign_f32 ∧
    Lift2 4 (lane 32) sse.vcopysign_f32 Fmt.vcopysign ∧
    Lift1 4 (lane 32) sse.vceqz_f32 f32.vceqz ∧
    Lift2 4 (lane 32) sse.vceq_f32 f32.vceq ∧
    Lift1 4 (lane 32) sse.vcgtz_f32 f32.vcgtz ∧
    Lift1 4 (lane 32) sse.vcltz_f32 f32.vcltz ∧
    Lift1 4 (lane 32) sse.vclez_f32 f32.vclez ∧
    LiftNum2 f32 4 (lane 32) sse.vmin_f32 f32.vmin ∧
    LiftNum2 f32 4 (lane 32) sse.vmax_f32 f32.vmax ∧
    LiftClamp f32 4 (lane 32) sse.vclamp_f32 :=
  ⟨sse_ok.vreinterpret_f32_u32, sse_ok.vdup_f32, sse_ok.vzero_f32, sse_ok.vadd_f32, sse_ok.vsub_f32, sse_ok.vmul_f32, sse_ok.vabs_f32, sse_ok.vsignum_f32, sse_ok.vsign_f32, sse_ok.vcopysign_f32, sse_ok.vceqz_f32, sse_ok.vceq_f32, sse_ok.vcgtz_f32, sse_ok.vcltz_f32, sse_ok.vclez_f32, sse_ok.vmin_f32, sse_ok.vmax_f32, sse_ok.vclamp_f32⟩

/-- sse4_1.hh, `SIMD<double, 2>` -/
theorem C52_sse_f64 :
    (Lift1 2 (lane 64) sse.vreinterpret_f64_u64 fun x => x) ∧
    LiftDup 2 (lane 64) sse.vdup_f64 ∧
    Lift0 2 (lane 64) sse.vzero_f64 0 ∧
    (∀ A64 : Fpu 64, Lift2 2 (lane 64) (sse.vadd_f64 A64) A64.add) ∧
    (∀ A64 : Fpu 64, Lift2 2 (lane 64) (sse.vsub_f64 A64) A64.sub) ∧
    (∀ A64 : Fpu 64, Lift2 2 (lane 64) (sse.vmul_f64 A64) A64.mul) ∧
    Lift1 2 (lane 64) sse.vabs_f64 Fmt.vabs ∧
    LiftSignum f64 2 (lane 64) sse.vsignum_f64 ∧
    LiftSign f64 2 (lane 64) sse.vsign_f64 ∧
    Lift2 2 (lane 64) sse.vcopysign_f64 Fmt.vcopysign ∧
    Lift1 2 (lane 64) sse.vceqz_f64 f64.vceqz ∧
    Lift2 2 (lane 64) sse.vceq_f64 f64.vceq ∧
    Lift1 2 (lane 64) sse.vcgtz_f64 f64.vcgtz ∧
    Lift1 2 (lane 64) sse.vcltz_f64 f64.vcltz ∧
    Lift1 2 (lane 64) sse.vclez_f64 f64.vclez ∧
    LiftNum2 f64 2 (lane 64) sse.vmin_f64 f64.vmin ∧
    LiftNum2 f64 2 (lane 64) sse.vmax_f64 f64.vmax ∧
    LiftClamp f64 2 (lane 64) sse.vclamp_f64 :=
  ⟨sse_ok.vreinterpret_f64_u64, sse_ok.vdup_f64, sse_ok.vzero_f64, sse_ok.vadd_f64, sse_ok.vsub_f64, sse_ok.vmul_f64, sse_ok.vabs_f64, sse_ok.vsignum_f64, sse_ok.vsign_f64, sse_ok.vcopysign_f64, sse_ok.vceqz_f64, sse_ok.vceq_f64, sse_ok.vcgtz_f64, sse_ok.vcltz_f64, sse_ok.vclez_f64, sse_ok.vmin_f64, sse_ok.vmax_f64, sse_ok.vclamp_f64⟩

/-- sse4_1_double.hh, `SIMD<int8_t, 32>` -/
theorem C52_sse2_i8 :
    (Lift1 32 (vw 128 8) sse2.vreinterpret_i8_u8 fun x => x) ∧
    LiftDup 32 (vw 128 8) sse2.vdup_i8 ∧
    Lift0 32 (vw 128 8) sse2.vzero_i8 0 ∧
    Lift2 32 (vw 128 8) sse2.vadd_i8 P.vadd ∧
    Lift2 32 (vw 128 8) sse2.vqadd_i8 P.vqadd ∧
    Lift2 32 (vw 128 8) sse2.vsub_i8 P.vsub ∧
    Lift2 32 (vw 128 8) sse2.vqsub_i8 P.vqsub ∧
    Lift1 32 (vw 128 8) sse2.vqabs_i8 P.vqabs ∧
    Lift1 32 (vw 128 8) sse2.vsignum_i8 P.vsignum ∧
    Lift2 32 (vw 128 8) sse2.vsign_i8 P.vsign ∧
    Lift1 32 (vw 128 8) sse2.vceqz_i8 P.vceqz ∧
    Lift2 32 (vw 128 8) sse2.vceq_i8 P.vceq ∧
    Lift1 32 (vw 128 8) sse2.vcgtz_i8 P.vcgtz ∧
    Lift1 32 (vw 128 8) sse2.vcltz_i8 P.vcltz ∧
    Lift1 32 (vw 128 8) sse2.vclez_i8 P.vclez ∧
    Lift2 32 (vw 128 8) sse2.vmin_i8 P.vmin ∧
    Lift2 32 (vw 128 8) sse2.vmax_i8 P.vmax ∧
    LiftS 32 (vw 128 8) sse2.vclamp_i8 P.vclamp ∧
    (LiftShuf 32 (fun j => j < 32 ∨ 144 ≤ j) (vw 128 8) (vw 128 8) sse2.vshuf_i8) :=
  ⟨sse2_ok.vreinterpret_i8_u8, sse2_ok.vdup_i8, sse2_ok.vzero_i8, sse2_ok.vadd_i8, sse2_ok.vqadd_i8, sse2_ok.vsub_i8, sse2_ok.vqsub_i8, sse2_ok.vqabs_i8, sse2_ok.vsignum_i8, sse2_ok.vsign_i8, sse2_ok.vceqz_i8, sse2_ok.vceq_i8, sse2_ok.vcgtz_i8, sse2_ok.vcltz_i8, sse2_ok.vclez_i8, sse2_ok.vmin_i8, sse2_ok.vmax_i8, sse2_ok.vclamp_i8, sse2_ok.vshuf_i8⟩

/-- sse4_1_double.hh, `SIMD<int16_t, 16>` -/
theorem C52_sse2_i16 :
    (Lift1 16 (vw 128 16) sse2.vreinterpret_i16_u16 fun x => x) ∧
    LiftDup 16 (vw 128 16) sse2.vdup_i16 ∧
    Lift0 16 (vw 128 16) sse2.vzero_i16 0 ∧
    Lift2 16 (vw 128 16) sse2.vadd_i16 P.vadd ∧
    Lift2 16 (vw 128 16) sse2.vqadd_i16 P.vqadd ∧
    Lift2 16 (vw 128 16) sse2.vsub_i16 P.vsub ∧
    Lift2 16 (vw 128 16) sse2.vqsub_i16 P.vqsub ∧
    Lift1 16 (vw 128 16) sse2.vqabs_i16 P.vqabs ∧
    Lift1 16 (vw 128 16) sse2.vsignum_i16 P.vsignum ∧
    Lift2 16 (vw 128 16) sse2.vsign_i16 P.vsign ∧
    Lift1 16 (vw 128 16) sse2.vceqz_i16 P.vceqz ∧
    Lift2 16 (vw 128 16) sse2.vceq_i16 P.vceq ∧
    Lift1 16 (vw 128 16) sse2.vcgtz_i16 P.vcgtz ∧
    Lift1 16 (vw 128 16) sse2.vcltz_i16 P.vcltz ∧
    Lift1 16 (vw 128 16) sse2.vclez_i16 P.vclez ∧
    Lift2 16 (vw 128 16) sse2.vmin_i16 P.vmin ∧
    Lift2 16 (vw 128 16) sse2.vmax_i16 P.vmax ∧
    LiftS 16 (vw 128 16) sse2.vclamp_i16 P.vclamp :=
  ⟨sse2_ok.vreinterpret_i16_u16, sse2_ok.vdup_i16, sse2_ok.vzero_i16, sse2_ok.vadd_i16, sse2_ok.vqadd_i16, sse2_ok.vsub_i16, sse2_ok.vqsub_i16, sse2_ok.vqabs_i16, sse2_ok.vsignum_i16, sse2_ok.vsign_i16, sse2_ok.vceqz_i16, sse2_ok.vceq_i16, sse2_ok.vcgtz_i16, sse2_ok.vcltz_i16, sse2_ok.vclez_i16, sse2_ok.vmin_i16, sse2_ok.vmax_i16, sse2_ok.vclamp_i16⟩

/-- sse4_1_double.hh, `SIMD<int32_t, 8>` -/
theorem C52_sse2_i32 :
    (Lift1 8 (vw 128 32) sse2.vreinterpret_i32_u32 fun x => x) ∧
    LiftDup 8 (vw 128 32) sse2.vdup_i32 ∧
    Lift0 8 (vw 128 32) sse2.vzero_i32 0 ∧
    Lift2 8 (vw 128 32) sse2.vadd_i32 P.vadd ∧
    Lift2 8 (vw 128 32) sse2.vsub_i32 P.vsub ∧
    Lift1 8 (vw 128 32) sse2.vqabs_i32 P.vqabs ∧
    Lift1 8 (vw 128 32) sse2.vsignum_i32 P.vsignum ∧
    Lift2 8 (vw 128 32) sse2.vsign_i32 P.vsign ∧
    Lift1 8 (vw 128 32) sse2.vceqz_i32 P.vceqz ∧
    Lift2 8 (vw 128 32) sse2.vceq_i32 P.vceq ∧
    Lift1 8 (vw 128 32) sse2.vcgtz_i32 P.vcgtz ∧
    Lift1 8 (vw 128 32) sse2.vcltz_i32 P.vcltz ∧
    Lift1 8 (vw 128 32) sse2.vclez_i32 P.vclez ∧
    Lift2 8 (vw 128 32) sse2.vmin_i32 P.vmin ∧
    Lift2 8 (vw 128 32) sse2.vmax_i32 P.vmax ∧
    LiftS 8 (vw 128 32) sse2.vclamp_i32 P.vclamp :=
  ⟨sse2_ok.vreinterpret_i32_u32, sse2_ok.vdup_i32, sse2_ok.vzero_i32, sse2_ok.vadd_i32, sse2_ok.vsub_i32, sse2_ok.vqabs_i32, sse2_ok.vsignum_i32, sse2_ok.vsign_i32, sse2_ok.vceqz_i32, sse2_ok.vceq_i32, sse2_ok.vcgtz_i32, sse2_ok.vcltz_i32, sse2_ok.vclez_i32, sse2_ok.vmin_i32, sse2_ok.vmax_i32, sse2_ok.vclamp_i32⟩

/-- sse4_1_double.hh, `SIMD<int64_t, 4>` -/
theorem C52_sse2_i64 :
    (Lift1 4 (vw 128 64) sse2.vreinterpret_i64_u64 fun x => x) ∧
    LiftDup 4 (vw 128 64) sse2.vdup_i64 ∧
    Lift0 4 (vw 128 64) sse2.vzero_i64 0 ∧
    Lift2 4 (vw 128 64) sse2.vadd_i64 P.vadd ∧
    Lift2 4 (vw 128 64) sse2.vsub_i64 P.vsub ∧
    Lift1 4 (vw 128 64) sse2.vceqz_i64 P.vceqz ∧
    Lift2 4 (vw 128 64) sse2.vceq_i64 P.vceq ∧
    Lift1 4 (vw 128 64) sse2.vcgtz_i64 P.vcgtz ∧
    Lift1 4 (vw 128 64) sse2.vcltz_i64 P.vcltz ∧
    Lift1 4 (vw 128 64) sse2.vclez_i64 P.vclez :=
  ⟨sse2_ok.vreinterpret_i64_u64, sse2_ok.vdup_i64, sse2_ok.vzero_i64, sse2_ok.vadd_i64, sse2_ok.vsub_i64, sse2_ok.vceqz_i64, sse2_ok.vceq_i64, sse2_ok.vcgtz_i64, sse2_ok.vcltz_i64, sse2_ok.vclez_i64⟩

/-- sse4_1_double.hh, `SIMD<uint8_t, 32>` -/
theorem C52_sse2_u8 :
    (Lift1 32 (vw 128 8) sse2.vreinterpret_u8_i8 fun x => x) ∧
    Lift2 32 (vw 128 8) sse2.vqsub_u8 P.vqsubU ∧
    Lift2 32 (vw 128 8) sse2.vorr_u8 P.vorr ∧
    Lift2 32 (vw 128 8) sse2.vand_u8 P.vand ∧
    Lift2 32 (vw 128 8) sse2.veor_u8 P.veor ∧
    Lift2 32 (vw 128 8) sse2.vbic_u8 P.vbic ∧
    Lift3 32 (vw 128 8) sse2.vbsl_u8 P.vbsl ∧
    (LiftShuf 32 (fun j => j < 32 ∨ 144 ≤ j) (vw 128 8) (vw 128 8) sse2.vshuf_u8) :=
  ⟨sse2_ok.vreinterpret_u8_i8, sse2_ok.vqsub_u8, sse2_ok.vorr_u8, sse2_ok.vand_u8, sse2_ok.veor_u8, sse2_ok.vbic_u8, sse2_ok.vbsl_u8, sse2_ok.vshuf_u8⟩

/-- sse4_1_double.hh, `SIMD<uint16_t, 16>` -/
theorem C52_sse2_u16 :
    (Lift1 16 (vw 128 16) sse2.vreinterpret_u16_i16 fun x => x) ∧
    Lift2 16 (vw 128 16) sse2.vqsub_u16 P.vqsubU ∧
    Lift2 16 (vw 128 16) sse2.vorr_u16 P.vorr ∧
    Lift2 16 (vw 128 16) sse2.vand_u16 P.vand ∧
    Lift2 16 (vw 128 16) sse2.veor_u16 P.veor ∧
    Lift2 16 (vw 128 16) sse2.vbic_u16 P.vbic ∧
    Lift3 16 (vw 128 16) sse2.vbsl_u16 P.vbsl :=
  ⟨sse2_ok.vreinterpret_u16_i16, sse2_ok.vqsub_u16, sse2_ok.vorr_u16, sse2_ok.vand_u16, sse2_ok.veor_u16, sse2_ok.vbic_u16, sse2_ok.vbsl_u16⟩

/-- sse4_1_double.hh, `SIMD<uint32_t, 8>` -/
theorem C52_sse2_u32 :
    (Lift1 8 (vw 128 32) sse2.vreinterpret_u32_f32 fun x => x) ∧
    (Lift1 8 (vw 128 32) sse2.vreinterpret_u32_i32 fun x => x) ∧
    Lift2 8 (vw 128 32) sse2.vorr_u32 P.vorr ∧
    Lift2 8 (vw 128 32) sse2.vand_u32 P.vand ∧
    Lift2 8 (vw 128 32) sse2.veor_u32 P.veor ∧
    Lift2 8 (vw 128 32) sse2.vbic_u32 P.vbic ∧
    Lift3 8 (vw 128 32) sse2.vbsl_u32 P.vbsl :=
  ⟨sse2_ok.vreinterpret_u32_f32, sse2_ok.vreinterpret_u32_i32, sse2_ok.vorr_u32, sse2_ok.vand_u32, sse2_ok.veor_u32, sse2_ok.vbic_u32, sse2_ok.vbsl_u32⟩

/-- sse4_1_double.hh, `SIMD<uint64_t, 4>` -/
theorem C52_sse2_u64 :
    (Lift1 4 (vw 128 64) sse2.vreinterpret_u64_f64 fun x => x) ∧
    (Lift1 4 (vw 128 64) sse2.vreinterpret_u64_i64 fun x => x) ∧
    Lift2 4 (vw 128 64) sse2.vorr_u64 P.vorr ∧
    Lift2 4 (vw 128 64) sse2.vand_u64 P.vand ∧
    Lift2 4 (vw 128 64) sse2.veor_u64 P.veor ∧
    Lift2 4 (vw 128 64) sse2.vbic_u64 P.vbic ∧
    Lift3 4 (vw 128 64) sse2.vbsl_u64 P.vbsl :=
  ⟨sse2_ok.vreinterpret_u64_f64, sse2_ok.vreinterpret_u64_i64, sse2_ok.vorr_u64, sse2_ok.vand_u64, sse2_ok.veor_u64, sse2_ok.vbic_u64, sse2_ok.vbsl_u64⟩

/-- sse4_1_double.hh, `SIMD<float, 8>` -/
theorem C52_sse2_f32 :
    (Lift1 8 (vw 128 32) sse2.vreinterpret_f32_u32 fun x => x) ∧
    LiftDup 8 (vw 128 32) sse2.vdup_f32 ∧
    Lift0 8 (vw 128 32) sse2.vzero_f32 0 ∧
    (∀ A32 : Fpu 32, Lift2 8 (vw 128 32) (sse2.vadd_f32 A32) A32.add) ∧
    (∀ A32 : Fpu 32, Lift2 8 (vw 128 32) (sse2.vsub_f32 A32) A32.sub) ∧
    (∀ A32 : Fpu 32, Lift2 8 (vw 128 32) (sse2.vmul_f32 A32) A32.mul) ∧
    Lift1 8 (vw 128 32) sse2.vabs_f32 Fmt.vabs ∧
    LiftSignum f32 8 (vw 128 32) sse2.vsignum_f32 ∧
    LiftSign f32 8 (vw 128 32) sse2.vsign_f32 ∧
    Lift2 8 (vw 128 32) sse2.vcopysign_f32 Fmt.vcopysign ∧
    Lift1 8 (vw 128 32) sse2.vceqz_f32 f32.vceqz ∧
    Lift2 8 (vw 128 32) sse2.vceq_f32 f32.vceq ∧
    Lift1 8 (vw 128 32) sse2.vcgtz_f32 f32.vcgtz ∧
    Lift1 8 (vw 128 32) sse2.vcltz_f32 f32.vcltz ∧
    Lift1 8 (vw 128 32) sse2.vclez_f32 f32.vclez ∧
    LiftNum2 f32 8 (vw 128 32) sse2.vmin_f32 f32.vmin ∧
    LiftNum2 f32 8 (vw 128 32) sse2.vmax_f32 f32.vmax ∧
    LiftClamp f32 8 (vw 128 32) sse2.vclamp_f32 :=
  ⟨sse2_ok.vreinterpret_f32_u32, sse2_ok.vdup_f32, sse2_ok.vzero_f32, sse2_ok.vadd_f32, sse2_ok.vsub_f32, sse2_ok.vmul_f32, sse2_ok.vabs_f32, sse2_ok.vsignum_f32, sse2_ok.vsign_f32, sse2_ok.vcopysign_f32, sse2_ok.vceqz_f32, sse2_ok.vceq_f32, sse2_ok.vcgtz_f32, sse2_ok.vcltz_f32, sse2_ok.vclez_f32, sse2_ok.vmin_f32, sse2_ok.vmax_f32, sse2_ok.vclamp_f32⟩

/-- sse4_1_double.hh, `SIMD<double, 4>` -/
theorem C52_sse2_f64 :
    (Lift1 4 (vw 128 64) sse2.vreinterpret_f64_u64 fun x => x) ∧
    LiftDup 4 (vw 128 64) sse2.vdup_f64 ∧
    Lift0 4 (vw 128 64) sse2.vzero_f64 0 ∧
    (∀ A64 : Fpu 64, Lift2 4 (vw 128 64) (sse2.vadd_f64 A64) A64.add) ∧
    (∀ A64 : Fpu 64, Lift2 4 (vw 128 64) (sse2.vsub_f64 A64) A64.sub) ∧
    (∀ A64 : Fpu 64, Lift2 4 (vw 128 64) (sse2.vmul_f64 A64) A64.mul) ∧
    Lift1 4 (vw 128 64) sse2.vabs_f64 Fmt.vabs ∧
    LiftSignum f64 4 (vw 128 64) sse2.vsignum_f64 ∧
    LiftSign f64 4 (vw 128 64) sse2.vsign_f64 ∧
    Lift2 4 (vw 128 64) sse2.vcopysign_f64 Fmt.vcopysign ∧
    Lift1 4 (vw 128 64) sse2.vceqz_f64 f64.vceqz ∧
    Lift2 4 (vw 128 64) sse2.vceq_f64 f64.vceq ∧
    Lift1 4 (vw 128 64) sse2.vcgtz_f64 f64.vcgtz ∧
    Lift1 4 (vw 128 64) sse2.vcltz_f64 f64.vcltz ∧
    Lift1 4 (vw 128 64) sse2.vclez_f64 f64.vclez ∧
    LiftNum2 f64 4 (vw 128 64) sse2.vmin_f64 f64.vmin ∧
    LiftNum2 f64 4 (vw 128 64) sse2.vmax_f64 f64.vmax ∧
    LiftClamp f64 4 (vw 128 64) sse2.vclamp_f64 :=
  ⟨sse2_ok.vreinterpret_f64_u64, sse2_ok.vdup_f64, sse2_ok.vzero_f64, sse2_ok.vadd_f64, sse2_ok.vsub_f64, sse2_ok.vmul_f64, sse2_ok.vabs_f64, sse2_ok.vsignum_f64, sse2_ok.vsign_f64, sse2_ok.vcopysign_f64, sse2_ok.vceqz_f64, sse2_ok.vceq_f64, sse2_ok.vcgtz_f64, sse2_ok.vcltz_f64, sse2_ok.vclez_f64, sse2_ok.vmin_f64, sse2_ok.vmax_f64, sse2_ok.vclamp_f64⟩

/-- sse4_1_triple.hh, `SIMD<int8_t, 48>` -/
theorem C52_sse3_i8 :
    (Lift1 48 (vw 128 8) sse3.vreinterpret_i8_u8 fun x => x) ∧
    LiftDup 48 (vw 128 8) sse3.vdup_i8 ∧
    Lift0 48 (vw 128 8) sse3.vzero_i8 0 ∧
    Lift2 48 (vw 128 8) sse3.vadd_i8 P.vadd ∧
    Lift2 48 (vw 128 8) sse3.vqadd_i8 P.vqadd ∧
    Lift2 48 (vw 128 8) sse3.vsub_i8 P.vsub ∧
    Lift2 48 (vw 128 8) sse3.vqsub_i8 P.vqsub ∧
    Lift1 48 (vw 128 8) sse3.vqabs_i8 P.vqabs ∧
    Lift1 48 (vw 128 8) sse3.vsignum_i8 P.vsignum ∧
    Lift2 48 (vw 128 8) sse3.vsign_i8 P.vsign ∧
    Lift1 48 (vw 128 8) sse3.vceqz_i8 P.vceqz ∧
    Lift2 48 (vw 128 8) sse3.vceq_i8 P.vceq ∧
    Lift1 48 (vw 128 8) sse3.vcgtz_i8 P.vcgtz ∧
    Lift1 48 (vw 128 8) sse3.vcltz_i8 P.vcltz ∧
    Lift1 48 (vw 128 8) sse3.vclez_i8 P.vclez ∧
    Lift2 48 (vw 128 8) sse3.vmin_i8 P.vmin ∧
    Lift2 48 (vw 128 8) sse3.vmax_i8 P.vmax ∧
    LiftS 48 (vw 128 8) sse3.vclamp_i8 P.vclamp ∧
    (LiftShuf 48 (fun j => j < 48 ∨ 160 ≤ j) (vw 128 8) (vw 128 8) sse3.vshuf_i8) :=
  ⟨sse3_ok.vreinterpret_i8_u8, sse3_ok.vdup_i8, sse3_ok.vzero_i8, sse3_ok.vadd_i8, sse3_ok.vqadd_i8, sse3_ok.vsub_i8, sse3_ok.vqsub_i8, sse3_ok.vqabs_i8, sse3_ok.vsignum_i8, sse3_ok.vsign_i8, sse3_ok.vceqz_i8, sse3_ok.vceq_i8, sse3_ok.vcgtz_i8, sse3_ok.vcltz_i8, sse3_ok.vclez_i8, sse3_ok.vmin_i8, sse3_ok.vmax_i8, sse3_ok.vclamp_i8, sse3_ok.vshuf_i8⟩

/-- sse4_1_triple.hh, `SIMD<int16_t, 24>` -/
theorem C52_sse3_i16 :
    (Lift1 24 (vw 128 16) sse3.vreinterpret_i16_u16 fun x => x) ∧
    LiftDup 24 (vw 128 16) sse3.vdup_i16 ∧
    Lift0 24 (vw 128 16) sse3.vzero_i16 0 ∧
    Lift2 24 (vw 128 16) sse3.vadd_i16 P.vadd ∧
    Lift2 24 (vw 128 16) sse3.vqadd_i16 P.vqadd ∧
    Lift2 24 (vw 128 16) sse3.vsub_i16 P.vsub ∧
    Lift2 24 (vw 128 16) sse3.vqsub_i16 P.vqsub ∧
    Lift1 24 (vw 128 16) sse3.vqabs_i16 P.vqabs ∧
    Lift1 24 (vw 128 16) sse3.vsignum_i16 P.vsignum ∧
    Lift2 24 (vw 128 16) sse3.vsign_i16 P.vsign ∧
    Lift1 24 (vw 128 16) sse3.vceqz_i16 P.vceqz ∧
    Lift2 24 (vw 128 16) sse3.vceq_i16 P.vceq ∧
    Lift1 24 (vw 128 16) sse3.vcgtz_i16 P.vcgtz ∧
    Lift1 24 (vw 128 16) sse3.vcltz_i16 P.vcltz ∧
    Lift1 24 (vw 128 16) sse3.vclez_i16 P.vclez ∧
    Lift2 24 (vw 128 16) sse3.vmin_i16 P.vmin ∧
    Lift2 24 (vw 128 16) sse3.vmax_i16 P.vmax ∧
    LiftS 24 (vw 128 16) sse3.vclamp_i16 P.vclamp :=
  ⟨sse3_ok.vreinterpret_i16_u16, sse3_ok.vdup_i16, sse3_ok.vzero_i16, sse3_ok.vadd_i16, sse3_ok.vqadd_i16, sse3_ok.vsub_i16, sse3_ok.vqsub_i16, sse3_ok.vqabs_i16, sse3_ok.vsignum_i16, sse3_ok.vsign_i16, sse3_ok.vceqz_i16, sse3_ok.vceq_i16, sse3_ok.vcgtz_i16, sse3_ok.vcltz_i16, sse3_ok.vclez_i16, sse3_ok.vmin_i16, sse3_ok.vmax_i16, sse3_ok.vclamp_i16⟩

/-- sse4_1_triple.hh, `SIMD<int32_t, 12>` -/
theorem C52_sse3_i32 :
    (Lift1 12 (vw 128 32) sse3.vreinterpret_i32_u32 fun x => x) ∧
    LiftDup 12 (vw 128 32) sse3.vdup_i32 ∧
    Lift0 12 (vw 128 32) sse3.vzero_i32 0 ∧
    Lift2 12 (vw 128 32) sse3.vadd_i32 P.vadd ∧
    Lift2 12 (vw 128 32) sse3.vsub_i32 P.vsub ∧
    Lift1 12 (vw 128 32) sse3.vqabs_i32 P.vqabs ∧
    Lift1 12 (vw 128 32) sse3.vsignum_i32 P.vsignum ∧
    Lift2 12 (vw 128 32) sse3.vsign_i32 P.vsign ∧
    Lift1 12 (vw 128 32) sse3.vceqz_i32 P.vceqz ∧
    Lift2 12 (vw 128 32) sse3.vceq_i32 P.vceq ∧
    Lift1 12 (vw 128 32) sse3.vcgtz_i32 P.vcgtz ∧
    Lift1 12 (vw 128 32) sse3.vcltz_i32 P.vcltz ∧
    Lift1 12 (vw 128 32) sse3.vclez_i32 P.vclez ∧
    Lift2 12 (vw 128 32) sse3.vmin_i32 P.vmin ∧
    Lift2 12 (vw 128 32) sse3.vmax_i32 P.vmax ∧
    LiftS 12 (vw 128 32) sse3.vclamp_i32 P.vclamp :=
  ⟨sse3_ok.vreinterpret_i32_u32, sse3_ok.vdup_i32, sse3_ok.vzero_i32, sse3_ok.vadd_i32, sse3_ok.vsub_i32, sse3_ok.vqabs_i32, sse3_ok.vsignum_i32, sse3_ok.vsign_i32, sse3_ok.vceqz_i32, sse3_ok.vceq_i32, sse3_ok.vcgtz_i32, sse3_ok.vcltz_i32, sse3_ok.vclez_i32, sse3_ok.vmin_i32, sse3_ok.vmax_i32, sse3_ok.vclamp_i32⟩

/-- sse4_1_triple.hh, `SIMD<int64_t, 6>` -/
theorem C52_sse3_i64 :
    (Lift1 6 (vw 128 64) sse3.vreinterpret_i64_u64 fun x => x) ∧
    LiftDup 6 (vw 128 64) sse3.vdup_i64 ∧
    Lift0 6 (vw 128 64) sse3.vzero_i64 0 ∧
    Lift2 6 (vw 128 64) sse3.vadd_i64 P.vadd ∧
    Lift2 6 (vw 128 64) sse3.vsub_i64 P.vsub ∧
    Lift1 6 (vw 128 64) sse3.vceqz_i64 P.vceqz ∧
    Lift2 6 (vw 128 64) sse3.vceq_i64 P.vceq ∧
    Lift1 6 (vw 128 64) sse3.vcgtz_i64 P.vcgtz ∧
    Lift1 6 (vw 128 64) sse3.vcltz_i64 P.vcltz ∧
    Lift1 6 (vw 128 64) sse3.vclez_i64 P.vclez :=
  ⟨sse3_ok.vreinterpret_i64_u64, sse3_ok.vdup_i64, sse3_ok.vzero_i64, sse3_ok.vadd_i64, sse3_ok.vsub_i64, sse3_ok.vceqz_i64, sse3_ok.vceq_i64, sse3_ok.vcgtz_i64, sse3_ok.vcltz_i64, sse3_ok.vclez_i64⟩

/-- sse4_1_triple.hh, `SIMD<uint8_t, 48>` -/
theorem C52_sse3_u8 :
    (Lift1 48 (vw 128 8) sse3.vreinterpret_u8_i8 fun x => x) ∧
    Lift2 48 (vw 128 8) sse3.vqsub_u8 P.vqsubU ∧
    Lift2 48 (vw 128 8) sse3.vorr_u8 P.vorr ∧
    Lift2 48 (vw 128 8) sse3.vand_u8 P.vand ∧
    Lift2 48 (vw 128 8) sse3.veor_u8 P.veor ∧
    Lift2 48 (vw 128 8) sse3.vbic_u8 P.vbic ∧
    Lift3 48 (vw 128 8) sse3.vbsl_u8 P.vbsl ∧
    (LiftShuf 48 (fun j => j < 48 ∨ 160 ≤ j) (vw 128 8) (vw 128 8) sse3.vshuf_u8) :=
  ⟨sse3_ok.vreinterpret_u8_i8, sse3_ok.vqsub_u8, sse3_ok.vorr_u8, sse3_ok.vand_u8, sse3_ok.veor_u8, sse3_ok.vbic_u8, sse3_ok.vbsl_u8, sse3_ok.vshuf_u8⟩

/-- sse4_1_triple.hh, `SIMD<uint16_t, 24>` -/
theorem C52_sse3_u16 :
    (Lift1 24 (vw 128 16) sse3.vreinterpret_u16_i16 fun x => x) ∧
    Lift2 24 (vw 128 16) sse3.vqsub_u16 P.vqsubU ∧
    Lift2 24 (vw 128 16) sse3.vorr_u16 P.vorr ∧
    Lift2 24 (vw 128 16) sse3.vand_u16 P.vand ∧
    Lift2 24 (vw 128 16) sse3.veor_u16 P.veor ∧
    Lift2 24 (vw 128 16) sse3.vbic_u16 P.vbic ∧
    Lift3 24 (vw 128 16) sse3.vbsl_u16 P.vbsl :=
  ⟨sse3_ok.vreinterpret_u16_i16, sse3_ok.vqsub_u16, sse3_ok.vorr_u16, sse3_ok.vand_u16, sse3_ok.veor_u16, sse3_ok.vbic_u16, sse3_ok.vbsl_u16⟩

/-- sse4_1_triple.hh, `SIMD<uint32_t, 12>` -/
theorem C52_sse3_u32 :
    (Lift1 12 (vw 128 32) sse3.vreinterpret_u32_f32 fun x => x) ∧
    (Lift1 12 (vw 128 32) sse3.vreinterpret_u32_i32 fun x => x) ∧
    Lift2 12 (vw 128 32) sse3.vorr_u32 P.vorr ∧
    Lift2 12 (vw 128 32) sse3.vand_u32 P.vand ∧
    Lift2 12 (vw 128 32) sse3.veor_u32 P.veor ∧
    Lift2 12 (vw 128 32) sse3.vbic_u32 P.vbic ∧
    Lift3 12 (vw 128 32) sse3.vbsl_u32 P.vbsl :=
  ⟨sse3_ok.vreinterpret_u32_f32, sse3_ok.vreinterpret_u32_i32, sse3_ok.vorr_u32, sse3_ok.vand_u32, sse3_ok.veor_u32, sse3_ok.vbic_u32, sse3_ok.vbsl_u32⟩

/-- sse4_1_triple.hh, `SIMD<uint64_t, 6>` -/
theorem C52_sse3_u64 :
    (Lift1 6 (vw 128 64) sse3.vreinterpret_u64_f64 fun x => x) ∧
    (Lift1 6 (vw 128 64) sse3.vreinterpret_u64_i64 fun x => x) ∧
    Lift2 6 (vw 128 64) sse3.vorr_u64 P.vorr ∧
    Lift2 6 (vw 128 64) sse3.vand_u64 P.vand ∧
    Lift2 6 (vw 128 64) sse3.veor_u64 P.veor ∧
    Lift2 6 (vw 128 64) sse3.vbic_u64 P.vbic ∧
    Lift3 6 (vw 128 64) sse3.vbsl_u64 P.vbsl :=
  ⟨sse3_ok.vreinterpret_u64_f64, sse3_ok.vreinterpret_u64_i64, sse3_ok.vorr_u64, sse3_ok.vand_u64, sse3_ok.veor_u64, sse3_ok.vbic_u64, sse3_ok.vbsl_u64⟩

/-- sse4_1_triple.hh, `SIMD<float, 12>` -/
theorem C52_sse3_f32 :
    (Lift1 12 (vw 128 32) sse3.vreinterpret_f32_u32 fun x => x) ∧
    LiftDup 12 (vw 128 32) sse3.vdup_f32 ∧
    Lift0 12 (vw 128 32) sse3.vzero_f32 0 ∧
    (∀ A32 : Fpu 32, Lift2 12 (vw 128 32) (sse3.vadd_f32 A32) A32.add) ∧
    (∀ A32 : Fpu 32, Lift2 12 (vw 128 32) (sse3.vsub_f32 A32) A32.sub) ∧
    (∀ A32 : Fpu 32, Lift2 12 (vw 128 32) (sse3.vmul_f32 A32) A32.mul) ∧
    Lift1 12 (vw 128 32) sse3.vabs_f32 Fmt.vabs ∧
    LiftSignum f32 12 (vw 128 32) sse3.vsignum_f32 ∧
    LiftSign f32 12 (vw 128 32) sse3.vsign_f32 ∧
    Lift2 12 (vw 128 32) sse3.vcopysign_f32 Fmt.vcopysign ∧
    Lift1 12 (vw 128 32) sse3.vceqz_f32 f32.vceqz ∧
    Lift2 12 (vw 128 32) sse3.vceq_f32 f32.vceq ∧
    Lift1 12 (vw 128 32) sse3.vcgtz_f32 f32.vcgtz ∧
    Lift1 12 (vw 128 32) sse3.vcltz_f32 f32.vcltz ∧
    Lift1 12 (vw 128 32) sse3.vclez_f32 f32.vclez ∧
    LiftNum2 f32 12 (vw 128 32) sse3.vmin_f32 f32.vmin ∧
    LiftNum2 f32 12 (vw 128 32) sse3.vmax_f32 f32.vmax ∧
    LiftClamp f32 12 (vw 128 32) sse3.vclamp_f32 :=
  ⟨sse3_ok.vreinterpret_f32_u32, sse3_ok.vdup_f32, sse3_ok.vzero_f32, sse3_ok.vadd_f32, sse3_ok.vsub_f32, sse3_ok.vmul_f32, sse3_ok.vabs_f32, sse3_ok.vsignum_f32, sse3_ok.vsign_f32, sse3_ok.vcopysign_f32, sse3_ok.vceqz_f32, sse3_ok.vceq_f32, sse3_ok.vcgtz_f32, sse3_ok.vcltz_f32, sse3_ok.vclez_f32, sse3_ok.vmin_f32, sse3_ok.vmax_f32, sse3_ok.vclamp_f32⟩

/-- sse4_1_triple.hh, `SIMD<double, 6>` -/
theorem C52_sse3_f64 :
    (Lift1 6 (vw 128 64) sse3.vreinterpret_f64_u64 fun x => x) ∧
    LiftDup 6 (vw 128 64) sse3.vdup_f64 ∧
    Lift0 6 (vw 128 64) sse3.vzero_f64 0 ∧
    (∀ A64 : Fpu 64, Lift2 6 (vw 128 64) (sse3.vadd_f64 A64) A64.add) ∧
    (∀ A64 : Fpu 64, Lift2 6 (vw 128 64) (sse3.vsub_f64 A64) A64.sub) ∧
    (∀ A64 : Fpu 64, Lift2 6 (vw 128 64) (sse3.vmul_f64 A64) A64.mul) ∧
    Lift1 6 (vw 128 64) sse3.vabs_f64 Fmt.vabs ∧
    LiftSignum f64 6 (vw 128 64) sse3.vsignum_f64 ∧
    LiftSign f64 6 (vw 128 64) sse3.vsign_f64 ∧
    Lift2 6 (vw 128 64) sse3.vcopysign_f64 Fmt.vcopysign ∧
    Lift1 6 (vw 128 64) sse3.vceqz_f64 f64.vceqz ∧
    Lift2 6 (vw 128 64) sse3.vceq_f64 f64.vceq ∧
    Lift1 6 (vw 128 64) sse3.vcgtz_f64 f64.vcgtz ∧
    Lift1 6 (vw 128 64) sse3.vcltz_f64 f64.vcltz ∧
    Lift1 6 (vw 128 64) sse3.vclez_f64 f64.vclez ∧
    LiftNum2 f64 6 (vw 128 64) sse3.vmin_f64 f64.vmin ∧
    LiftNum2 f64 6 (vw 128 64) sse3.vmax_f64 f64.vmax ∧
    LiftClamp f64 6 (vw 128 64) sse3.vclamp_f64 :=
  ⟨sse3_ok.vreinterpret_f64_u64, sse3_ok.vdup_f64, sse3_ok.vzero_f64, sse3_ok.vadd_f64, sse3_ok.vsub_f64, sse3_ok.vmul_f64, sse3_ok.vabs_f64, sse3_ok.vsignum_f64, sse3_ok.vsign_f64, sse3_ok.vcopysign_f64, sse3_ok.vceqz_f64, sse3_ok.vceq_f64, sse3_ok.vcgtz_f64, sse3_ok.vcltz_f64, sse3_ok.vclez_f64, sse3_ok.vmin_f64, sse3_ok.vmax_f64, sse3_ok.vclamp_f64⟩

/-- sse4_1_quadruple.hh, `SIMD<int8_t, 64>` -/
theorem C52_sse4_i8 :
    (Lift1 64 (vw 128 8) sse4.vreinterpret_i8_u8 fun x => x) ∧
    LiftDup 64 (vw 128 8) sse4.vdup_i8 ∧
    Lift0 64 (vw 128 8) sse4.vzero_i8 0 ∧
    Lift2 64 (vw 128 8) sse4.vadd_i8 P.vadd ∧
    Lift2 64 (vw 128 8) sse4.vqadd_i8 P.vqadd ∧
    Lift2 64 (vw 128 8) sse4.vsub_i8 P.vsub ∧
    Lift2 64 (vw 128 8) sse4.vqsub_i8 P.vqsub ∧
    Lift1 64 (vw 128 8) sse4.vqabs_i8 P.vqabs ∧
    Lift1 64 (vw 128 8) sse4.vsignum_i8 P.vsignum ∧
    Lift2 64 (vw 128 8) sse4.vsign_i8 P.vsign ∧
    Lift1 64 (vw 128 8) sse4.vceqz_i8 P.vceqz ∧
    Lift2 64 (vw 128 8) sse4.vceq_i8 P.vceq ∧
    Lift1 64 (vw 128 8) sse4.vcgtz_i8 P.vcgtz ∧
    Lift1 64 (vw 128 8) sse4.vcltz_i8 P.vcltz ∧
    Lift1 64 (vw 128 8) sse4.vclez_i8 P.vclez ∧
    Lift2 64 (vw 128 8) sse4.vmin_i8 P.vmin ∧
    Lift2 64 (vw 128 8) sse4.vmax_i8 P.vmax ∧
    LiftS 64 (vw 128 8) sse4.vclamp_i8 P.vclamp ∧
    (LiftShuf 64 (fun j => j < 64 ∨ 176 ≤ j) (vw 128 8) (vw 128 8) sse4.vshuf_i8) :=
  ⟨sse4_ok.vreinterpret_i8_u8, sse4_ok.vdup_i8, sse4_ok.vzero_i8, sse4_ok.vadd_i8, sse4_ok.vqadd_i8, sse4_ok.vsub_i8, sse4_ok.vqsub_i8, sse4_ok.vqabs_i8, sse4_ok.vsignum_i8, sse4_ok.vsign_i8, sse4_ok.vceqz_i8, sse4_ok.vceq_i8, sse4_ok.vcgtz_i8, sse4_ok.vcltz_i8, sse4_ok.vclez_i8, sse4_ok.vmin_i8, sse4_ok.vmax_i8, sse4_ok.vclamp_i8, sse4_ok.vshuf_i8⟩

/-- sse4_1_quadruple.hh, `SIMD<int16_t, 32>` -/
theorem C52_sse4_i16 :
    (Lift1 32 (vw 128 16) sse4.vreinterpret_i16_u16 fun x => x) ∧
    LiftDup 32 (vw 128 16) sse4.vdup_i16 ∧
    Lift0 32 (vw 128 16) sse4.vzero_i16 0 ∧
    Lift2 32 (vw 128 16) sse4.vadd_i16 P.vadd ∧
    Lift2 32 (vw 128 16) sse4.vqadd_i16 P.vqadd ∧
    Lift2 32 (vw 128 16) sse4.vsub_i16 P.vsub ∧
    Lift2 32 (vw 128 16) sse4.vqsub_i16 P.vqsub ∧
    Lift1 32 (vw 128 16) sse4.vqabs_i16 P.vqabs ∧
    Lift1 32 (vw 128 16) sse4.vsignum_i16 P.vsignum ∧
    Lift2 32 (vw 128 16) sse4.vsign_i16 P.vsign ∧
    Lift1 32 (vw 128 16) sse4.vceqz_i16 P.vceqz ∧
    Lift2 32 (vw 128 16) sse4.vceq_i16 P.vceq ∧
    Lift1 32 (vw 128 16) sse4.vcgtz_i16 P.vcgtz ∧
    Lift1 32 (vw 128 16) sse4.vcltz_i16 P.vcltz ∧
    Lift1 32 (vw 128 16) sse4.vclez_i16 P.vclez ∧
    Lift2 32 (vw 128 16) sse4.vmin_i16 P.vmin ∧
    Lift2 32 (vw 128 16) sse4.vmax_i16 P.vmax ∧
    LiftS 32 (vw 128 16) sse4.vclamp_i16 P.vclamp :=
  ⟨sse4_ok.vreinterpret_i16_u16, sse4_ok.vdup_i16, sse4_ok.vzero_i16, sse4_ok.vadd_i16, sse4_ok.vqadd_i16, sse4_ok.vsub_i16, sse4_ok.vqsub_i16, sse4_ok.vqabs_i16, sse4_ok.vsignum_i16, sse4_ok.vsign_i16, sse4_ok.vceqz_i16, sse4_ok.vceq_i16, sse4_ok.vcgtz_i16, sse4_ok.vcltz_i16, sse4_ok.vclez_i16, sse4_ok.vmin_i16, sse4_ok.vmax_i16, sse4_ok.vclamp_i16⟩

/-- sse4_1_quadruple.hh, `SIMD<int32_t, 16>` -/
theorem C52_sse4_i32 :
    (Lift1 16 (vw 128 32) sse4.vreinterpret_i32_u32 fun x => x) ∧
    LiftDup 16 (vw 128 32) sse4.vdup_i32 ∧
    Lift0 16 (vw 128 32) sse4.vzero_i32 0 ∧
    Lift2 16 (vw 128 32) sse4.vadd_i32 P.vadd ∧
    Lift2 16 (vw 128 32) sse4.vsub_i32 P.vsub ∧
    Lift1 16 (vw 128 32) sse4.vqabs_i32 P.vqabs ∧
    Lift1 16 (vw 128 32) sse4.vsignum_i32 P.vsignum ∧
    Lift2 16 (vw 128 32) sse4.vsign_i32 P.vsign ∧
    Lift1 16 (vw 128 32) sse4.vceqz_i32 P.vceqz ∧
    Lift2 16 (vw 128 32) sse4.vceq_i32 P.vceq ∧
    Lift1 16 (vw 128 32) sse4.vcgtz_i32 P.vcgtz ∧
    Lift1 16 (vw 128 32) sse4.vcltz_i32 P.vcltz ∧
    Lift1 16 (vw 128 32) sse4.vclez_i32 P.vclez ∧
    Lift2 16 (vw 128 32) sse4.vmin_i32 P.vmin ∧
    Lift2 16 (vw 128 32) sse4.vmax_i32 P.vmax ∧
    LiftS 16 (vw 128 32) sse4.vclamp_i32 P.vclamp :=
  ⟨sse4_ok.vreinterpret_i32_u32, sse4_ok.vdup_i32, sse4_ok.vzero_i32, sse4_ok.vadd_i32, sse4_ok.vsub_i32, sse4_ok.vqabs_i32, sse4_ok.vsignum_i32, sse4_ok.vsign_i32, sse4_ok.vceqz_i32, sse4_ok.vceq_i32, sse4_ok.vcgtz_i32, sse4_ok.vcltz_i32, sse4_ok.vclez_i32, sse4_ok.vmin_i32, sse4_ok.vmax_i32, sse4_ok.vclamp_i32⟩

/-- sse4_1_quadruple.hh, `SIMD<int64_t, 8>` -/
theorem C52_sse4_i64 :
    (Lift1 8 (vw 128 64) sse4.vreinterpret_i64_u64 fun x => x) ∧
    LiftDup 8 (vw 128 64) sse4.vdup_i64 ∧
    Lift0 8 (vw 128 64) sse4.vzero_i64 0 ∧
    Lift2 8 (vw 128 64) sse4.vadd_i64 P.vadd ∧
    Lift2 8 (vw 128 64) sse4.vsub_i64 P.vsub ∧
    Lift1 8 (vw 128 64) sse4.vceqz_i64 P.vceqz ∧
    Lift2 8 (vw 128 64) sse4.vceq_i64 P.vceq ∧
    Lift1 8 (vw 128 64) sse4.vcgtz_i64 P.vcgtz ∧
    Lift1 8 (vw 128 64) sse4.vcltz_i64 P.vcltz ∧
    Lift1 8 (vw 128 64) sse4.vclez_i64 P.vclez :=
  ⟨sse4_ok.vreinterpret_i64_u64, sse4_ok.vdup_i64, sse4_ok.vzero_i64, sse4_ok.vadd_i64, sse4_ok.vsub_i64, sse4_ok.vceqz_i64, sse4_ok.vceq_i64, sse4_ok.vcgtz_i64, sse4_ok.vcltz_i64, sse4_ok.vclez_i64⟩

/-- sse4_1_quadruple.hh, `SIMD<uint8_t, 64>` -/
theorem C52_sse4_u8 :
    (Lift1 64 (vw 128 8) sse4.vreinterpret_u8_i8 fun x => x) ∧
    Lift2 64 (vw 128 8) sse4.vqsub_u8 P.vqsubU ∧
    Lift2 64 (vw 128 8) sse4.vorr_u8 P.vorr ∧
    Lift2 64 (vw 128 8) sse4.vand_u8 P.vand ∧
    Lift2 64 (vw 128 8) sse4.veor_u8 P.veor ∧
    Lift2 64 (vw 128 8) sse4.vbic_u8 P.vbic ∧
    Lift3 64 (vw 128 8) sse4.vbsl_u8 P.vbsl ∧
    (LiftShuf 64 (fun j => j < 64 ∨ 176 ≤ j) (vw 128 8) (vw 128 8) sse4.vshuf_u8) :=
  ⟨sse4_ok.vreinterpret_u8_i8, sse4_ok.vqsub_u8, sse4_ok.vorr_u8, sse4_ok.vand_u8, sse4_ok.veor_u8, sse4_ok.vbic_u8, sse4_ok.vbsl_u8, sse4_ok.vshuf_u8⟩

/-- sse4_1_quadruple.hh, `SIMD<uint16_t, 32>` -/
theorem C52_sse4_u16 :
    (Lift1 32 (vw 128 16) sse4.vreinterpret_u16_i16 fun x => x) ∧
    Lift2 32 (vw 128 16) sse4.vqsub_u16 P.vqsubU ∧
    Lift2 32 (vw 128 16) sse4.vorr_u16 P.vorr ∧
    Lift2 32 (vw 128 16) sse4.vand_u16 P.vand ∧
    Lift2 32 (vw 128 16) sse4.veor_u16 P.veor ∧
    Lift2 32 (vw 128 16) sse4.vbic_u16 P.vbic ∧
    Lift3 32 (vw 128 16) sse4.vbsl_u16 P.vbsl :=
  ⟨sse4_ok.vreinterpret_u16_i16, sse4_ok.vqsub_u16, sse4_ok.vorr_u16, sse4_ok.vand_u16, sse4_ok.veor_u16, sse4_ok.vbic_u16, sse4_ok.vbsl_u16⟩

/-- sse4_1_quadruple.hh, `SIMD<uint32_t, 16>` -/
theorem C52_sse4_u32 :
    (Lift1 16 (vw 128 32) sse4.vreinterpret_u32_f32 fun x => x) ∧
    (Lift1 16 (vw 128 32) sse4.vreinterpret_u32_i32 fun x => x) ∧
    Lift2 16 (vw 128 32) sse4.vorr_u32 P.vorr ∧
    Lift2 16 (vw 128 32) sse4.vand_u32 P.vand ∧
    Lift2 16 (vw 128 32) sse4.veor_u32 P.veor ∧
    Lift2 16 (vw 128 32) sse4.vbic_u32 P.vbic ∧
    Lift3 16 (vw 128 32) sse4.vbsl_u32 P.vbsl :=
  ⟨sse4_ok.vreinterpret_u32_f32, sse4_ok.vreinterpret_u32_i32, sse4_ok.vorr_u32, sse4_ok.vand_u32, sse4_ok.veor_u32, sse4_ok.vbic_u32, sse4_ok.vbsl_u32⟩

/-- sse4_1_quadruple.hh, `SIMD<uint64_t, 8>` -/
theorem C52_sse4_u64 :
    (Lift1 8 (vw 128 64) sse4.vreinterpret_u64_f64 fun x => x) ∧
    (Lift1 8 (vw 128 64) sse4.vreinterpret_u64_i64 fun x => x) ∧
    Lift2 8 (vw 128 64) sse4.vorr_u64 P.vorr ∧
    Lift2 8 (vw 128 64) sse4.vand_u64 P.vand ∧
    Lift2 8 (vw 128 64) sse4.veor_u64 P.veor ∧
    Lift2 8 (vw 128 64) sse4.vbic_u64 P.vbic ∧
    Lift3 8 (vw 128 64) sse4.vbsl_u64 P.vbsl :=
  ⟨sse4_ok.vreinterpret_u64_f64, sse4_ok.vreinterpret_u64_i64, sse4_ok.vorr_u64, sse4_ok.vand_u64, sse4_ok.veor_u64, sse4_ok.vbic_u64, sse4_ok.vbsl_u64⟩

/-- sse4_1_quadruple.hh, `SIMD<float, 16>` -/
theorem C52_sse4_f32 :
    (Lift1 16 (vw 128 32) sse4.vreinterpret_f32_u32 fun x => x) ∧
    LiftDup 16 (vw 128 32) sse4.vdup_f32 ∧
    Lift0 16 (vw 128 32) sse4.vzero_f32 0 ∧
    (∀ A32 : Fpu 32, Lift2 16 (vw 128 32) (sse4.vadd_f32 A32) A32.add) ∧
    (∀ A32 : Fpu 32, Lift2 16 (vw 128 32) (sse4.vsub_f32 A32) A32.sub) ∧
    (∀ A32 : Fpu 32, Lift2 16 (vw 128 32) (sse4.vmul_f32 A32) A32.mul) ∧
    Lift1 16 (vw 128 32) sse4.vabs_f32 Fmt.vabs ∧
    LiftSignum f32 16 (vw 128 32) sse4.vsignum_f32 ∧
    LiftSign f32 16 (vw 128 32) sse4.vsign_f32 ∧
    Lift2 16 (vw 128 32) sse4.vcopysign_f32 Fmt.vcopysign ∧
    Lift1 16 (vw 128 32) sse4.vceqz_f32 f32.vceqz ∧
    Lift2 16 (vw 128 32) sse4.vceq_f32 f32.vceq ∧
    Lift1 16 (vw 128 32) sse4.vcgtz_f32 f32.vcgtz ∧
    Lift1 16 (vw 128 32) sse4.vcltz_f32 f32.vcltz ∧
    Lift1 16 (vw 128 32) sse4.vclez_f32 f32.vclez ∧
    LiftNum2 f32 16 (vw 128 32) sse4.vmin_f32 f32.vmin ∧
    LiftNum2 f32 16 (vw 128 32) sse4.vmax_f32 f32.vmax ∧
    LiftClamp f32 16 (vw 128 32) sse4.vclamp_f32 :=
  ⟨sse4_ok.vreinterpret_f32_u32, sse4_ok.vdup_f32, sse4_ok.vzero_f32, sse4_ok.vadd_f32, sse4_ok.vsub_f32, sse4_ok.vmul_f32, sse4_ok.vabs_f32, sse4_ok.vsignum_f32, sse4_ok.vsign_f32, sse4_ok.vcopysign_f32, sse4_ok.vceqz_f32, sse4_ok.vceq_f32, sse4_ok.vcgtz_f32, sse4_ok.vcltz_f32, sse4_ok.vclez_f32, sse4_ok.vmin_f32, sse4_ok.vmax_f32, sse4_ok.vclamp_f32⟩

/-- sse4_1_quadruple.hh, `SIMD<double, 8>` -/
theorem C52_sse4_f64 :
    (Lift1 8 (vw 128 64) sse4.vreinterpret_f64_u64 fun x => x) ∧
    LiftDup 8 (vw 128 64) sse4.vdup_f64 ∧
    Lift0 8 (vw 128 64) sse4.vzero_f64 0 ∧
    (∀ A64 : Fpu 64, Lift2 8 (vw 128 64) (sse4.vadd_f64 A64) A64.add) ∧
    (∀ A64 : Fpu 64, Lift2 8 (vw 128 64) (sse4.vsub_f64 A64) A64.sub) ∧
    (∀ A64 : Fpu 64, Lift2 8 (vw 128 64) (sse4.vmul_f64 A64) A64.mul) ∧
    Lift1 8 (vw 128 64) sse4.vabs_f64 Fmt.vabs ∧
    LiftSignum f64 8 (vw 128 64) sse4.vsignum_f64 ∧
    LiftSign f64 8 (vw 128 64) sse4.vsign_f64 ∧
    Lift2 8 (vw 128 64) sse4.vcopysign_f64 Fmt.vcopysign ∧
    Lift1 8 (vw 128 64) sse4.vceqz_f64 f64.vceqz ∧
    Lift2 8 (vw 128 64) sse4.vceq_f64 f64.vceq ∧
    Lift1 8 (vw 128 64) sse4.vcgtz_f64 f64.vcgtz ∧
    Lift1 8 (vw 128 64) sse4.vcltz_f64 f64.vcltz ∧
    Lift1 8 (vw 128 64) sse4.vclez_f64 f64.vclez ∧
    LiftNum2 f64 8 (vw 128 64) sse4.vmin_f64 f64.vmin ∧
    LiftNum2 f64 8 (vw 128 64) sse4.vmax_f64 f64.vmax ∧
    LiftClamp f64 8 (vw 128 64) sse4.vclamp_f64 :=
  ⟨sse4_ok.vreinterpret_f64_u64, sse4_ok.vdup_f64, sse4_ok.vzero_f64, sse4_ok.vadd_f64, sse4_ok.vsub_f64, sse4_ok.vmul_f64, sse4_ok.vabs_f64, sse4_ok.vsignum_f64, sse4_ok.vsign_f64, sse4_ok.vcopysign_f64, sse4_ok.vceqz_f64, sse4_ok.vceq_f64, sse4_ok.vcgtz_f64, sse4_ok.vcltz_f64, sse4_ok.vclez_f64, sse4_ok.vmin_f64, sse4_ok.vmax_f64, sse4_ok.vclamp_f64⟩

/-! ### The conditions of the float and `vshuf` statements are needed, and are met by ordinary values -/

/-- An index from 16 to 127 selects a byte modulo 16 instead of returning 0 as the portable template does. -/
theorem C52_vshuf_index (a b : BitVec 128) (k : Nat) (hk : k < 16) (h : (lane 8 b k).toNat < 128) :
    lane 8 (sse.vshuf_i8 a b) k = lane 8 a ((lane 8 b k).toNat % 16) := by
  simp (disch := omega) only [sse.vshuf_i8, _mm_shuffle_epi8, LL.lane_pshufb]
  unfold LL.sh
  rw [if_neg (by rw [BitVec.msb_eq_decide]; simp; omega)]

/-- `vsignum` of a NaN is 1 or -1 instead of 0. -/
theorem C52_vsignum_nan (a : BitVec 128) (k : Nat) (hk : k < 4) (h : f32.nan (lane 32 a k)) :
    lane 32 (sse.vsignum_f32 a) k = (if (lane 32 a k).msb then 0xbf800000#32 else 0x3f800000#32) ∧ f32.vsignum (lane 32 a k) = 0 := by
  simp (disch := omega) only [sse.vsignum_f32, _mm_andnot_ps, _mm_or_ps, _mm_and_ps, _mm_set1_ps, _mm_cmpeq_ps, _mm_setzero_ps,
    lane_and, lane_or, lane_not, lane_map2, lane_ofLanes, lane_zero]
  constructor
  · rw [LL.negz_and (by decide), I.fcmpeq, if_neg (fun h' => h'.1 h)]
    split <;> decide
  · unfold Fmt.vsignum Fmt.fsgn
    rw [if_neg (fun h' => h'.2.1 h), if_neg (fun h' => h'.1 h)]; decide

/-- `vmin(NaN, b)` is `b`; the portable template returns the NaN. -/
theorem C52_vmin_nan (a b : BitVec 128) (k : Nat) (hk : k < 4) (h : f32.nan (lane 32 a k)) :
    lane 32 (sse.vmin_f32 a b) k = lane 32 b k ∧ f32.vmin (lane 32 a k) (lane 32 b k) = lane 32 a k := by
  simp (disch := omega) only [sse.vmin_f32, _mm_min_ps, lane_map2]
  exact ⟨by rw [I.fminX, if_neg (fun h' => h'.1 h)], by rw [Fmt.vmin, if_neg (fun h' => h'.2.1 h)]⟩

/-- `vmin(0, -0)` is `-0`; the portable template returns `0`. -/
theorem C52_vmin_zero : I.fminX f32 0 (negz 32) = negz 32 ∧ f32.vmin 0 (negz 32) = 0 := by decide

/-- A multiplication that satisfies `MulLaws` exists. -/
theorem mulLaws_example : f32.MulLaws fun x a => if x = f32.one then a else if x = f32.one ^^^ negz 32 then a ^^^ negz 32 else 0 where
  one a _ := if_pos rfl
  neg a _ := by rw [if_neg (by decide), if_pos rfl]
  zero a _ := by rw [if_neg (by decide), if_neg (by decide)]; decide

/-- `1.5`, `-2.0` and infinity are not NaNs, and the first two are finite. -/
example : ¬ f32.nan 0x3fc00000#32 ∧ f32.finite 0x3fc00000#32 ∧ ¬ f32.nan 0xc0000000#32 ∧ f32.finite 0xc0000000#32 ∧
    ¬ f32.nan 0x7f800000#32 ∧ ¬ f32.finite 0x7f800000#32 ∧ f32.nan 0x7fc00000#32 := by decide
/-- The lane functions on these values. -/
example : f32.vmin 0x3fc00000#32 0xc0000000#32 = 0xc0000000#32 ∧ f32.vsignum 0xc0000000#32 = 0xbf800000#32 ∧
    f32.vclamp 0x7f800000#32 0xc0000000#32 0x3fc00000#32 = 0x3fc00000#32 ∧ f32.vcgtz 0x3fc00000#32 = 0xffffffff#32 := by decide
/-- A register with sixteen different bytes, and the value of a saturating operation on its lanes. -/
example : lane 8 (0x0f0e0d0c0b0a09080706050403028180#128) 0 = 0x80#8 ∧ P.vqadd 0x80#8 0x80#8 = 0x80#8 ∧ P.vqabs 0x80#8 = 0x7f#8 ∧
    P.vqsubU 3#8 5#8 = 0 ∧ P.vsign 5#8 0x80#8 = 0xfb#8 := by decide


end Verif.SIMD
