import Verif.SIMD.Neon
import Verif.SIMD.Spec
import Verif.SIMD.Shuf
/- neon.hh, function by function (generated by tools/gen_simd.py). -/
namespace Verif.SIMD
namespace neon_ok

theorem vreinterpret_u32_f32 : Lift1 4 (lane 32) neon.vreinterpret_u32_f32 fun x => x := by
  intro a k hk
  simp (disch := omega) only [neon.vreinterpret_u32_f32, lane_map1, lane_map2, lane_and, lane_or, lane_xor, lane_not, lane_zero, lane_ofLanes]
theorem vreinterpret_f32_u32 : Lift1 4 (lane 32) neon.vreinterpret_f32_u32 fun x => x := by
  intro a k hk
  simp (disch := omega) only [neon.vreinterpret_f32_u32, lane_map1, lane_map2, lane_and, lane_or, lane_xor, lane_not, lane_zero, lane_ofLanes]
theorem vreinterpret_u8_i8 : Lift1 16 (lane 8) neon.vreinterpret_u8_i8 fun x => x := by
  intro a k hk
  simp (disch := omega) only [neon.vreinterpret_u8_i8, lane_map1, lane_map2, lane_and, lane_or, lane_xor, lane_not, lane_zero, lane_ofLanes]
theorem vreinterpret_i8_u8 : Lift1 16 (lane 8) neon.vreinterpret_i8_u8 fun x => x := by
  intro a k hk
  simp (disch := omega) only [neon.vreinterpret_i8_u8, lane_map1, lane_map2, lane_and, lane_or, lane_xor, lane_not, lane_zero, lane_ofLanes]
theorem vreinterpret_u16_i16 : Lift1 8 (lane 16) neon.vreinterpret_u16_i16 fun x => x := by
  intro a k hk
  simp (disch := omega) only [neon.vreinterpret_u16_i16, lane_map1, lane_map2, lane_and, lane_or, lane_xor, lane_not, lane_zero, lane_ofLanes]
theorem vreinterpret_i16_u16 : Lift1 8 (lane 16) neon.vreinterpret_i16_u16 fun x => x := by
  intro a k hk
  simp (disch := omega) only [neon.vreinterpret_i16_u16, lane_map1, lane_map2, lane_and, lane_or, lane_xor, lane_not, lane_zero, lane_ofLanes]
theorem vreinterpret_u32_i32 : Lift1 4 (lane 32) neon.vreinterpret_u32_i32 fun x => x := by
  intro a k hk
  simp (disch := omega) only [neon.vreinterpret_u32_i32, lane_map1, lane_map2, lane_and, lane_or, lane_xor, lane_not, lane_zero, lane_ofLanes]
theorem vreinterpret_i32_u32 : Lift1 4 (lane 32) neon.vreinterpret_i32_u32 fun x => x := by
  intro a k hk
  simp (disch := omega) only [neon.vreinterpret_i32_u32, lane_map1, lane_map2, lane_and, lane_or, lane_xor, lane_not, lane_zero, lane_ofLanes]
theorem vdup_f32 : LiftDup 4 (lane 32) neon.vdup_f32 := by
  intro a k hk
  simp (disch := omega) only [neon.vdup_f32, vdupq_n_f32, lane_map1, lane_map2, lane_and, lane_or, lane_xor, lane_not, lane_zero, lane_ofLanes]
theorem vdup_i8 : LiftDup 16 (lane 8) neon.vdup_i8 := by
  intro a k hk
  simp (disch := omega) only [neon.vdup_i8, vdupq_n_s8, lane_map1, lane_map2, lane_and, lane_or, lane_xor, lane_not, lane_zero, lane_ofLanes]
theorem vdup_i16 : LiftDup 8 (lane 16) neon.vdup_i16 := by
  intro a k hk
  simp (disch := omega) only [neon.vdup_i16, vdupq_n_s16, lane_map1, lane_map2, lane_and, lane_or, lane_xor, lane_not, lane_zero, lane_ofLanes]
theorem vdup_i32 : LiftDup 4 (lane 32) neon.vdup_i32 := by
  intro a k hk
  simp (disch := omega) only [neon.vdup_i32, vdupq_n_s32, lane_map1, lane_map2, lane_and, lane_or, lane_xor, lane_not, lane_zero, lane_ofLanes]
theorem vdup_i64 : LiftDup 2 (lane 64) neon.vdup_i64 := by
  intro a k hk
  simp (disch := omega) only [neon.vdup_i64, vdupq_n_s64, lane_map1, lane_map2, lane_and, lane_or, lane_xor, lane_not, lane_zero, lane_ofLanes]
theorem vdup_u8 : LiftDup 16 (lane 8) neon.vdup_u8 := by
  intro a k hk
  simp (disch := omega) only [neon.vdup_u8, vdupq_n_u8, lane_map1, lane_map2, lane_and, lane_or, lane_xor, lane_not, lane_zero, lane_ofLanes]
theorem vdup_u16 : LiftDup 8 (lane 16) neon.vdup_u16 := by
  intro a k hk
  simp (disch := omega) only [neon.vdup_u16, vdupq_n_u16, lane_map1, lane_map2, lane_and, lane_or, lane_xor, lane_not, lane_zero, lane_ofLanes]
theorem vdup_u32 : LiftDup 4 (lane 32) neon.vdup_u32 := by
  intro a k hk
  simp (disch := omega) only [neon.vdup_u32, vdupq_n_u32, lane_map1, lane_map2, lane_and, lane_or, lane_xor, lane_not, lane_zero, lane_ofLanes]
theorem vdup_u64 : LiftDup 2 (lane 64) neon.vdup_u64 := by
  intro a k hk
  simp (disch := omega) only [neon.vdup_u64, vdupq_n_u64, lane_map1, lane_map2, lane_and, lane_or, lane_xor, lane_not, lane_zero, lane_ofLanes]
theorem vzero_f32 : ∀ tmp, Lift0 4 (lane 32) (neon.vzero_f32 tmp) 0 := by
  intro tmp k hk
  simp (disch := omega) only [neon.vzero_f32, veorq_u32, lane_map1, lane_map2, lane_and, lane_or, lane_xor, lane_not, lane_zero, lane_ofLanes]
  exact BitVec.xor_self
theorem vzero_i8 : ∀ tmp, Lift0 16 (lane 8) (neon.vzero_i8 tmp) 0 := by
  intro tmp k hk
  simp (disch := omega) only [neon.vzero_i8, veorq_s8, lane_map1, lane_map2, lane_and, lane_or, lane_xor, lane_not, lane_zero, lane_ofLanes]
  exact BitVec.xor_self
theorem vzero_i16 : ∀ tmp, Lift0 8 (lane 16) (neon.vzero_i16 tmp) 0 := by
  intro tmp k hk
  simp (disch := omega) only [neon.vzero_i16, veorq_s16, lane_map1, lane_map2, lane_and, lane_or, lane_xor, lane_not, lane_zero, lane_ofLanes]
  exact BitVec.xor_self
theorem vzero_i32 : ∀ tmp, Lift0 4 (lane 32) (neon.vzero_i32 tmp) 0 := by
  intro tmp k hk
  simp (disch := omega) only [neon.vzero_i32, veorq_s32, lane_map1, lane_map2, lane_and, lane_or, lane_xor, lane_not, lane_zero, lane_ofLanes]
  exact BitVec.xor_self
theorem vzero_i64 : ∀ tmp, Lift0 2 (lane 64) (neon.vzero_i64 tmp) 0 := by
  intro tmp k hk
  simp (disch := omega) only [neon.vzero_i64, veorq_s64, lane_map1, lane_map2, lane_and, lane_or, lane_xor, lane_not, lane_zero, lane_ofLanes]
  exact BitVec.xor_self
theorem vzero_u8 : ∀ tmp, Lift0 16 (lane 8) (neon.vzero_u8 tmp) 0 := by
  intro tmp k hk
  simp (disch := omega) only [neon.vzero_u8, veorq_u8, lane_map1, lane_map2, lane_and, lane_or, lane_xor, lane_not, lane_zero, lane_ofLanes]
  exact BitVec.xor_self
theorem vzero_u16 : ∀ tmp, Lift0 8 (lane 16) (neon.vzero_u16 tmp) 0 := by
  intro tmp k hk
  simp (disch := omega) only [neon.vzero_u16, veorq_u16, lane_map1, lane_map2, lane_and, lane_or, lane_xor, lane_not, lane_zero, lane_ofLanes]
  exact BitVec.xor_self
theorem vzero_u32 : ∀ tmp, Lift0 4 (lane 32) (neon.vzero_u32 tmp) 0 := by
  intro tmp k hk
  simp (disch := omega) only [neon.vzero_u32, veorq_u32, lane_map1, lane_map2, lane_and, lane_or, lane_xor, lane_not, lane_zero, lane_ofLanes]
  exact BitVec.xor_self
theorem vzero_u64 : ∀ tmp, Lift0 2 (lane 64) (neon.vzero_u64 tmp) 0 := by
  intro tmp k hk
  simp (disch := omega) only [neon.vzero_u64, veorq_u64, lane_map1, lane_map2, lane_and, lane_or, lane_xor, lane_not, lane_zero, lane_ofLanes]
  exact BitVec.xor_self
theorem vadd_f32 : ∀ A32 : Fpu 32, Lift2 4 (lane 32) (neon.vadd_f32 A32) A32.add := by
  intro A a b k hk
  simp (disch := omega) only [neon.vadd_f32, vaddq_f32, lane_map1, lane_map2, lane_and, lane_or, lane_xor, lane_not, lane_zero, lane_ofLanes]
theorem vadd_i8 : Lift2 16 (lane 8) neon.vadd_i8 P.vadd := by
  intro a b k hk
  simp (disch := omega) only [neon.vadd_i8, vaddq_s8, lane_map1, lane_map2, lane_and, lane_or, lane_xor, lane_not, lane_zero, lane_ofLanes]
  exact LL.add _ _
theorem vadd_i16 : Lift2 8 (lane 16) neon.vadd_i16 P.vadd := by
  intro a b k hk
  simp (disch := omega) only [neon.vadd_i16, vaddq_s16, lane_map1, lane_map2, lane_and, lane_or, lane_xor, lane_not, lane_zero, lane_ofLanes]
  exact LL.add _ _
theorem vadd_i32 : Lift2 4 (lane 32) neon.vadd_i32 P.vadd := by
  intro a b k hk
  simp (disch := omega) only [neon.vadd_i32, vaddq_s32, lane_map1, lane_map2, lane_and, lane_or, lane_xor, lane_not, lane_zero, lane_ofLanes]
  exact LL.add _ _
theorem vadd_i64 : Lift2 2 (lane 64) neon.vadd_i64 P.vadd := by
  intro a b k hk
  simp (disch := omega) only [neon.vadd_i64, vaddq_s64, lane_map1, lane_map2, lane_and, lane_or, lane_xor, lane_not, lane_zero, lane_ofLanes]
  exact LL.add _ _
theorem vqadd_i8 : Lift2 16 (lane 8) neon.vqadd_i8 P.vqadd := by
  intro a b k hk
  simp (disch := omega) only [neon.vqadd_i8, vqaddq_s8, lane_map1, lane_map2, lane_and, lane_or, lane_xor, lane_not, lane_zero, lane_ofLanes]
  exact LL.adds _ _
theorem vqadd_i16 : Lift2 8 (lane 16) neon.vqadd_i16 P.vqadd := by
  intro a b k hk
  simp (disch := omega) only [neon.vqadd_i16, vqaddq_s16, lane_map1, lane_map2, lane_and, lane_or, lane_xor, lane_not, lane_zero, lane_ofLanes]
  exact LL.adds _ _
theorem vsub_f32 : ∀ A32 : Fpu 32, Lift2 4 (lane 32) (neon.vsub_f32 A32) A32.sub := by
  intro A a b k hk
  simp (disch := omega) only [neon.vsub_f32, vsubq_f32, lane_map1, lane_map2, lane_and, lane_or, lane_xor, lane_not, lane_zero, lane_ofLanes]
theorem vsub_i8 : Lift2 16 (lane 8) neon.vsub_i8 P.vsub := by
  intro a b k hk
  simp (disch := omega) only [neon.vsub_i8, vsubq_s8, lane_map1, lane_map2, lane_and, lane_or, lane_xor, lane_not, lane_zero, lane_ofLanes]
  exact LL.sub _ _
theorem vsub_i16 : Lift2 8 (lane 16) neon.vsub_i16 P.vsub := by
  intro a b k hk
  simp (disch := omega) only [neon.vsub_i16, vsubq_s16, lane_map1, lane_map2, lane_and, lane_or, lane_xor, lane_not, lane_zero, lane_ofLanes]
  exact LL.sub _ _
theorem vsub_i32 : Lift2 4 (lane 32) neon.vsub_i32 P.vsub := by
  intro a b k hk
  simp (disch := omega) only [neon.vsub_i32, vsubq_s32, lane_map1, lane_map2, lane_and, lane_or, lane_xor, lane_not, lane_zero, lane_ofLanes]
  exact LL.sub _ _
theorem vsub_i64 : Lift2 2 (lane 64) neon.vsub_i64 P.vsub := by
  intro a b k hk
  simp (disch := omega) only [neon.vsub_i64, vsubq_s64, lane_map1, lane_map2, lane_and, lane_or, lane_xor, lane_not, lane_zero, lane_ofLanes]
  exact LL.sub _ _
theorem vqsub_i8 : Lift2 16 (lane 8) neon.vqsub_i8 P.vqsub := by
  intro a b k hk
  simp (disch := omega) only [neon.vqsub_i8, vqsubq_s8, lane_map1, lane_map2, lane_and, lane_or, lane_xor, lane_not, lane_zero, lane_ofLanes]
  exact LL.subs _ _
theorem vqsub_i16 : Lift2 8 (lane 16) neon.vqsub_i16 P.vqsub := by
  intro a b k hk
  simp (disch := omega) only [neon.vqsub_i16, vqsubq_s16, lane_map1, lane_map2, lane_and, lane_or, lane_xor, lane_not, lane_zero, lane_ofLanes]
  exact LL.subs _ _
theorem vqsub_u8 : Lift2 16 (lane 8) neon.vqsub_u8 P.vqsubU := by
  intro a b k hk
  simp (disch := omega) only [neon.vqsub_u8, vqsubq_u8, lane_map1, lane_map2, lane_and, lane_or, lane_xor, lane_not, lane_zero, lane_ofLanes]
  exact LL.subus _ _
theorem vqsub_u16 : Lift2 8 (lane 16) neon.vqsub_u16 P.vqsubU := by
  intro a b k hk
  simp (disch := omega) only [neon.vqsub_u16, vqsubq_u16, lane_map1, lane_map2, lane_and, lane_or, lane_xor, lane_not, lane_zero, lane_ofLanes]
  exact LL.subus _ _
theorem vmul_f32 : ∀ A32 : Fpu 32, Lift2 4 (lane 32) (neon.vmul_f32 A32) A32.mul := by
  intro A a b k hk
  simp (disch := omega) only [neon.vmul_f32, vmulq_f32, lane_map1, lane_map2, lane_and, lane_or, lane_xor, lane_not, lane_zero, lane_ofLanes]
theorem vmul_i8 : Lift2 16 (lane 8) neon.vmul_i8 P.vmul := by
  intro a b k hk
  simp (disch := omega) only [neon.vmul_i8, vmulq_s8, lane_map1, lane_map2, lane_and, lane_or, lane_xor, lane_not, lane_zero, lane_ofLanes]
  exact LL.mul _ _
theorem vabs_f32 : Lift1 4 (lane 32) neon.vabs_f32 Fmt.vabs := by
  intro a k hk
  simp (disch := omega) only [neon.vabs_f32, vabsq_f32, lane_map1, lane_map2, lane_and, lane_or, lane_xor, lane_not, lane_zero, lane_ofLanes]
  exact LL.fabsN _
theorem vqabs_i8 : Lift1 16 (lane 8) neon.vqabs_i8 P.vqabs := by
  intro a k hk
  simp (disch := omega) only [neon.vqabs_i8, vqabsq_s8, lane_map1, lane_map2, lane_and, lane_or, lane_xor, lane_not, lane_zero, lane_ofLanes]
  exact LL.sqabs (by decide) _
theorem vqabs_i16 : Lift1 8 (lane 16) neon.vqabs_i16 P.vqabs := by
  intro a k hk
  simp (disch := omega) only [neon.vqabs_i16, vqabsq_s16, lane_map1, lane_map2, lane_and, lane_or, lane_xor, lane_not, lane_zero, lane_ofLanes]
  exact LL.sqabs (by decide) _
theorem vsignum_f32 : LiftSignum f32 4 (lane 32) neon.vsignum_f32 := by
  intro a k hk hn
  simp (disch := omega) only [neon.vsignum_f32, vandq_u32, vbicq_u32, vceqq_f32, vdupq_n_f32, veorq_u32, lane_map1, lane_map2, lane_and, lane_or, lane_xor, lane_not, lane_zero, lane_ofLanes]
  exact LL.fsignumN f32 (by decide)  hn
theorem vsignum_i8 : Lift1 16 (lane 8) neon.vsignum_i8 P.vsignum := by
  intro a k hk
  simp (disch := omega) only [neon.vsignum_i8, vandq_u8, vcgtq_s8, vdupq_n_s8, vorrq_u8, lane_map1, lane_map2, lane_and, lane_or, lane_xor, lane_not, lane_zero, lane_ofLanes]
  exact LL.nsignum _
theorem vsign_f32 : LiftSign f32 4 (lane 32) neon.vsign_f32 := by
  intro m hm a b k hk ha hn
  simp (disch := omega) only [neon.vsign_f32, vandq_u32, vbicq_u32, vceqq_f32, vdupq_n_f32, veorq_u32, lane_map1, lane_map2, lane_and, lane_or, lane_xor, lane_not, lane_zero, lane_ofLanes]
  exact LL.fsignN f32 (by decide) hm ha hn
theorem vsign_i8 : Lift2 16 (lane 8) neon.vsign_i8 P.vsign := by
  intro a b k hk
  simp (disch := omega) only [neon.vsign_i8, vandq_u8, vcgtq_s8, vdupq_n_s8, vnegq_s8, vorrq_u8, lane_map1, lane_map2, lane_and, lane_or, lane_xor, lane_not, lane_zero, lane_ofLanes]
  exact LL.nsign _ _
theorem vcopysign_f32 : Lift2 4 (lane 32) neon.vcopysign_f32 Fmt.vcopysign := by
  intro a b k hk
  simp (disch := omega) only [neon.vcopysign_f32, vandq_u32, vbicq_u32, vdupq_n_f32, vorrq_u32, lane_map1, lane_map2, lane_and, lane_or, lane_xor, lane_not, lane_zero, lane_ofLanes]
  exact LL.fcopysignN _ _
theorem vorr_u8 : Lift2 16 (lane 8) neon.vorr_u8 P.vorr := by
  intro a b k hk
  simp (disch := omega) only [neon.vorr_u8, vorrq_u8, lane_map1, lane_map2, lane_and, lane_or, lane_xor, lane_not, lane_zero, lane_ofLanes]
  rfl
theorem vorr_u16 : Lift2 8 (lane 16) neon.vorr_u16 P.vorr := by
  intro a b k hk
  simp (disch := omega) only [neon.vorr_u16, vorrq_u16, lane_map1, lane_map2, lane_and, lane_or, lane_xor, lane_not, lane_zero, lane_ofLanes]
  rfl
theorem vorr_u32 : Lift2 4 (lane 32) neon.vorr_u32 P.vorr := by
  intro a b k hk
  simp (disch := omega) only [neon.vorr_u32, vorrq_u32, lane_map1, lane_map2, lane_and, lane_or, lane_xor, lane_not, lane_zero, lane_ofLanes]
  rfl
theorem vorr_u64 : Lift2 2 (lane 64) neon.vorr_u64 P.vorr := by
  intro a b k hk
  simp (disch := omega) only [neon.vorr_u64, vorrq_u64, lane_map1, lane_map2, lane_and, lane_or, lane_xor, lane_not, lane_zero, lane_ofLanes]
  rfl
theorem vand_u8 : Lift2 16 (lane 8) neon.vand_u8 P.vand := by
  intro a b k hk
  simp (disch := omega) only [neon.vand_u8, vandq_u8, lane_map1, lane_map2, lane_and, lane_or, lane_xor, lane_not, lane_zero, lane_ofLanes]
  rfl
theorem vand_u16 : Lift2 8 (lane 16) neon.vand_u16 P.vand := by
  intro a b k hk
  simp (disch := omega) only [neon.vand_u16, vandq_u16, lane_map1, lane_map2, lane_and, lane_or, lane_xor, lane_not, lane_zero, lane_ofLanes]
  rfl
theorem vand_u32 : Lift2 4 (lane 32) neon.vand_u32 P.vand := by
  intro a b k hk
  simp (disch := omega) only [neon.vand_u32, vandq_u32, lane_map1, lane_map2, lane_and, lane_or, lane_xor, lane_not, lane_zero, lane_ofLanes]
  rfl
theorem vand_u64 : Lift2 2 (lane 64) neon.vand_u64 P.vand := by
  intro a b k hk
  simp (disch := omega) only [neon.vand_u64, vandq_u64, lane_map1, lane_map2, lane_and, lane_or, lane_xor, lane_not, lane_zero, lane_ofLanes]
  rfl
theorem veor_u8 : Lift2 16 (lane 8) neon.veor_u8 P.veor := by
  intro a b k hk
  simp (disch := omega) only [neon.veor_u8, veorq_u8, lane_map1, lane_map2, lane_and, lane_or, lane_xor, lane_not, lane_zero, lane_ofLanes]
  rfl
theorem veor_u16 : Lift2 8 (lane 16) neon.veor_u16 P.veor := by
  intro a b k hk
  simp (disch := omega) only [neon.veor_u16, veorq_u16, lane_map1, lane_map2, lane_and, lane_or, lane_xor, lane_not, lane_zero, lane_ofLanes]
  rfl
theorem veor_u32 : Lift2 4 (lane 32) neon.veor_u32 P.veor := by
  intro a b k hk
  simp (disch := omega) only [neon.veor_u32, veorq_u32, lane_map1, lane_map2, lane_and, lane_or, lane_xor, lane_not, lane_zero, lane_ofLanes]
  rfl
theorem veor_u64 : Lift2 2 (lane 64) neon.veor_u64 P.veor := by
  intro a b k hk
  simp (disch := omega) only [neon.veor_u64, veorq_u64, lane_map1, lane_map2, lane_and, lane_or, lane_xor, lane_not, lane_zero, lane_ofLanes]
  rfl
theorem vbic_u8 : Lift2 16 (lane 8) neon.vbic_u8 P.vbic := by
  intro a b k hk
  simp (disch := omega) only [neon.vbic_u8, vbicq_u8, lane_map1, lane_map2, lane_and, lane_or, lane_xor, lane_not, lane_zero, lane_ofLanes]
  rfl
theorem vbic_u16 : Lift2 8 (lane 16) neon.vbic_u16 P.vbic := by
  intro a b k hk
  simp (disch := omega) only [neon.vbic_u16, vbicq_u16, lane_map1, lane_map2, lane_and, lane_or, lane_xor, lane_not, lane_zero, lane_ofLanes]
  rfl
theorem vbic_u32 : Lift2 4 (lane 32) neon.vbic_u32 P.vbic := by
  intro a b k hk
  simp (disch := omega) only [neon.vbic_u32, vbicq_u32, lane_map1, lane_map2, lane_and, lane_or, lane_xor, lane_not, lane_zero, lane_ofLanes]
  rfl
theorem vbic_u64 : Lift2 2 (lane 64) neon.vbic_u64 P.vbic := by
  intro a b k hk
  simp (disch := omega) only [neon.vbic_u64, vbicq_u64, lane_map1, lane_map2, lane_and, lane_or, lane_xor, lane_not, lane_zero, lane_ofLanes]
  rfl
theorem vbsl_u8 : Lift3 16 (lane 8) neon.vbsl_u8 P.vbsl := by
  intro a b c k hk
  simp (disch := omega) only [neon.vbsl_u8, vbslq_u8, lane_map1, lane_map2, lane_and, lane_or, lane_xor, lane_not, lane_zero, lane_ofLanes]
  rfl
theorem vbsl_u16 : Lift3 8 (lane 16) neon.vbsl_u16 P.vbsl := by
  intro a b c k hk
  simp (disch := omega) only [neon.vbsl_u16, vbslq_u16, lane_map1, lane_map2, lane_and, lane_or, lane_xor, lane_not, lane_zero, lane_ofLanes]
  rfl
theorem vbsl_u32 : Lift3 4 (lane 32) neon.vbsl_u32 P.vbsl := by
  intro a b c k hk
  simp (disch := omega) only [neon.vbsl_u32, vbslq_u32, lane_map1, lane_map2, lane_and, lane_or, lane_xor, lane_not, lane_zero, lane_ofLanes]
  rfl
theorem vbsl_u64 : Lift3 2 (lane 64) neon.vbsl_u64 P.vbsl := by
  intro a b c k hk
  simp (disch := omega) only [neon.vbsl_u64, vbslq_u64, lane_map1, lane_map2, lane_and, lane_or, lane_xor, lane_not, lane_zero, lane_ofLanes]
  rfl
theorem vceqz_f32 : Lift1 4 (lane 32) neon.vceqz_f32 f32.vceqz := by
  intro a k hk
  simp (disch := omega) only [neon.vceqz_f32, vceqq_f32, vdupq_n_f32, lane_map1, lane_map2, lane_and, lane_or, lane_xor, lane_not, lane_zero, lane_ofLanes]
  exact LL.fceqz f32 _
theorem vceqz_i8 : Lift1 16 (lane 8) neon.vceqz_i8 P.vceqz := by
  intro a k hk
  simp (disch := omega) only [neon.vceqz_i8, vceqq_s8, vdupq_n_s8, lane_map1, lane_map2, lane_and, lane_or, lane_xor, lane_not, lane_zero, lane_ofLanes]
  exact LL.cmpeqz _
theorem vceqz_i16 : Lift1 8 (lane 16) neon.vceqz_i16 P.vceqz := by
  intro a k hk
  simp (disch := omega) only [neon.vceqz_i16, vceqq_s16, vdupq_n_s16, lane_map1, lane_map2, lane_and, lane_or, lane_xor, lane_not, lane_zero, lane_ofLanes]
  exact LL.cmpeqz _
theorem vceqz_i32 : Lift1 4 (lane 32) neon.vceqz_i32 P.vceqz := by
  intro a k hk
  simp (disch := omega) only [neon.vceqz_i32, vceqq_s32, vdupq_n_s32, lane_map1, lane_map2, lane_and, lane_or, lane_xor, lane_not, lane_zero, lane_ofLanes]
  exact LL.cmpeqz _
theorem vceq_f32 : Lift2 4 (lane 32) neon.vceq_f32 f32.vceq := by
  intro a b k hk
  simp (disch := omega) only [neon.vceq_f32, vceqq_f32, lane_map1, lane_map2, lane_and, lane_or, lane_xor, lane_not, lane_zero, lane_ofLanes]
  exact LL.fceq f32 _ _
theorem vceq_i8 : Lift2 16 (lane 8) neon.vceq_i8 P.vceq := by
  intro a b k hk
  simp (disch := omega) only [neon.vceq_i8, vceqq_s8, lane_map1, lane_map2, lane_and, lane_or, lane_xor, lane_not, lane_zero, lane_ofLanes]
  exact LL.cmpeq _ _
theorem vceq_i16 : Lift2 8 (lane 16) neon.vceq_i16 P.vceq := by
  intro a b k hk
  simp (disch := omega) only [neon.vceq_i16, vceqq_s16, lane_map1, lane_map2, lane_and, lane_or, lane_xor, lane_not, lane_zero, lane_ofLanes]
  exact LL.cmpeq _ _
theorem vceq_i32 : Lift2 4 (lane 32) neon.vceq_i32 P.vceq := by
  intro a b k hk
  simp (disch := omega) only [neon.vceq_i32, vceqq_s32, lane_map1, lane_map2, lane_and, lane_or, lane_xor, lane_not, lane_zero, lane_ofLanes]
  exact LL.cmpeq _ _
theorem vcgtz_f32 : Lift1 4 (lane 32) neon.vcgtz_f32 f32.vcgtz := by
  intro a k hk
  simp (disch := omega) only [neon.vcgtz_f32, vcgtq_f32, vdupq_n_f32, lane_map1, lane_map2, lane_and, lane_or, lane_xor, lane_not, lane_zero, lane_ofLanes]
  exact LL.fcgtz f32 _
theorem vcgtz_i8 : Lift1 16 (lane 8) neon.vcgtz_i8 P.vcgtz := by
  intro a k hk
  simp (disch := omega) only [neon.vcgtz_i8, vcgtq_s8, vdupq_n_s8, lane_map1, lane_map2, lane_and, lane_or, lane_xor, lane_not, lane_zero, lane_ofLanes]
  exact LL.cmpgtz _
theorem vcgtz_i16 : Lift1 8 (lane 16) neon.vcgtz_i16 P.vcgtz := by
  intro a k hk
  simp (disch := omega) only [neon.vcgtz_i16, vcgtq_s16, vdupq_n_s16, lane_map1, lane_map2, lane_and, lane_or, lane_xor, lane_not, lane_zero, lane_ofLanes]
  exact LL.cmpgtz _
theorem vcgtz_i32 : Lift1 4 (lane 32) neon.vcgtz_i32 P.vcgtz := by
  intro a k hk
  simp (disch := omega) only [neon.vcgtz_i32, vcgtq_s32, vdupq_n_s32, lane_map1, lane_map2, lane_and, lane_or, lane_xor, lane_not, lane_zero, lane_ofLanes]
  exact LL.cmpgtz _
theorem vcltz_f32 : Lift1 4 (lane 32) neon.vcltz_f32 f32.vcltz := by
  intro a k hk
  simp (disch := omega) only [neon.vcltz_f32, vcltq_f32, vdupq_n_f32, lane_map1, lane_map2, lane_and, lane_or, lane_xor, lane_not, lane_zero, lane_ofLanes]
  exact LL.fcltz f32 _
theorem vcltz_i8 : Lift1 16 (lane 8) neon.vcltz_i8 P.vcltz := by
  intro a k hk
  simp (disch := omega) only [neon.vcltz_i8, vcltq_s8, vdupq_n_s8, lane_map1, lane_map2, lane_and, lane_or, lane_xor, lane_not, lane_zero, lane_ofLanes]
  exact LL.cmpltz _
theorem vcltz_i16 : Lift1 8 (lane 16) neon.vcltz_i16 P.vcltz := by
  intro a k hk
  simp (disch := omega) only [neon.vcltz_i16, vcltq_s16, vdupq_n_s16, lane_map1, lane_map2, lane_and, lane_or, lane_xor, lane_not, lane_zero, lane_ofLanes]
  exact LL.cmpltz _
theorem vcltz_i32 : Lift1 4 (lane 32) neon.vcltz_i32 P.vcltz := by
  intro a k hk
  simp (disch := omega) only [neon.vcltz_i32, vcltq_s32, vdupq_n_s32, lane_map1, lane_map2, lane_and, lane_or, lane_xor, lane_not, lane_zero, lane_ofLanes]
  exact LL.cmpltz _
theorem vclez_f32 : Lift1 4 (lane 32) neon.vclez_f32 f32.vclez := by
  intro a k hk
  simp (disch := omega) only [neon.vclez_f32, vcleq_f32, vdupq_n_f32, lane_map1, lane_map2, lane_and, lane_or, lane_xor, lane_not, lane_zero, lane_ofLanes]
  exact LL.fclez f32 _
theorem vclez_i8 : Lift1 16 (lane 8) neon.vclez_i8 P.vclez := by
  intro a k hk
  simp (disch := omega) only [neon.vclez_i8, vcleq_s8, vdupq_n_s8, lane_map1, lane_map2, lane_and, lane_or, lane_xor, lane_not, lane_zero, lane_ofLanes]
  exact LL.cmplez _
theorem vclez_i16 : Lift1 8 (lane 16) neon.vclez_i16 P.vclez := by
  intro a k hk
  simp (disch := omega) only [neon.vclez_i16, vcleq_s16, vdupq_n_s16, lane_map1, lane_map2, lane_and, lane_or, lane_xor, lane_not, lane_zero, lane_ofLanes]
  exact LL.cmplez _
theorem vclez_i32 : Lift1 4 (lane 32) neon.vclez_i32 P.vclez := by
  intro a k hk
  simp (disch := omega) only [neon.vclez_i32, vcleq_s32, vdupq_n_s32, lane_map1, lane_map2, lane_and, lane_or, lane_xor, lane_not, lane_zero, lane_ofLanes]
  exact LL.cmplez _
theorem vmin_f32 : LiftNum2 f32 4 (lane 32) neon.vmin_f32 f32.vmin := by
  intro a b k hk ha hn
  simp (disch := omega) only [neon.vmin_f32, vminq_f32, lane_map1, lane_map2, lane_and, lane_or, lane_xor, lane_not, lane_zero, lane_ofLanes]
  exact LL.fminN f32 (by decide) ha hn
theorem vmin_i8 : Lift2 16 (lane 8) neon.vmin_i8 P.vmin := by
  intro a b k hk
  simp (disch := omega) only [neon.vmin_i8, vminq_s8, lane_map1, lane_map2, lane_and, lane_or, lane_xor, lane_not, lane_zero, lane_ofLanes]
  exact LL.smin _ _
theorem vmin_i16 : Lift2 8 (lane 16) neon.vmin_i16 P.vmin := by
  intro a b k hk
  simp (disch := omega) only [neon.vmin_i16, vminq_s16, lane_map1, lane_map2, lane_and, lane_or, lane_xor, lane_not, lane_zero, lane_ofLanes]
  exact LL.smin _ _
theorem vmin_i32 : Lift2 4 (lane 32) neon.vmin_i32 P.vmin := by
  intro a b k hk
  simp (disch := omega) only [neon.vmin_i32, vminq_s32, lane_map1, lane_map2, lane_and, lane_or, lane_xor, lane_not, lane_zero, lane_ofLanes]
  exact LL.smin _ _
theorem vmax_f32 : LiftNum2 f32 4 (lane 32) neon.vmax_f32 f32.vmax := by
  intro a b k hk ha hn
  simp (disch := omega) only [neon.vmax_f32, vmaxq_f32, lane_map1, lane_map2, lane_and, lane_or, lane_xor, lane_not, lane_zero, lane_ofLanes]
  exact LL.fmaxN f32 (by decide) ha hn
theorem vmax_i8 : Lift2 16 (lane 8) neon.vmax_i8 P.vmax := by
  intro a b k hk
  simp (disch := omega) only [neon.vmax_i8, vmaxq_s8, lane_map1, lane_map2, lane_and, lane_or, lane_xor, lane_not, lane_zero, lane_ofLanes]
  exact LL.smax _ _
theorem vmax_i16 : Lift2 8 (lane 16) neon.vmax_i16 P.vmax := by
  intro a b k hk
  simp (disch := omega) only [neon.vmax_i16, vmaxq_s16, lane_map1, lane_map2, lane_and, lane_or, lane_xor, lane_not, lane_zero, lane_ofLanes]
  exact LL.smax _ _
theorem vmax_i32 : Lift2 4 (lane 32) neon.vmax_i32 P.vmax := by
  intro a b k hk
  simp (disch := omega) only [neon.vmax_i32, vmaxq_s32, lane_map1, lane_map2, lane_and, lane_or, lane_xor, lane_not, lane_zero, lane_ofLanes]
  exact LL.smax _ _
theorem vclamp_f32 : LiftClamp f32 4 (lane 32) neon.vclamp_f32 := by
  intro a b c k hk hx ha hn
  simp (disch := omega) only [neon.vclamp_f32, vdupq_n_f32, vmaxq_f32, vminq_f32, lane_map1, lane_map2, lane_and, lane_or, lane_xor, lane_not, lane_zero, lane_ofLanes]
  exact LL.fclampN f32 (by decide) hx ha hn
theorem vclamp_i8 : LiftS 16 (lane 8) neon.vclamp_i8 P.vclamp := by
  intro a b c k hk
  simp (disch := omega) only [neon.vclamp_i8, vdupq_n_s8, vmaxq_s8, vminq_s8, lane_map1, lane_map2, lane_and, lane_or, lane_xor, lane_not, lane_zero, lane_ofLanes]
  exact LL.sclamp _ _ _
theorem vclamp_i16 : LiftS 8 (lane 16) neon.vclamp_i16 P.vclamp := by
  intro a b c k hk
  simp (disch := omega) only [neon.vclamp_i16, vdupq_n_s16, vmaxq_s16, vminq_s16, lane_map1, lane_map2, lane_and, lane_or, lane_xor, lane_not, lane_zero, lane_ofLanes]
  exact LL.sclamp _ _ _
theorem vclamp_i32 : LiftS 4 (lane 32) neon.vclamp_i32 P.vclamp := by
  intro a b c k hk
  simp (disch := omega) only [neon.vclamp_i32, vdupq_n_s32, vmaxq_s32, vminq_s32, lane_map1, lane_map2, lane_and, lane_or, lane_xor, lane_not, lane_zero, lane_ofLanes]
  exact LL.sclamp _ _ _
theorem vshuf_u8_a64 : LiftShuf 16 (fun _ => True) (lane 8) (lane 8) neon.vshuf_u8_a64 := by
  intro a b k hk hj
  have e : (lane 8) (neon.vshuf_u8_a64 a b) k = LL.tb (lane 8 a) ((lane 8) b k) := by
    simp (disch := omega) only [neon.vshuf_u8_a64, vqtbl1q_u8, vw, regs_lt, Nat.reduceDiv, LL.lane_low, LL.lane_high, LL.lane_pshufb, LL.lane_tbl1, lane_map1, lane_map2, lane_and, lane_or, lane_xor, lane_not, lane_zero, lane_ofLanes]
  rw [e]; rfl
theorem vshuf_u8_a32 : LiftShuf 16 (fun _ => True) (lane 8) (lane 8) neon.vshuf_u8_a32 := by
  intro a b k hk hj
  have e : (lane 8) (neon.vshuf_u8_a32 a b) k = LL.tb (lane 8 a) (lane 8 b k) := by
    have h2 : k / 8 = 0 ∨ k / 8 = 1 := by omega
    simp (disch := omega) only [neon.vshuf_u8_a32, vcombine_u8, vget_high_u8, vget_low_u8, vtbl2_u8, LL.lane_big64]
    rcases h2 with h | h <;> rw [h]
    · rw [if_pos rfl, LL.lane_tbl2 _ _ (by omega), LL.lane_lane64 _ _ _ (by omega)]; congr 2; omega
    · rw [if_neg (by decide), LL.lane_tbl2 _ _ (by omega), LL.lane_lane64 _ _ _ (by omega)]; congr 2; omega
  rw [e]; rfl
theorem vshuf_i8_a64 : LiftShuf 16 (fun _ => True) (lane 8) (lane 8) neon.vshuf_i8_a64 := by
  intro a b k hk hj
  have e : (lane 8) (neon.vshuf_i8_a64 a b) k = LL.tb (lane 8 a) ((lane 8) b k) := by
    simp (disch := omega) only [neon.vshuf_i8_a64, vqtbl1q_s8, vw, regs_lt, Nat.reduceDiv, LL.lane_low, LL.lane_high, LL.lane_pshufb, LL.lane_tbl1, lane_map1, lane_map2, lane_and, lane_or, lane_xor, lane_not, lane_zero, lane_ofLanes]
  rw [e]; rfl
theorem vshuf_i8_a32 : LiftShuf 16 (fun _ => True) (lane 8) (lane 8) neon.vshuf_i8_a32 := by
  intro a b k hk hj
  have e : (lane 8) (neon.vshuf_i8_a32 a b) k = LL.tb (lane 8 a) (lane 8 b k) := by
    have h2 : k / 8 = 0 ∨ k / 8 = 1 := by omega
    simp (disch := omega) only [neon.vshuf_i8_a32, vcombine_s8, vget_high_s8, vget_low_s8, vtbl2_s8, LL.lane_big64]
    rcases h2 with h | h <;> rw [h]
    · rw [if_pos rfl, LL.lane_tbl2 _ _ (by omega), LL.lane_lane64 _ _ _ (by omega)]; congr 2; omega
    · rw [if_neg (by decide), LL.lane_tbl2 _ _ (by omega), LL.lane_lane64 _ _ _ (by omega)]; congr 2; omega
  rw [e]; rfl

end neon_ok
end Verif.SIMD
