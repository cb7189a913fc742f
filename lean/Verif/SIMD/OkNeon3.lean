import Verif.SIMD.Neon3
import Verif.SIMD.Spec
import Verif.SIMD.Shuf
/- neon_triple.hh, function by function (generated by tools/gen_simd.py). -/
namespace Verif.SIMD
namespace neon3_ok

theorem vreinterpret_u32_f32 : Lift1 12 (vw 128 32) neon3.vreinterpret_u32_f32 fun x => x := by
  intro a k hk
  simp (disch := omega) only [neon3.vreinterpret_u32_f32, vw, regs_lt, Nat.reduceDiv, lane_map1, lane_map2, lane_and, lane_or, lane_xor, lane_not, lane_zero, lane_ofLanes]
theorem vreinterpret_f32_u32 : Lift1 12 (vw 128 32) neon3.vreinterpret_f32_u32 fun x => x := by
  intro a k hk
  simp (disch := omega) only [neon3.vreinterpret_f32_u32, vw, regs_lt, Nat.reduceDiv, lane_map1, lane_map2, lane_and, lane_or, lane_xor, lane_not, lane_zero, lane_ofLanes]
theorem vreinterpret_u8_i8 : Lift1 48 (vw 128 8) neon3.vreinterpret_u8_i8 fun x => x := by
  intro a k hk
  simp (disch := omega) only [neon3.vreinterpret_u8_i8, vw, regs_lt, Nat.reduceDiv, lane_map1, lane_map2, lane_and, lane_or, lane_xor, lane_not, lane_zero, lane_ofLanes]
theorem vreinterpret_i8_u8 : Lift1 48 (vw 128 8) neon3.vreinterpret_i8_u8 fun x => x := by
  intro a k hk
  simp (disch := omega) only [neon3.vreinterpret_i8_u8, vw, regs_lt, Nat.reduceDiv, lane_map1, lane_map2, lane_and, lane_or, lane_xor, lane_not, lane_zero, lane_ofLanes]
theorem vreinterpret_u16_i16 : Lift1 24 (vw 128 16) neon3.vreinterpret_u16_i16 fun x => x := by
  intro a k hk
  simp (disch := omega) only [neon3.vreinterpret_u16_i16, vw, regs_lt, Nat.reduceDiv, lane_map1, lane_map2, lane_and, lane_or, lane_xor, lane_not, lane_zero, lane_ofLanes]
theorem vreinterpret_i16_u16 : Lift1 24 (vw 128 16) neon3.vreinterpret_i16_u16 fun x => x := by
  intro a k hk
  simp (disch := omega) only [neon3.vreinterpret_i16_u16, vw, regs_lt, Nat.reduceDiv, lane_map1, lane_map2, lane_and, lane_or, lane_xor, lane_not, lane_zero, lane_ofLanes]
theorem vreinterpret_u32_i32 : Lift1 12 (vw 128 32) neon3.vreinterpret_u32_i32 fun x => x := by
  intro a k hk
  simp (disch := omega) only [neon3.vreinterpret_u32_i32, vw, regs_lt, Nat.reduceDiv, lane_map1, lane_map2, lane_and, lane_or, lane_xor, lane_not, lane_zero, lane_ofLanes]
theorem vreinterpret_i32_u32 : Lift1 12 (vw 128 32) neon3.vreinterpret_i32_u32 fun x => x := by
  intro a k hk
  simp (disch := omega) only [neon3.vreinterpret_i32_u32, vw, regs_lt, Nat.reduceDiv, lane_map1, lane_map2, lane_and, lane_or, lane_xor, lane_not, lane_zero, lane_ofLanes]
theorem vdup_f32 : LiftDup 12 (vw 128 32) neon3.vdup_f32 := by
  intro a k hk
  simp (disch := omega) only [neon3.vdup_f32, vdupq_n_f32, vw, regs_lt, Nat.reduceDiv, lane_map1, lane_map2, lane_and, lane_or, lane_xor, lane_not, lane_zero, lane_ofLanes]
theorem vdup_i8 : LiftDup 48 (vw 128 8) neon3.vdup_i8 := by
  intro a k hk
  simp (disch := omega) only [neon3.vdup_i8, vdupq_n_s8, vw, regs_lt, Nat.reduceDiv, lane_map1, lane_map2, lane_and, lane_or, lane_xor, lane_not, lane_zero, lane_ofLanes]
theorem vdup_i16 : LiftDup 24 (vw 128 16) neon3.vdup_i16 := by
  intro a k hk
  simp (disch := omega) only [neon3.vdup_i16, vdupq_n_s16, vw, regs_lt, Nat.reduceDiv, lane_map1, lane_map2, lane_and, lane_or, lane_xor, lane_not, lane_zero, lane_ofLanes]
theorem vdup_i32 : LiftDup 12 (vw 128 32) neon3.vdup_i32 := by
  intro a k hk
  simp (disch := omega) only [neon3.vdup_i32, vdupq_n_s32, vw, regs_lt, Nat.reduceDiv, lane_map1, lane_map2, lane_and, lane_or, lane_xor, lane_not, lane_zero, lane_ofLanes]
theorem vdup_i64 : LiftDup 6 (vw 128 64) neon3.vdup_i64 := by
  intro a k hk
  simp (disch := omega) only [neon3.vdup_i64, vdupq_n_s64, vw, regs_lt, Nat.reduceDiv, lane_map1, lane_map2, lane_and, lane_or, lane_xor, lane_not, lane_zero, lane_ofLanes]
theorem vdup_u8 : LiftDup 48 (vw 128 8) neon3.vdup_u8 := by
  intro a k hk
  simp (disch := omega) only [neon3.vdup_u8, vdupq_n_u8, vw, regs_lt, Nat.reduceDiv, lane_map1, lane_map2, lane_and, lane_or, lane_xor, lane_not, lane_zero, lane_ofLanes]
theorem vdup_u16 : LiftDup 24 (vw 128 16) neon3.vdup_u16 := by
  intro a k hk
  simp (disch := omega) only [neon3.vdup_u16, vdupq_n_u16, vw, regs_lt, Nat.reduceDiv, lane_map1, lane_map2, lane_and, lane_or, lane_xor, lane_not, lane_zero, lane_ofLanes]
theorem vdup_u32 : LiftDup 12 (vw 128 32) neon3.vdup_u32 := by
  intro a k hk
  simp (disch := omega) only [neon3.vdup_u32, vdupq_n_u32, vw, regs_lt, Nat.reduceDiv, lane_map1, lane_map2, lane_and, lane_or, lane_xor, lane_not, lane_zero, lane_ofLanes]
theorem vdup_u64 : LiftDup 6 (vw 128 64) neon3.vdup_u64 := by
  intro a k hk
  simp (disch := omega) only [neon3.vdup_u64, vdupq_n_u64, vw, regs_lt, Nat.reduceDiv, lane_map1, lane_map2, lane_and, lane_or, lane_xor, lane_not, lane_zero, lane_ofLanes]
theorem vzero_f32 : ∀ tmp, Lift0 12 (vw 128 32) (neon3.vzero_f32 tmp) 0 := by
  intro tmp k hk
  simp (disch := omega) only [neon3.vzero_f32, veorq_u32, vw, regs_lt, Nat.reduceDiv, lane_map1, lane_map2, lane_and, lane_or, lane_xor, lane_not, lane_zero, lane_ofLanes]
  exact BitVec.xor_self
theorem vzero_i8 : ∀ tmp, Lift0 48 (vw 128 8) (neon3.vzero_i8 tmp) 0 := by
  intro tmp k hk
  simp (disch := omega) only [neon3.vzero_i8, veorq_s8, vw, regs_lt, Nat.reduceDiv, lane_map1, lane_map2, lane_and, lane_or, lane_xor, lane_not, lane_zero, lane_ofLanes]
  exact BitVec.xor_self
theorem vzero_i16 : ∀ tmp, Lift0 24 (vw 128 16) (neon3.vzero_i16 tmp) 0 := by
  intro tmp k hk
  simp (disch := omega) only [neon3.vzero_i16, veorq_s16, vw, regs_lt, Nat.reduceDiv, lane_map1, lane_map2, lane_and, lane_or, lane_xor, lane_not, lane_zero, lane_ofLanes]
  exact BitVec.xor_self
theorem vzero_i32 : ∀ tmp, Lift0 12 (vw 128 32) (neon3.vzero_i32 tmp) 0 := by
  intro tmp k hk
  simp (disch := omega) only [neon3.vzero_i32, veorq_s32, vw, regs_lt, Nat.reduceDiv, lane_map1, lane_map2, lane_and, lane_or, lane_xor, lane_not, lane_zero, lane_ofLanes]
  exact BitVec.xor_self
theorem vzero_i64 : ∀ tmp, Lift0 6 (vw 128 64) (neon3.vzero_i64 tmp) 0 := by
  intro tmp k hk
  simp (disch := omega) only [neon3.vzero_i64, veorq_s64, vw, regs_lt, Nat.reduceDiv, lane_map1, lane_map2, lane_and, lane_or, lane_xor, lane_not, lane_zero, lane_ofLanes]
  exact BitVec.xor_self
theorem vzero_u8 : ∀ tmp, Lift0 48 (vw 128 8) (neon3.vzero_u8 tmp) 0 := by
  intro tmp k hk
  simp (disch := omega) only [neon3.vzero_u8, veorq_u8, vw, regs_lt, Nat.reduceDiv, lane_map1, lane_map2, lane_and, lane_or, lane_xor, lane_not, lane_zero, lane_ofLanes]
  exact BitVec.xor_self
theorem vzero_u16 : ∀ tmp, Lift0 24 (vw 128 16) (neon3.vzero_u16 tmp) 0 := by
  intro tmp k hk
  simp (disch := omega) only [neon3.vzero_u16, veorq_u16, vw, regs_lt, Nat.reduceDiv, lane_map1, lane_map2, lane_and, lane_or, lane_xor, lane_not, lane_zero, lane_ofLanes]
  exact BitVec.xor_self
theorem vzero_u32 : ∀ tmp, Lift0 12 (vw 128 32) (neon3.vzero_u32 tmp) 0 := by
  intro tmp k hk
  simp (disch := omega) only [neon3.vzero_u32, veorq_u32, vw, regs_lt, Nat.reduceDiv, lane_map1, lane_map2, lane_and, lane_or, lane_xor, lane_not, lane_zero, lane_ofLanes]
  exact BitVec.xor_self
theorem vzero_u64 : ∀ tmp, Lift0 6 (vw 128 64) (neon3.vzero_u64 tmp) 0 := by
  intro tmp k hk
  simp (disch := omega) only [neon3.vzero_u64, veorq_u64, vw, regs_lt, Nat.reduceDiv, lane_map1, lane_map2, lane_and, lane_or, lane_xor, lane_not, lane_zero, lane_ofLanes]
  exact BitVec.xor_self
theorem vadd_f32 : ∀ A32 : Fpu 32, Lift2 12 (vw 128 32) (neon3.vadd_f32 A32) A32.add := by
  intro A a b k hk
  simp (disch := omega) only [neon3.vadd_f32, vaddq_f32, vw, regs_lt, Nat.reduceDiv, lane_map1, lane_map2, lane_and, lane_or, lane_xor, lane_not, lane_zero, lane_ofLanes]
theorem vadd_i8 : Lift2 48 (vw 128 8) neon3.vadd_i8 P.vadd := by
  intro a b k hk
  simp (disch := omega) only [neon3.vadd_i8, vaddq_s8, vw, regs_lt, Nat.reduceDiv, lane_map1, lane_map2, lane_and, lane_or, lane_xor, lane_not, lane_zero, lane_ofLanes]
  exact LL.add _ _
theorem vadd_i16 : Lift2 24 (vw 128 16) neon3.vadd_i16 P.vadd := by
  intro a b k hk
  simp (disch := omega) only [neon3.vadd_i16, vaddq_s16, vw, regs_lt, Nat.reduceDiv, lane_map1, lane_map2, lane_and, lane_or, lane_xor, lane_not, lane_zero, lane_ofLanes]
  exact LL.add _ _
theorem vadd_i32 : Lift2 12 (vw 128 32) neon3.vadd_i32 P.vadd := by
  intro a b k hk
  simp (disch := omega) only [neon3.vadd_i32, vaddq_s32, vw, regs_lt, Nat.reduceDiv, lane_map1, lane_map2, lane_and, lane_or, lane_xor, lane_not, lane_zero, lane_ofLanes]
  exact LL.add _ _
theorem vadd_i64 : Lift2 6 (vw 128 64) neon3.vadd_i64 P.vadd := by
  intro a b k hk
  simp (disch := omega) only [neon3.vadd_i64, vaddq_s64, vw, regs_lt, Nat.reduceDiv, lane_map1, lane_map2, lane_and, lane_or, lane_xor, lane_not, lane_zero, lane_ofLanes]
  exact LL.add _ _
theorem vqadd_i8 : Lift2 48 (vw 128 8) neon3.vqadd_i8 P.vqadd := by
  intro a b k hk
  simp (disch := omega) only [neon3.vqadd_i8, vqaddq_s8, vw, regs_lt, Nat.reduceDiv, lane_map1, lane_map2, lane_and, lane_or, lane_xor, lane_not, lane_zero, lane_ofLanes]
  exact LL.adds _ _
theorem vqadd_i16 : Lift2 24 (vw 128 16) neon3.vqadd_i16 P.vqadd := by
  intro a b k hk
  simp (disch := omega) only [neon3.vqadd_i16, vqaddq_s16, vw, regs_lt, Nat.reduceDiv, lane_map1, lane_map2, lane_and, lane_or, lane_xor, lane_not, lane_zero, lane_ofLanes]
  exact LL.adds _ _
theorem vsub_f32 : ∀ A32 : Fpu 32, Lift2 12 (vw 128 32) (neon3.vsub_f32 A32) A32.sub := by
  intro A a b k hk
  simp (disch := omega) only [neon3.vsub_f32, vsubq_f32, vw, regs_lt, Nat.reduceDiv, lane_map1, lane_map2, lane_and, lane_or, lane_xor, lane_not, lane_zero, lane_ofLanes]
theorem vsub_i8 : Lift2 48 (vw 128 8) neon3.vsub_i8 P.vsub := by
  intro a b k hk
  simp (disch := omega) only [neon3.vsub_i8, vsubq_s8, vw, regs_lt, Nat.reduceDiv, lane_map1, lane_map2, lane_and, lane_or, lane_xor, lane_not, lane_zero, lane_ofLanes]
  exact LL.sub _ _
theorem vsub_i16 : Lift2 24 (vw 128 16) neon3.vsub_i16 P.vsub := by
  intro a b k hk
  simp (disch := omega) only [neon3.vsub_i16, vsubq_s16, vw, regs_lt, Nat.reduceDiv, lane_map1, lane_map2, lane_and, lane_or, lane_xor, lane_not, lane_zero, lane_ofLanes]
  exact LL.sub _ _
theorem vsub_i32 : Lift2 12 (vw 128 32) neon3.vsub_i32 P.vsub := by
  intro a b k hk
  simp (disch := omega) only [neon3.vsub_i32, vsubq_s32, vw, regs_lt, Nat.reduceDiv, lane_map1, lane_map2, lane_and, lane_or, lane_xor, lane_not, lane_zero, lane_ofLanes]
  exact LL.sub _ _
theorem vsub_i64 : Lift2 6 (vw 128 64) neon3.vsub_i64 P.vsub := by
  intro a b k hk
  simp (disch := omega) only [neon3.vsub_i64, vsubq_s64, vw, regs_lt, Nat.reduceDiv, lane_map1, lane_map2, lane_and, lane_or, lane_xor, lane_not, lane_zero, lane_ofLanes]
  exact LL.sub _ _
theorem vqsub_i8 : Lift2 48 (vw 128 8) neon3.vqsub_i8 P.vqsub := by
  intro a b k hk
  simp (disch := omega) only [neon3.vqsub_i8, vqsubq_s8, vw, regs_lt, Nat.reduceDiv, lane_map1, lane_map2, lane_and, lane_or, lane_xor, lane_not, lane_zero, lane_ofLanes]
  exact LL.subs _ _
theorem vqsub_i16 : Lift2 24 (vw 128 16) neon3.vqsub_i16 P.vqsub := by
  intro a b k hk
  simp (disch := omega) only [neon3.vqsub_i16, vqsubq_s16, vw, regs_lt, Nat.reduceDiv, lane_map1, lane_map2, lane_and, lane_or, lane_xor, lane_not, lane_zero, lane_ofLanes]
  exact LL.subs _ _
theorem vqsub_u8 : Lift2 48 (vw 128 8) neon3.vqsub_u8 P.vqsubU := by
  intro a b k hk
  simp (disch := omega) only [neon3.vqsub_u8, vqsubq_u8, vw, regs_lt, Nat.reduceDiv, lane_map1, lane_map2, lane_and, lane_or, lane_xor, lane_not, lane_zero, lane_ofLanes]
  exact LL.subus _ _
theorem vqsub_u16 : Lift2 24 (vw 128 16) neon3.vqsub_u16 P.vqsubU := by
  intro a b k hk
  simp (disch := omega) only [neon3.vqsub_u16, vqsubq_u16, vw, regs_lt, Nat.reduceDiv, lane_map1, lane_map2, lane_and, lane_or, lane_xor, lane_not, lane_zero, lane_ofLanes]
  exact LL.subus _ _
theorem vmul_f32 : ∀ A32 : Fpu 32, Lift2 12 (vw 128 32) (neon3.vmul_f32 A32) A32.mul := by
  intro A a b k hk
  simp (disch := omega) only [neon3.vmul_f32, vmulq_f32, vw, regs_lt, Nat.reduceDiv, lane_map1, lane_map2, lane_and, lane_or, lane_xor, lane_not, lane_zero, lane_ofLanes]
theorem vmul_i8 : Lift2 48 (vw 128 8) neon3.vmul_i8 P.vmul := by
  intro a b k hk
  simp (disch := omega) only [neon3.vmul_i8, vmulq_s8, vw, regs_lt, Nat.reduceDiv, lane_map1, lane_map2, lane_and, lane_or, lane_xor, lane_not, lane_zero, lane_ofLanes]
  exact LL.mul _ _
theorem vabs_f32 : Lift1 12 (vw 128 32) neon3.vabs_f32 Fmt.vabs := by
  intro a k hk
  simp (disch := omega) only [neon3.vabs_f32, vabsq_f32, vw, regs_lt, Nat.reduceDiv, lane_map1, lane_map2, lane_and, lane_or, lane_xor, lane_not, lane_zero, lane_ofLanes]
  exact LL.fabsN _
theorem vqabs_i8 : Lift1 48 (vw 128 8) neon3.vqabs_i8 P.vqabs := by
  intro a k hk
  simp (disch := omega) only [neon3.vqabs_i8, vqabsq_s8, vw, regs_lt, Nat.reduceDiv, lane_map1, lane_map2, lane_and, lane_or, lane_xor, lane_not, lane_zero, lane_ofLanes]
  exact LL.sqabs (by decide) _
theorem vqabs_i16 : Lift1 24 (vw 128 16) neon3.vqabs_i16 P.vqabs := by
  intro a k hk
  simp (disch := omega) only [neon3.vqabs_i16, vqabsq_s16, vw, regs_lt, Nat.reduceDiv, lane_map1, lane_map2, lane_and, lane_or, lane_xor, lane_not, lane_zero, lane_ofLanes]
  exact LL.sqabs (by decide) _
theorem vsignum_f32 : LiftSignum f32 12 (vw 128 32) neon3.vsignum_f32 := by
  intro a k hk hn
  simp (disch := omega) only [neon3.vsignum_f32, vandq_u32, vbicq_u32, vceqq_f32, vdupq_n_f32, veorq_u32, vw, regs_lt, Nat.reduceDiv, lane_map1, lane_map2, lane_and, lane_or, lane_xor, lane_not, lane_zero, lane_ofLanes]
  exact LL.fsignumN f32 (by decide)  hn
theorem vsignum_i8 : Lift1 48 (vw 128 8) neon3.vsignum_i8 P.vsignum := by
  intro a k hk
  simp (disch := omega) only [neon3.vsignum_i8, vandq_u8, vcgtq_s8, vdupq_n_s8, vorrq_u8, vw, regs_lt, Nat.reduceDiv, lane_map1, lane_map2, lane_and, lane_or, lane_xor, lane_not, lane_zero, lane_ofLanes]
  exact LL.nsignum _
theorem vsign_f32 : LiftSign f32 12 (vw 128 32) neon3.vsign_f32 := by
  intro m hm a b k hk ha hn
  simp (disch := omega) only [neon3.vsign_f32, vandq_u32, vbicq_u32, vceqq_f32, vdupq_n_f32, veorq_u32, vw, regs_lt, Nat.reduceDiv, lane_map1, lane_map2, lane_and, lane_or, lane_xor, lane_not, lane_zero, lane_ofLanes]
  exact LL.fsignN f32 (by decide) hm ha hn
theorem vsign_i8 : Lift2 48 (vw 128 8) neon3.vsign_i8 P.vsign := by
  intro a b k hk
  simp (disch := omega) only [neon3.vsign_i8, vandq_u8, vcgtq_s8, vdupq_n_s8, vnegq_s8, vorrq_u8, vw, regs_lt, Nat.reduceDiv, lane_map1, lane_map2, lane_and, lane_or, lane_xor, lane_not, lane_zero, lane_ofLanes]
  exact LL.nsign _ _
theorem vcopysign_f32 : Lift2 12 (vw 128 32) neon3.vcopysign_f32 Fmt.vcopysign := by
  intro a b k hk
  simp (disch := omega) only [neon3.vcopysign_f32, vandq_u32, vbicq_u32, vdupq_n_f32, vorrq_u32, vw, regs_lt, Nat.reduceDiv, lane_map1, lane_map2, lane_and, lane_or, lane_xor, lane_not, lane_zero, lane_ofLanes]
  exact LL.fcopysignN _ _
theorem vorr_u8 : Lift2 48 (vw 128 8) neon3.vorr_u8 P.vorr := by
  intro a b k hk
  simp (disch := omega) only [neon3.vorr_u8, vorrq_u8, vw, regs_lt, Nat.reduceDiv, lane_map1, lane_map2, lane_and, lane_or, lane_xor, lane_not, lane_zero, lane_ofLanes]
  rfl
theorem vorr_u16 : Lift2 24 (vw 128 16) neon3.vorr_u16 P.vorr := by
  intro a b k hk
  simp (disch := omega) only [neon3.vorr_u16, vorrq_u16, vw, regs_lt, Nat.reduceDiv, lane_map1, lane_map2, lane_and, lane_or, lane_xor, lane_not, lane_zero, lane_ofLanes]
  rfl
theorem vorr_u32 : Lift2 12 (vw 128 32) neon3.vorr_u32 P.vorr := by
  intro a b k hk
  simp (disch := omega) only [neon3.vorr_u32, vorrq_u32, vw, regs_lt, Nat.reduceDiv, lane_map1, lane_map2, lane_and, lane_or, lane_xor, lane_not, lane_zero, lane_ofLanes]
  rfl
theorem vorr_u64 : Lift2 6 (vw 128 64) neon3.vorr_u64 P.vorr := by
  intro a b k hk
  simp (disch := omega) only [neon3.vorr_u64, vorrq_u64, vw, regs_lt, Nat.reduceDiv, lane_map1, lane_map2, lane_and, lane_or, lane_xor, lane_not, lane_zero, lane_ofLanes]
  rfl
theorem vand_u8 : Lift2 48 (vw 128 8) neon3.vand_u8 P.vand := by
  intro a b k hk
  simp (disch := omega) only [neon3.vand_u8, vandq_u8, vw, regs_lt, Nat.reduceDiv, lane_map1, lane_map2, lane_and, lane_or, lane_xor, lane_not, lane_zero, lane_ofLanes]
  rfl
theorem vand_u16 : Lift2 24 (vw 128 16) neon3.vand_u16 P.vand := by
  intro a b k hk
  simp (disch := omega) only [neon3.vand_u16, vandq_u16, vw, regs_lt, Nat.reduceDiv, lane_map1, lane_map2, lane_and, lane_or, lane_xor, lane_not, lane_zero, lane_ofLanes]
  rfl
theorem vand_u32 : Lift2 12 (vw 128 32) neon3.vand_u32 P.vand := by
  intro a b k hk
  simp (disch := omega) only [neon3.vand_u32, vandq_u32, vw, regs_lt, Nat.reduceDiv, lane_map1, lane_map2, lane_and, lane_or, lane_xor, lane_not, lane_zero, lane_ofLanes]
  rfl
theorem vand_u64 : Lift2 6 (vw 128 64) neon3.vand_u64 P.vand := by
  intro a b k hk
  simp (disch := omega) only [neon3.vand_u64, vandq_u64, vw, regs_lt, Nat.reduceDiv, lane_map1, lane_map2, lane_and, lane_or, lane_xor, lane_not, lane_zero, lane_ofLanes]
  rfl
theorem veor_u8 : Lift2 48 (vw 128 8) neon3.veor_u8 P.veor := by
  intro a b k hk
  simp (disch := omega) only [neon3.veor_u8, veorq_u8, vw, regs_lt, Nat.reduceDiv, lane_map1, lane_map2, lane_and, lane_or, lane_xor, lane_not, lane_zero, lane_ofLanes]
  rfl
theorem veor_u16 : Lift2 24 (vw 128 16) neon3.veor_u16 P.veor := by
  intro a b k hk
  simp (disch := omega) only [neon3.veor_u16, veorq_u16, vw, regs_lt, Nat.reduceDiv, lane_map1, lane_map2, lane_and, lane_or, lane_xor, lane_not, lane_zero, lane_ofLanes]
  rfl
theorem veor_u32 : Lift2 12 (vw 128 32) neon3.veor_u32 P.veor := by
  intro a b k hk
  simp (disch := omega) only [neon3.veor_u32, veorq_u32, vw, regs_lt, Nat.reduceDiv, lane_map1, lane_map2, lane_and, lane_or, lane_xor, lane_not, lane_zero, lane_ofLanes]
  rfl
theorem veor_u64 : Lift2 6 (vw 128 64) neon3.veor_u64 P.veor := by
  intro a b k hk
  simp (disch := omega) only [neon3.veor_u64, veorq_u64, vw, regs_lt, Nat.reduceDiv, lane_map1, lane_map2, lane_and, lane_or, lane_xor, lane_not, lane_zero, lane_ofLanes]
  rfl
theorem vbic_u8 : Lift2 48 (vw 128 8) neon3.vbic_u8 P.vbic := by
  intro a b k hk
  simp (disch := omega) only [neon3.vbic_u8, vbicq_u8, vw, regs_lt, Nat.reduceDiv, lane_map1, lane_map2, lane_and, lane_or, lane_xor, lane_not, lane_zero, lane_ofLanes]
  rfl
theorem vbic_u16 : Lift2 24 (vw 128 16) neon3.vbic_u16 P.vbic := by
  intro a b k hk
  simp (disch := omega) only [neon3.vbic_u16, vbicq_u16, vw, regs_lt, Nat.reduceDiv, lane_map1, lane_map2, lane_and, lane_or, lane_xor, lane_not, lane_zero, lane_ofLanes]
  rfl
theorem vbic_u32 : Lift2 12 (vw 128 32) neon3.vbic_u32 P.vbic := by
  intro a b k hk
  simp (disch := omega) only [neon3.vbic_u32, vbicq_u32, vw, regs_lt, Nat.reduceDiv, lane_map1, lane_map2, lane_and, lane_or, lane_xor, lane_not, lane_zero, lane_ofLanes]
  rfl
theorem vbic_u64 : Lift2 6 (vw 128 64) neon3.vbic_u64 P.vbic := by
  intro a b k hk
  simp (disch := omega) only [neon3.vbic_u64, vbicq_u64, vw, regs_lt, Nat.reduceDiv, lane_map1, lane_map2, lane_and, lane_or, lane_xor, lane_not, lane_zero, lane_ofLanes]
  rfl
theorem vbsl_u8 : Lift3 48 (vw 128 8) neon3.vbsl_u8 P.vbsl := by
  intro a b c k hk
  simp (disch := omega) only [neon3.vbsl_u8, vbslq_u8, vw, regs_lt, Nat.reduceDiv, lane_map1, lane_map2, lane_and, lane_or, lane_xor, lane_not, lane_zero, lane_ofLanes]
  rfl
theorem vbsl_u16 : Lift3 24 (vw 128 16) neon3.vbsl_u16 P.vbsl := by
  intro a b c k hk
  simp (disch := omega) only [neon3.vbsl_u16, vbslq_u16, vw, regs_lt, Nat.reduceDiv, lane_map1, lane_map2, lane_and, lane_or, lane_xor, lane_not, lane_zero, lane_ofLanes]
  rfl
theorem vbsl_u32 : Lift3 12 (vw 128 32) neon3.vbsl_u32 P.vbsl := by
  intro a b c k hk
  simp (disch := omega) only [neon3.vbsl_u32, vbslq_u32, vw, regs_lt, Nat.reduceDiv, lane_map1, lane_map2, lane_and, lane_or, lane_xor, lane_not, lane_zero, lane_ofLanes]
  rfl
theorem vbsl_u64 : Lift3 6 (vw 128 64) neon3.vbsl_u64 P.vbsl := by
  intro a b c k hk
  simp (disch := omega) only [neon3.vbsl_u64, vbslq_u64, vw, regs_lt, Nat.reduceDiv, lane_map1, lane_map2, lane_and, lane_or, lane_xor, lane_not, lane_zero, lane_ofLanes]
  rfl
theorem vceqz_f32 : Lift1 12 (vw 128 32) neon3.vceqz_f32 f32.vceqz := by
  intro a k hk
  simp (disch := omega) only [neon3.vceqz_f32, vceqq_f32, vdupq_n_f32, vw, regs_lt, Nat.reduceDiv, lane_map1, lane_map2, lane_and, lane_or, lane_xor, lane_not, lane_zero, lane_ofLanes]
  exact LL.fceqz f32 _
theorem vceqz_i8 : Lift1 48 (vw 128 8) neon3.vceqz_i8 P.vceqz := by
  intro a k hk
  simp (disch := omega) only [neon3.vceqz_i8, vceqq_s8, vdupq_n_s8, vw, regs_lt, Nat.reduceDiv, lane_map1, lane_map2, lane_and, lane_or, lane_xor, lane_not, lane_zero, lane_ofLanes]
  exact LL.cmpeqz _
theorem vceqz_i16 : Lift1 24 (vw 128 16) neon3.vceqz_i16 P.vceqz := by
  intro a k hk
  simp (disch := omega) only [neon3.vceqz_i16, vceqq_s16, vdupq_n_s16, vw, regs_lt, Nat.reduceDiv, lane_map1, lane_map2, lane_and, lane_or, lane_xor, lane_not, lane_zero, lane_ofLanes]
  exact LL.cmpeqz _
theorem vceqz_i32 : Lift1 12 (vw 128 32) neon3.vceqz_i32 P.vceqz := by
  intro a k hk
  simp (disch := omega) only [neon3.vceqz_i32, vceqq_s32, vdupq_n_s32, vw, regs_lt, Nat.reduceDiv, lane_map1, lane_map2, lane_and, lane_or, lane_xor, lane_not, lane_zero, lane_ofLanes]
  exact LL.cmpeqz _
theorem vceq_f32 : Lift2 12 (vw 128 32) neon3.vceq_f32 f32.vceq := by
  intro a b k hk
  simp (disch := omega) only [neon3.vceq_f32, vceqq_f32, vw, regs_lt, Nat.reduceDiv, lane_map1, lane_map2, lane_and, lane_or, lane_xor, lane_not, lane_zero, lane_ofLanes]
  exact LL.fceq f32 _ _
theorem vceq_i8 : Lift2 48 (vw 128 8) neon3.vceq_i8 P.vceq := by
  intro a b k hk
  simp (disch := omega) only [neon3.vceq_i8, vceqq_s8, vw, regs_lt, Nat.reduceDiv, lane_map1, lane_map2, lane_and, lane_or, lane_xor, lane_not, lane_zero, lane_ofLanes]
  exact LL.cmpeq _ _
theorem vceq_i16 : Lift2 24 (vw 128 16) neon3.vceq_i16 P.vceq := by
  intro a b k hk
  simp (disch := omega) only [neon3.vceq_i16, vceqq_s16, vw, regs_lt, Nat.reduceDiv, lane_map1, lane_map2, lane_and, lane_or, lane_xor, lane_not, lane_zero, lane_ofLanes]
  exact LL.cmpeq _ _
theorem vceq_i32 : Lift2 12 (vw 128 32) neon3.vceq_i32 P.vceq := by
  intro a b k hk
  simp (disch := omega) only [neon3.vceq_i32, vceqq_s32, vw, regs_lt, Nat.reduceDiv, lane_map1, lane_map2, lane_and, lane_or, lane_xor, lane_not, lane_zero, lane_ofLanes]
  exact LL.cmpeq _ _
theorem vcgtz_f32 : Lift1 12 (vw 128 32) neon3.vcgtz_f32 f32.vcgtz := by
  intro a k hk
  simp (disch := omega) only [neon3.vcgtz_f32, vcgtq_f32, vdupq_n_f32, vw, regs_lt, Nat.reduceDiv, lane_map1, lane_map2, lane_and, lane_or, lane_xor, lane_not, lane_zero, lane_ofLanes]
  exact LL.fcgtz f32 _
theorem vcgtz_i8 : Lift1 48 (vw 128 8) neon3.vcgtz_i8 P.vcgtz := by
  intro a k hk
  simp (disch := omega) only [neon3.vcgtz_i8, vcgtq_s8, vdupq_n_s8, vw, regs_lt, Nat.reduceDiv, lane_map1, lane_map2, lane_and, lane_or, lane_xor, lane_not, lane_zero, lane_ofLanes]
  exact LL.cmpgtz _
theorem vcgtz_i16 : Lift1 24 (vw 128 16) neon3.vcgtz_i16 P.vcgtz := by
  intro a k hk
  simp (disch := omega) only [neon3.vcgtz_i16, vcgtq_s16, vdupq_n_s16, vw, regs_lt, Nat.reduceDiv, lane_map1, lane_map2, lane_and, lane_or, lane_xor, lane_not, lane_zero, lane_ofLanes]
  exact LL.cmpgtz _
theorem vcgtz_i32 : Lift1 12 (vw 128 32) neon3.vcgtz_i32 P.vcgtz := by
  intro a k hk
  simp (disch := omega) only [neon3.vcgtz_i32, vcgtq_s32, vdupq_n_s32, vw, regs_lt, Nat.reduceDiv, lane_map1, lane_map2, lane_and, lane_or, lane_xor, lane_not, lane_zero, lane_ofLanes]
  exact LL.cmpgtz _
theorem vcltz_f32 : Lift1 12 (vw 128 32) neon3.vcltz_f32 f32.vcltz := by
  intro a k hk
  simp (disch := omega) only [neon3.vcltz_f32, vcltq_f32, vdupq_n_f32, vw, regs_lt, Nat.reduceDiv, lane_map1, lane_map2, lane_and, lane_or, lane_xor, lane_not, lane_zero, lane_ofLanes]
  exact LL.fcltz f32 _
theorem vcltz_i8 : Lift1 48 (vw 128 8) neon3.vcltz_i8 P.vcltz := by
  intro a k hk
  simp (disch := omega) only [neon3.vcltz_i8, vcltq_s8, vdupq_n_s8, vw, regs_lt, Nat.reduceDiv, lane_map1, lane_map2, lane_and, lane_or, lane_xor, lane_not, lane_zero, lane_ofLanes]
  exact LL.cmpltz _
theorem vcltz_i16 : Lift1 24 (vw 128 16) neon3.vcltz_i16 P.vcltz := by
  intro a k hk
  simp (disch := omega) only [neon3.vcltz_i16, vcltq_s16, vdupq_n_s16, vw, regs_lt, Nat.reduceDiv, lane_map1, lane_map2, lane_and, lane_or, lane_xor, lane_not, lane_zero, lane_ofLanes]
  exact LL.cmpltz _
theorem vcltz_i32 : Lift1 12 (vw 128 32) neon3.vcltz_i32 P.vcltz := by
  intro a k hk
  simp (disch := omega) only [neon3.vcltz_i32, vcltq_s32, vdupq_n_s32, vw, regs_lt, Nat.reduceDiv, lane_map1, lane_map2, lane_and, lane_or, lane_xor, lane_not, lane_zero, lane_ofLanes]
  exact LL.cmpltz _
theorem vclez_f32 : Lift1 12 (vw 128 32) neon3.vclez_f32 f32.vclez := by
  intro a k hk
  simp (disch := omega) only [neon3.vclez_f32, vcleq_f32, vdupq_n_f32, vw, regs_lt, Nat.reduceDiv, lane_map1, lane_map2, lane_and, lane_or, lane_xor, lane_not, lane_zero, lane_ofLanes]
  exact LL.fclez f32 _
theorem vclez_i8 : Lift1 48 (vw 128 8) neon3.vclez_i8 P.vclez := by
  intro a k hk
  simp (disch := omega) only [neon3.vclez_i8, vcleq_s8, vdupq_n_s8, vw, regs_lt, Nat.reduceDiv, lane_map1, lane_map2, lane_and, lane_or, lane_xor, lane_not, lane_zero, lane_ofLanes]
  exact LL.cmplez _
theorem vclez_i16 : Lift1 24 (vw 128 16) neon3.vclez_i16 P.vclez := by
  intro a k hk
  simp (disch := omega) only [neon3.vclez_i16, vcleq_s16, vdupq_n_s16, vw, regs_lt, Nat.reduceDiv, lane_map1, lane_map2, lane_and, lane_or, lane_xor, lane_not, lane_zero, lane_ofLanes]
  exact LL.cmplez _
theorem vclez_i32 : Lift1 12 (vw 128 32) neon3.vclez_i32 P.vclez := by
  intro a k hk
  simp (disch := omega) only [neon3.vclez_i32, vcleq_s32, vdupq_n_s32, vw, regs_lt, Nat.reduceDiv, lane_map1, lane_map2, lane_and, lane_or, lane_xor, lane_not, lane_zero, lane_ofLanes]
  exact LL.cmplez _
theorem vmin_f32 : LiftNum2 f32 12 (vw 128 32) neon3.vmin_f32 f32.vmin := by
  intro a b k hk ha hn
  simp (disch := omega) only [neon3.vmin_f32, vminq_f32, vw, regs_lt, Nat.reduceDiv, lane_map1, lane_map2, lane_and, lane_or, lane_xor, lane_not, lane_zero, lane_ofLanes]
  exact LL.fminN f32 (by decide) ha hn
theorem vmin_i8 : Lift2 48 (vw 128 8) neon3.vmin_i8 P.vmin := by
  intro a b k hk
  simp (disch := omega) only [neon3.vmin_i8, vminq_s8, vw, regs_lt, Nat.reduceDiv, lane_map1, lane_map2, lane_and, lane_or, lane_xor, lane_not, lane_zero, lane_ofLanes]
  exact LL.smin _ _
theorem vmin_i16 : Lift2 24 (vw 128 16) neon3.vmin_i16 P.vmin := by
  intro a b k hk
  simp (disch := omega) only [neon3.vmin_i16, vminq_s16, vw, regs_lt, Nat.reduceDiv, lane_map1, lane_map2, lane_and, lane_or, lane_xor, lane_not, lane_zero, lane_ofLanes]
  exact LL.smin _ _
theorem vmin_i32 : Lift2 12 (vw 128 32) neon3.vmin_i32 P.vmin := by
  intro a b k hk
  simp (disch := omega) only [neon3.vmin_i32, vminq_s32, vw, regs_lt, Nat.reduceDiv, lane_map1, lane_map2, lane_and, lane_or, lane_xor, lane_not, lane_zero, lane_ofLanes]
  exact LL.smin _ _
theorem vmax_f32 : LiftNum2 f32 12 (vw 128 32) neon3.vmax_f32 f32.vmax := by
  intro a b k hk ha hn
  simp (disch := omega) only [neon3.vmax_f32, vmaxq_f32, vw, regs_lt, Nat.reduceDiv, lane_map1, lane_map2, lane_and, lane_or, lane_xor, lane_not, lane_zero, lane_ofLanes]
  exact LL.fmaxN f32 (by decide) ha hn
theorem vmax_i8 : Lift2 48 (vw 128 8) neon3.vmax_i8 P.vmax := by
  intro a b k hk
  simp (disch := omega) only [neon3.vmax_i8, vmaxq_s8, vw, regs_lt, Nat.reduceDiv, lane_map1, lane_map2, lane_and, lane_or, lane_xor, lane_not, lane_zero, lane_ofLanes]
  exact LL.smax _ _
theorem vmax_i16 : Lift2 24 (vw 128 16) neon3.vmax_i16 P.vmax := by
  intro a b k hk
  simp (disch := omega) only [neon3.vmax_i16, vmaxq_s16, vw, regs_lt, Nat.reduceDiv, lane_map1, lane_map2, lane_and, lane_or, lane_xor, lane_not, lane_zero, lane_ofLanes]
  exact LL.smax _ _
theorem vmax_i32 : Lift2 12 (vw 128 32) neon3.vmax_i32 P.vmax := by
  intro a b k hk
  simp (disch := omega) only [neon3.vmax_i32, vmaxq_s32, vw, regs_lt, Nat.reduceDiv, lane_map1, lane_map2, lane_and, lane_or, lane_xor, lane_not, lane_zero, lane_ofLanes]
  exact LL.smax _ _
theorem vclamp_f32 : LiftClamp f32 12 (vw 128 32) neon3.vclamp_f32 := by
  intro a b c k hk hx ha hn
  simp (disch := omega) only [neon3.vclamp_f32, vdupq_n_f32, vmaxq_f32, vminq_f32, vw, regs_lt, Nat.reduceDiv, lane_map1, lane_map2, lane_and, lane_or, lane_xor, lane_not, lane_zero, lane_ofLanes]
  exact LL.fclampN f32 (by decide) hx ha hn
theorem vclamp_i8 : LiftS 48 (vw 128 8) neon3.vclamp_i8 P.vclamp := by
  intro a b c k hk
  simp (disch := omega) only [neon3.vclamp_i8, vdupq_n_s8, vmaxq_s8, vminq_s8, vw, regs_lt, Nat.reduceDiv, lane_map1, lane_map2, lane_and, lane_or, lane_xor, lane_not, lane_zero, lane_ofLanes]
  exact LL.sclamp _ _ _
theorem vclamp_i16 : LiftS 24 (vw 128 16) neon3.vclamp_i16 P.vclamp := by
  intro a b c k hk
  simp (disch := omega) only [neon3.vclamp_i16, vdupq_n_s16, vmaxq_s16, vminq_s16, vw, regs_lt, Nat.reduceDiv, lane_map1, lane_map2, lane_and, lane_or, lane_xor, lane_not, lane_zero, lane_ofLanes]
  exact LL.sclamp _ _ _
theorem vclamp_i32 : LiftS 12 (vw 128 32) neon3.vclamp_i32 P.vclamp := by
  intro a b c k hk
  simp (disch := omega) only [neon3.vclamp_i32, vdupq_n_s32, vmaxq_s32, vminq_s32, vw, regs_lt, Nat.reduceDiv, lane_map1, lane_map2, lane_and, lane_or, lane_xor, lane_not, lane_zero, lane_ofLanes]
  exact LL.sclamp _ _ _
theorem vshuf_u8 : LiftShuf 48 (fun _ => True) (vw 128 8) (vw 128 8) neon3.vshuf_u8 := by
  intro a b k hk hj
  have e : (vw 128 8) (neon3.vshuf_u8 a b) k = (LL.tb (lane 8 (a 0)) ((vw 128 8) b k) ||| LL.tb (lane 8 (a 1)) (((vw 128 8) b k) - 16)) ||| LL.tb (lane 8 (a 2)) (((vw 128 8) b k) - 32) := by
    simp (disch := omega) only [neon3.vshuf_u8, vdupq_n_u8, vorrq_u8, vqtbl1q_u8, vsubq_u8, vw, regs_lt, Nat.reduceDiv, LL.lane_low, LL.lane_high, LL.lane_pshufb, LL.lane_tbl1, lane_map1, lane_map2, lane_and, lane_or, lane_xor, lane_not, lane_zero, lane_ofLanes]
  rw [e, LL.combT3 (fun q => lane 8 (a q))]
  rfl
theorem vshuf_i8 : LiftShuf 48 (fun _ => True) (vw 128 8) (vw 128 8) neon3.vshuf_i8 := by
  intro a b k hk hj
  have e : (vw 128 8) (neon3.vshuf_i8 a b) k = (LL.tb (lane 8 (a 0)) ((vw 128 8) b k) ||| LL.tb (lane 8 (a 1)) (((vw 128 8) b k) - 16)) ||| LL.tb (lane 8 (a 2)) (((vw 128 8) b k) - 32) := by
    simp (disch := omega) only [neon3.vshuf_i8, vdupq_n_u8, vorrq_s8, vqtbl1q_s8, vsubq_u8, vw, regs_lt, Nat.reduceDiv, LL.lane_low, LL.lane_high, LL.lane_pshufb, LL.lane_tbl1, lane_map1, lane_map2, lane_and, lane_or, lane_xor, lane_not, lane_zero, lane_ofLanes]
  rw [e, LL.combT3 (fun q => lane 8 (a q))]
  rfl

end neon3_ok
end Verif.SIMD
