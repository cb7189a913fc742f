import Verif.SIMD.Sse
import Verif.SIMD.Spec
import Verif.SIMD.Shuf
/- sse4_1.hh, function by function (generated by tools/gen_simd.py). -/
namespace Verif.SIMD
namespace sse_ok

theorem vreinterpret_u32_f32 : Lift1 4 (lane 32) sse.vreinterpret_u32_f32 fun x => x := by
  intro a k hk
  simp (disch := omega) only [sse.vreinterpret_u32_f32, lane_map1, lane_map2, lane_and, lane_or, lane_xor, lane_not, lane_zero, lane_ofLanes]
theorem vreinterpret_f32_u32 : Lift1 4 (lane 32) sse.vreinterpret_f32_u32 fun x => x := by
  intro a k hk
  simp (disch := omega) only [sse.vreinterpret_f32_u32, lane_map1, lane_map2, lane_and, lane_or, lane_xor, lane_not, lane_zero, lane_ofLanes]
theorem vreinterpret_u64_f64 : Lift1 2 (lane 64) sse.vreinterpret_u64_f64 fun x => x := by
  intro a k hk
  simp (disch := omega) only [sse.vreinterpret_u64_f64, lane_map1, lane_map2, lane_and, lane_or, lane_xor, lane_not, lane_zero, lane_ofLanes]
theorem vreinterpret_f64_u64 : Lift1 2 (lane 64) sse.vreinterpret_f64_u64 fun x => x := by
  intro a k hk
  simp (disch := omega) only [sse.vreinterpret_f64_u64, lane_map1, lane_map2, lane_and, lane_or, lane_xor, lane_not, lane_zero, lane_ofLanes]
theorem vreinterpret_i8_u8 : Lift1 16 (lane 8) sse.vreinterpret_i8_u8 fun x => x := by
  intro a k hk
  simp (disch := omega) only [sse.vreinterpret_i8_u8, lane_map1, lane_map2, lane_and, lane_or, lane_xor, lane_not, lane_zero, lane_ofLanes]
theorem vreinterpret_u8_i8 : Lift1 16 (lane 8) sse.vreinterpret_u8_i8 fun x => x := by
  intro a k hk
  simp (disch := omega) only [sse.vreinterpret_u8_i8, lane_map1, lane_map2, lane_and, lane_or, lane_xor, lane_not, lane_zero, lane_ofLanes]
theorem vreinterpret_i16_u16 : Lift1 8 (lane 16) sse.vreinterpret_i16_u16 fun x => x := by
  intro a k hk
  simp (disch := omega) only [sse.vreinterpret_i16_u16, lane_map1, lane_map2, lane_and, lane_or, lane_xor, lane_not, lane_zero, lane_ofLanes]
theorem vreinterpret_u16_i16 : Lift1 8 (lane 16) sse.vreinterpret_u16_i16 fun x => x := by
  intro a k hk
  simp (disch := omega) only [sse.vreinterpret_u16_i16, lane_map1, lane_map2, lane_and, lane_or, lane_xor, lane_not, lane_zero, lane_ofLanes]
theorem vreinterpret_i32_u32 : Lift1 4 (lane 32) sse.vreinterpret_i32_u32 fun x => x := by
  intro a k hk
  simp (disch := omega) only [sse.vreinterpret_i32_u32, lane_map1, lane_map2, lane_and, lane_or, lane_xor, lane_not, lane_zero, lane_ofLanes]
theorem vreinterpret_u32_i32 : Lift1 4 (lane 32) sse.vreinterpret_u32_i32 fun x => x := by
  intro a k hk
  simp (disch := omega) only [sse.vreinterpret_u32_i32, lane_map1, lane_map2, lane_and, lane_or, lane_xor, lane_not, lane_zero, lane_ofLanes]
theorem vreinterpret_i64_u64 : Lift1 2 (lane 64) sse.vreinterpret_i64_u64 fun x => x := by
  intro a k hk
  simp (disch := omega) only [sse.vreinterpret_i64_u64, lane_map1, lane_map2, lane_and, lane_or, lane_xor, lane_not, lane_zero, lane_ofLanes]
theorem vreinterpret_u64_i64 : Lift1 2 (lane 64) sse.vreinterpret_u64_i64 fun x => x := by
  intro a k hk
  simp (disch := omega) only [sse.vreinterpret_u64_i64, lane_map1, lane_map2, lane_and, lane_or, lane_xor, lane_not, lane_zero, lane_ofLanes]
theorem vdup_f32 : LiftDup 4 (lane 32) sse.vdup_f32 := by
  intro a k hk
  simp (disch := omega) only [sse.vdup_f32, _mm_set1_ps, lane_map1, lane_map2, lane_and, lane_or, lane_xor, lane_not, lane_zero, lane_ofLanes]
theorem vdup_f64 : LiftDup 2 (lane 64) sse.vdup_f64 := by
  intro a k hk
  simp (disch := omega) only [sse.vdup_f64, _mm_set1_pd, lane_map1, lane_map2, lane_and, lane_or, lane_xor, lane_not, lane_zero, lane_ofLanes]
theorem vdup_i8 : LiftDup 16 (lane 8) sse.vdup_i8 := by
  intro a k hk
  simp (disch := omega) only [sse.vdup_i8, _mm_set1_epi8, lane_map1, lane_map2, lane_and, lane_or, lane_xor, lane_not, lane_zero, lane_ofLanes]
theorem vdup_i16 : LiftDup 8 (lane 16) sse.vdup_i16 := by
  intro a k hk
  simp (disch := omega) only [sse.vdup_i16, _mm_set1_epi16, lane_map1, lane_map2, lane_and, lane_or, lane_xor, lane_not, lane_zero, lane_ofLanes]
theorem vdup_i32 : LiftDup 4 (lane 32) sse.vdup_i32 := by
  intro a k hk
  simp (disch := omega) only [sse.vdup_i32, _mm_set1_epi32, lane_map1, lane_map2, lane_and, lane_or, lane_xor, lane_not, lane_zero, lane_ofLanes]
theorem vdup_i64 : LiftDup 2 (lane 64) sse.vdup_i64 := by
  intro a k hk
  simp (disch := omega) only [sse.vdup_i64, _mm_set1_epi64x, lane_map1, lane_map2, lane_and, lane_or, lane_xor, lane_not, lane_zero, lane_ofLanes]
theorem vzero_f32 : Lift0 4 (lane 32) sse.vzero_f32 0 := by
  intro k hk
  simp (disch := omega) only [sse.vzero_f32, _mm_setzero_ps, lane_map1, lane_map2, lane_and, lane_or, lane_xor, lane_not, lane_zero, lane_ofLanes]
theorem vzero_f64 : Lift0 2 (lane 64) sse.vzero_f64 0 := by
  intro k hk
  simp (disch := omega) only [sse.vzero_f64, _mm_setzero_pd, lane_map1, lane_map2, lane_and, lane_or, lane_xor, lane_not, lane_zero, lane_ofLanes]
theorem vzero_i8 : Lift0 16 (lane 8) sse.vzero_i8 0 := by
  intro k hk
  simp (disch := omega) only [sse.vzero_i8, _mm_setzero_si128, lane_map1, lane_map2, lane_and, lane_or, lane_xor, lane_not, lane_zero, lane_ofLanes]
theorem vzero_i16 : Lift0 8 (lane 16) sse.vzero_i16 0 := by
  intro k hk
  simp (disch := omega) only [sse.vzero_i16, _mm_setzero_si128, lane_map1, lane_map2, lane_and, lane_or, lane_xor, lane_not, lane_zero, lane_ofLanes]
theorem vzero_i32 : Lift0 4 (lane 32) sse.vzero_i32 0 := by
  intro k hk
  simp (disch := omega) only [sse.vzero_i32, _mm_setzero_si128, lane_map1, lane_map2, lane_and, lane_or, lane_xor, lane_not, lane_zero, lane_ofLanes]
theorem vzero_i64 : Lift0 2 (lane 64) sse.vzero_i64 0 := by
  intro k hk
  simp (disch := omega) only [sse.vzero_i64, _mm_setzero_si128, lane_map1, lane_map2, lane_and, lane_or, lane_xor, lane_not, lane_zero, lane_ofLanes]
theorem vadd_f32 : ∀ A32 : Fpu 32, Lift2 4 (lane 32) (sse.vadd_f32 A32) A32.add := by
  intro A a b k hk
  simp (disch := omega) only [sse.vadd_f32, _mm_add_ps, lane_map1, lane_map2, lane_and, lane_or, lane_xor, lane_not, lane_zero, lane_ofLanes]
theorem vadd_f64 : ∀ A64 : Fpu 64, Lift2 2 (lane 64) (sse.vadd_f64 A64) A64.add := by
  intro A a b k hk
  simp (disch := omega) only [sse.vadd_f64, _mm_add_pd, lane_map1, lane_map2, lane_and, lane_or, lane_xor, lane_not, lane_zero, lane_ofLanes]
theorem vadd_i8 : Lift2 16 (lane 8) sse.vadd_i8 P.vadd := by
  intro a b k hk
  simp (disch := omega) only [sse.vadd_i8, _mm_add_epi8, lane_map1, lane_map2, lane_and, lane_or, lane_xor, lane_not, lane_zero, lane_ofLanes]
  exact LL.add _ _
theorem vadd_i16 : Lift2 8 (lane 16) sse.vadd_i16 P.vadd := by
  intro a b k hk
  simp (disch := omega) only [sse.vadd_i16, _mm_add_epi16, lane_map1, lane_map2, lane_and, lane_or, lane_xor, lane_not, lane_zero, lane_ofLanes]
  exact LL.add _ _
theorem vadd_i32 : Lift2 4 (lane 32) sse.vadd_i32 P.vadd := by
  intro a b k hk
  simp (disch := omega) only [sse.vadd_i32, _mm_add_epi32, lane_map1, lane_map2, lane_and, lane_or, lane_xor, lane_not, lane_zero, lane_ofLanes]
  exact LL.add _ _
theorem vadd_i64 : Lift2 2 (lane 64) sse.vadd_i64 P.vadd := by
  intro a b k hk
  simp (disch := omega) only [sse.vadd_i64, _mm_add_epi64, lane_map1, lane_map2, lane_and, lane_or, lane_xor, lane_not, lane_zero, lane_ofLanes]
  exact LL.add _ _
theorem vqadd_i8 : Lift2 16 (lane 8) sse.vqadd_i8 P.vqadd := by
  intro a b k hk
  simp (disch := omega) only [sse.vqadd_i8, _mm_adds_epi8, lane_map1, lane_map2, lane_and, lane_or, lane_xor, lane_not, lane_zero, lane_ofLanes]
  exact LL.adds _ _
theorem vqadd_i16 : Lift2 8 (lane 16) sse.vqadd_i16 P.vqadd := by
  intro a b k hk
  simp (disch := omega) only [sse.vqadd_i16, _mm_adds_epi16, lane_map1, lane_map2, lane_and, lane_or, lane_xor, lane_not, lane_zero, lane_ofLanes]
  exact LL.adds _ _
theorem vsub_f32 : ∀ A32 : Fpu 32, Lift2 4 (lane 32) (sse.vsub_f32 A32) A32.sub := by
  intro A a b k hk
  simp (disch := omega) only [sse.vsub_f32, _mm_sub_ps, lane_map1, lane_map2, lane_and, lane_or, lane_xor, lane_not, lane_zero, lane_ofLanes]
theorem vsub_f64 : ∀ A64 : Fpu 64, Lift2 2 (lane 64) (sse.vsub_f64 A64) A64.sub := by
  intro A a b k hk
  simp (disch := omega) only [sse.vsub_f64, _mm_sub_pd, lane_map1, lane_map2, lane_and, lane_or, lane_xor, lane_not, lane_zero, lane_ofLanes]
theorem vsub_i8 : Lift2 16 (lane 8) sse.vsub_i8 P.vsub := by
  intro a b k hk
  simp (disch := omega) only [sse.vsub_i8, _mm_sub_epi8, lane_map1, lane_map2, lane_and, lane_or, lane_xor, lane_not, lane_zero, lane_ofLanes]
  exact LL.sub _ _
theorem vsub_i16 : Lift2 8 (lane 16) sse.vsub_i16 P.vsub := by
  intro a b k hk
  simp (disch := omega) only [sse.vsub_i16, _mm_sub_epi16, lane_map1, lane_map2, lane_and, lane_or, lane_xor, lane_not, lane_zero, lane_ofLanes]
  exact LL.sub _ _
theorem vsub_i32 : Lift2 4 (lane 32) sse.vsub_i32 P.vsub := by
  intro a b k hk
  simp (disch := omega) only [sse.vsub_i32, _mm_sub_epi32, lane_map1, lane_map2, lane_and, lane_or, lane_xor, lane_not, lane_zero, lane_ofLanes]
  exact LL.sub _ _
theorem vsub_i64 : Lift2 2 (lane 64) sse.vsub_i64 P.vsub := by
  intro a b k hk
  simp (disch := omega) only [sse.vsub_i64, _mm_sub_epi64, lane_map1, lane_map2, lane_and, lane_or, lane_xor, lane_not, lane_zero, lane_ofLanes]
  exact LL.sub _ _
theorem vqsub_i8 : Lift2 16 (lane 8) sse.vqsub_i8 P.vqsub := by
  intro a b k hk
  simp (disch := omega) only [sse.vqsub_i8, _mm_subs_epi8, lane_map1, lane_map2, lane_and, lane_or, lane_xor, lane_not, lane_zero, lane_ofLanes]
  exact LL.subs _ _
theorem vqsub_i16 : Lift2 8 (lane 16) sse.vqsub_i16 P.vqsub := by
  intro a b k hk
  simp (disch := omega) only [sse.vqsub_i16, _mm_subs_epi16, lane_map1, lane_map2, lane_and, lane_or, lane_xor, lane_not, lane_zero, lane_ofLanes]
  exact LL.subs _ _
theorem vqsub_u8 : Lift2 16 (lane 8) sse.vqsub_u8 P.vqsubU := by
  intro a b k hk
  simp (disch := omega) only [sse.vqsub_u8, _mm_subs_epu8, lane_map1, lane_map2, lane_and, lane_or, lane_xor, lane_not, lane_zero, lane_ofLanes]
  exact LL.subus _ _
theorem vqsub_u16 : Lift2 8 (lane 16) sse.vqsub_u16 P.vqsubU := by
  intro a b k hk
  simp (disch := omega) only [sse.vqsub_u16, _mm_subs_epu16, lane_map1, lane_map2, lane_and, lane_or, lane_xor, lane_not, lane_zero, lane_ofLanes]
  exact LL.subus _ _
theorem vmul_f32 : ∀ A32 : Fpu 32, Lift2 4 (lane 32) (sse.vmul_f32 A32) A32.mul := by
  intro A a b k hk
  simp (disch := omega) only [sse.vmul_f32, _mm_mul_ps, lane_map1, lane_map2, lane_and, lane_or, lane_xor, lane_not, lane_zero, lane_ofLanes]
theorem vmul_f64 : ∀ A64 : Fpu 64, Lift2 2 (lane 64) (sse.vmul_f64 A64) A64.mul := by
  intro A a b k hk
  simp (disch := omega) only [sse.vmul_f64, _mm_mul_pd, lane_map1, lane_map2, lane_and, lane_or, lane_xor, lane_not, lane_zero, lane_ofLanes]
theorem vabs_f32 : Lift1 4 (lane 32) sse.vabs_f32 Fmt.vabs := by
  intro a k hk
  simp (disch := omega) only [sse.vabs_f32, _mm_andnot_ps, _mm_set1_ps, lane_map1, lane_map2, lane_and, lane_or, lane_xor, lane_not, lane_zero, lane_ofLanes]
  exact LL.fabs _
theorem vabs_f64 : Lift1 2 (lane 64) sse.vabs_f64 Fmt.vabs := by
  intro a k hk
  simp (disch := omega) only [sse.vabs_f64, _mm_andnot_pd, _mm_set1_pd, lane_map1, lane_map2, lane_and, lane_or, lane_xor, lane_not, lane_zero, lane_ofLanes]
  exact LL.fabs _
theorem vqabs_i8 : Lift1 16 (lane 8) sse.vqabs_i8 P.vqabs := by
  intro a k hk
  simp (disch := omega) only [sse.vqabs_i8, _mm_abs_epi8, _mm_max_epi8, _mm_set1_epi8, lane_map1, lane_map2, lane_and, lane_or, lane_xor, lane_not, lane_zero, lane_ofLanes]
  exact LL.qabs (by decide) (by decide) _
theorem vqabs_i16 : Lift1 8 (lane 16) sse.vqabs_i16 P.vqabs := by
  intro a k hk
  simp (disch := omega) only [sse.vqabs_i16, _mm_abs_epi16, _mm_max_epi16, _mm_set1_epi16, lane_map1, lane_map2, lane_and, lane_or, lane_xor, lane_not, lane_zero, lane_ofLanes]
  exact LL.qabs (by decide) (by decide) _
theorem vqabs_i32 : Lift1 4 (lane 32) sse.vqabs_i32 P.vqabs := by
  intro a k hk
  simp (disch := omega) only [sse.vqabs_i32, _mm_abs_epi32, _mm_max_epi32, _mm_set1_epi32, lane_map1, lane_map2, lane_and, lane_or, lane_xor, lane_not, lane_zero, lane_ofLanes]
  exact LL.qabs (by decide) (by decide) _
theorem vsignum_f32 : LiftSignum f32 4 (lane 32) sse.vsignum_f32 := by
  intro a k hk hn
  simp (disch := omega) only [sse.vsignum_f32, _mm_and_ps, _mm_andnot_ps, _mm_cmpeq_ps, _mm_or_ps, _mm_set1_ps, _mm_setzero_ps, lane_map1, lane_map2, lane_and, lane_or, lane_xor, lane_not, lane_zero, lane_ofLanes]
  exact LL.fsignum f32 (by decide) LL.one32 hn
theorem vsignum_f64 : LiftSignum f64 2 (lane 64) sse.vsignum_f64 := by
  intro a k hk hn
  simp (disch := omega) only [sse.vsignum_f64, _mm_and_pd, _mm_andnot_pd, _mm_cmpeq_pd, _mm_or_pd, _mm_set1_pd, _mm_setzero_pd, lane_map1, lane_map2, lane_and, lane_or, lane_xor, lane_not, lane_zero, lane_ofLanes]
  exact LL.fsignum f64 (by decide) LL.one64 hn
theorem vsignum_i8 : Lift1 16 (lane 8) sse.vsignum_i8 P.vsignum := by
  intro a k hk
  simp (disch := omega) only [sse.vsignum_i8, _mm_set1_epi8, _mm_sign_epi8, lane_map1, lane_map2, lane_and, lane_or, lane_xor, lane_not, lane_zero, lane_ofLanes]
  exact LL.signum _
theorem vsignum_i16 : Lift1 8 (lane 16) sse.vsignum_i16 P.vsignum := by
  intro a k hk
  simp (disch := omega) only [sse.vsignum_i16, _mm_set1_epi16, _mm_sign_epi16, lane_map1, lane_map2, lane_and, lane_or, lane_xor, lane_not, lane_zero, lane_ofLanes]
  exact LL.signum _
theorem vsignum_i32 : Lift1 4 (lane 32) sse.vsignum_i32 P.vsignum := by
  intro a k hk
  simp (disch := omega) only [sse.vsignum_i32, _mm_set1_epi32, _mm_sign_epi32, lane_map1, lane_map2, lane_and, lane_or, lane_xor, lane_not, lane_zero, lane_ofLanes]
  exact LL.signum _
theorem vsign_f32 : LiftSign f32 4 (lane 32) sse.vsign_f32 := by
  intro m hm a b k hk ha hn
  simp (disch := omega) only [sse.vsign_f32, _mm_and_ps, _mm_andnot_ps, _mm_cmpeq_ps, _mm_set1_ps, _mm_setzero_ps, _mm_xor_ps, lane_map1, lane_map2, lane_and, lane_or, lane_xor, lane_not, lane_zero, lane_ofLanes]
  exact LL.fsign f32 (by decide) hm ha hn
theorem vsign_f64 : LiftSign f64 2 (lane 64) sse.vsign_f64 := by
  intro m hm a b k hk ha hn
  simp (disch := omega) only [sse.vsign_f64, _mm_and_pd, _mm_andnot_pd, _mm_cmpeq_pd, _mm_set1_pd, _mm_setzero_pd, _mm_xor_pd, lane_map1, lane_map2, lane_and, lane_or, lane_xor, lane_not, lane_zero, lane_ofLanes]
  exact LL.fsign f64 (by decide) hm ha hn
theorem vsign_i8 : Lift2 16 (lane 8) sse.vsign_i8 P.vsign := by
  intro a b k hk
  simp (disch := omega) only [sse.vsign_i8, _mm_sign_epi8, lane_map1, lane_map2, lane_and, lane_or, lane_xor, lane_not, lane_zero, lane_ofLanes]
  exact LL.sign _ _
theorem vsign_i16 : Lift2 8 (lane 16) sse.vsign_i16 P.vsign := by
  intro a b k hk
  simp (disch := omega) only [sse.vsign_i16, _mm_sign_epi16, lane_map1, lane_map2, lane_and, lane_or, lane_xor, lane_not, lane_zero, lane_ofLanes]
  exact LL.sign _ _
theorem vsign_i32 : Lift2 4 (lane 32) sse.vsign_i32 P.vsign := by
  intro a b k hk
  simp (disch := omega) only [sse.vsign_i32, _mm_sign_epi32, lane_map1, lane_map2, lane_and, lane_or, lane_xor, lane_not, lane_zero, lane_ofLanes]
  exact LL.sign _ _
theorem vcopysign_f32 : Lift2 4 (lane 32) sse.vcopysign_f32 Fmt.vcopysign := by
  intro a b k hk
  simp (disch := omega) only [sse.vcopysign_f32, _mm_and_ps, _mm_andnot_ps, _mm_or_ps, _mm_set1_ps, lane_map1, lane_map2, lane_and, lane_or, lane_xor, lane_not, lane_zero, lane_ofLanes]
  exact LL.fcopysign _ _
theorem vcopysign_f64 : Lift2 2 (lane 64) sse.vcopysign_f64 Fmt.vcopysign := by
  intro a b k hk
  simp (disch := omega) only [sse.vcopysign_f64, _mm_and_pd, _mm_andnot_pd, _mm_or_pd, _mm_set1_pd, lane_map1, lane_map2, lane_and, lane_or, lane_xor, lane_not, lane_zero, lane_ofLanes]
  exact LL.fcopysign _ _
theorem vorr_u8 : Lift2 16 (lane 8) sse.vorr_u8 P.vorr := by
  intro a b k hk
  simp (disch := omega) only [sse.vorr_u8, _mm_or_si128, lane_map1, lane_map2, lane_and, lane_or, lane_xor, lane_not, lane_zero, lane_ofLanes]
  rfl
theorem vorr_u16 : Lift2 8 (lane 16) sse.vorr_u16 P.vorr := by
  intro a b k hk
  simp (disch := omega) only [sse.vorr_u16, _mm_or_si128, lane_map1, lane_map2, lane_and, lane_or, lane_xor, lane_not, lane_zero, lane_ofLanes]
  rfl
theorem vorr_u32 : Lift2 4 (lane 32) sse.vorr_u32 P.vorr := by
  intro a b k hk
  simp (disch := omega) only [sse.vorr_u32, _mm_or_si128, lane_map1, lane_map2, lane_and, lane_or, lane_xor, lane_not, lane_zero, lane_ofLanes]
  rfl
theorem vorr_u64 : Lift2 2 (lane 64) sse.vorr_u64 P.vorr := by
  intro a b k hk
  simp (disch := omega) only [sse.vorr_u64, _mm_or_si128, lane_map1, lane_map2, lane_and, lane_or, lane_xor, lane_not, lane_zero, lane_ofLanes]
  rfl
theorem vand_u8 : Lift2 16 (lane 8) sse.vand_u8 P.vand := by
  intro a b k hk
  simp (disch := omega) only [sse.vand_u8, _mm_and_si128, lane_map1, lane_map2, lane_and, lane_or, lane_xor, lane_not, lane_zero, lane_ofLanes]
  rfl
theorem vand_u16 : Lift2 8 (lane 16) sse.vand_u16 P.vand := by
  intro a b k hk
  simp (disch := omega) only [sse.vand_u16, _mm_and_si128, lane_map1, lane_map2, lane_and, lane_or, lane_xor, lane_not, lane_zero, lane_ofLanes]
  rfl
theorem vand_u32 : Lift2 4 (lane 32) sse.vand_u32 P.vand := by
  intro a b k hk
  simp (disch := omega) only [sse.vand_u32, _mm_and_si128, lane_map1, lane_map2, lane_and, lane_or, lane_xor, lane_not, lane_zero, lane_ofLanes]
  rfl
theorem vand_u64 : Lift2 2 (lane 64) sse.vand_u64 P.vand := by
  intro a b k hk
  simp (disch := omega) only [sse.vand_u64, _mm_and_si128, lane_map1, lane_map2, lane_and, lane_or, lane_xor, lane_not, lane_zero, lane_ofLanes]
  rfl
theorem veor_u8 : Lift2 16 (lane 8) sse.veor_u8 P.veor := by
  intro a b k hk
  simp (disch := omega) only [sse.veor_u8, _mm_xor_si128, lane_map1, lane_map2, lane_and, lane_or, lane_xor, lane_not, lane_zero, lane_ofLanes]
  rfl
theorem veor_u16 : Lift2 8 (lane 16) sse.veor_u16 P.veor := by
  intro a b k hk
  simp (disch := omega) only [sse.veor_u16, _mm_xor_si128, lane_map1, lane_map2, lane_and, lane_or, lane_xor, lane_not, lane_zero, lane_ofLanes]
  rfl
theorem veor_u32 : Lift2 4 (lane 32) sse.veor_u32 P.veor := by
  intro a b k hk
  simp (disch := omega) only [sse.veor_u32, _mm_xor_si128, lane_map1, lane_map2, lane_and, lane_or, lane_xor, lane_not, lane_zero, lane_ofLanes]
  rfl
theorem veor_u64 : Lift2 2 (lane 64) sse.veor_u64 P.veor := by
  intro a b k hk
  simp (disch := omega) only [sse.veor_u64, _mm_xor_si128, lane_map1, lane_map2, lane_and, lane_or, lane_xor, lane_not, lane_zero, lane_ofLanes]
  rfl
theorem vbic_u8 : Lift2 16 (lane 8) sse.vbic_u8 P.vbic := by
  intro a b k hk
  simp (disch := omega) only [sse.vbic_u8, _mm_andnot_si128, lane_map1, lane_map2, lane_and, lane_or, lane_xor, lane_not, lane_zero, lane_ofLanes]
  exact LL.bic _ _
theorem vbic_u16 : Lift2 8 (lane 16) sse.vbic_u16 P.vbic := by
  intro a b k hk
  simp (disch := omega) only [sse.vbic_u16, _mm_andnot_si128, lane_map1, lane_map2, lane_and, lane_or, lane_xor, lane_not, lane_zero, lane_ofLanes]
  exact LL.bic _ _
theorem vbic_u32 : Lift2 4 (lane 32) sse.vbic_u32 P.vbic := by
  intro a b k hk
  simp (disch := omega) only [sse.vbic_u32, _mm_andnot_si128, lane_map1, lane_map2, lane_and, lane_or, lane_xor, lane_not, lane_zero, lane_ofLanes]
  exact LL.bic _ _
theorem vbic_u64 : Lift2 2 (lane 64) sse.vbic_u64 P.vbic := by
  intro a b k hk
  simp (disch := omega) only [sse.vbic_u64, _mm_andnot_si128, lane_map1, lane_map2, lane_and, lane_or, lane_xor, lane_not, lane_zero, lane_ofLanes]
  exact LL.bic _ _
theorem vbsl_u8 : Lift3 16 (lane 8) sse.vbsl_u8 P.vbsl := by
  intro a b c k hk
  simp (disch := omega) only [sse.vbsl_u8, _mm_and_si128, _mm_andnot_si128, _mm_or_si128, lane_map1, lane_map2, lane_and, lane_or, lane_xor, lane_not, lane_zero, lane_ofLanes]
  rfl
theorem vbsl_u16 : Lift3 8 (lane 16) sse.vbsl_u16 P.vbsl := by
  intro a b c k hk
  simp (disch := omega) only [sse.vbsl_u16, _mm_and_si128, _mm_andnot_si128, _mm_or_si128, lane_map1, lane_map2, lane_and, lane_or, lane_xor, lane_not, lane_zero, lane_ofLanes]
  rfl
theorem vbsl_u32 : Lift3 4 (lane 32) sse.vbsl_u32 P.vbsl := by
  intro a b c k hk
  simp (disch := omega) only [sse.vbsl_u32, _mm_and_si128, _mm_andnot_si128, _mm_or_si128, lane_map1, lane_map2, lane_and, lane_or, lane_xor, lane_not, lane_zero, lane_ofLanes]
  rfl
theorem vbsl_u64 : Lift3 2 (lane 64) sse.vbsl_u64 P.vbsl := by
  intro a b c k hk
  simp (disch := omega) only [sse.vbsl_u64, _mm_and_si128, _mm_andnot_si128, _mm_or_si128, lane_map1, lane_map2, lane_and, lane_or, lane_xor, lane_not, lane_zero, lane_ofLanes]
  rfl
theorem vceqz_f32 : Lift1 4 (lane 32) sse.vceqz_f32 f32.vceqz := by
  intro a k hk
  simp (disch := omega) only [sse.vceqz_f32, _mm_cmpeq_ps, _mm_setzero_ps, lane_map1, lane_map2, lane_and, lane_or, lane_xor, lane_not, lane_zero, lane_ofLanes]
  exact LL.fceqz f32 _
theorem vceqz_f64 : Lift1 2 (lane 64) sse.vceqz_f64 f64.vceqz := by
  intro a k hk
  simp (disch := omega) only [sse.vceqz_f64, _mm_cmpeq_pd, _mm_setzero_pd, lane_map1, lane_map2, lane_and, lane_or, lane_xor, lane_not, lane_zero, lane_ofLanes]
  exact LL.fceqz f64 _
theorem vceqz_i8 : Lift1 16 (lane 8) sse.vceqz_i8 P.vceqz := by
  intro a k hk
  simp (disch := omega) only [sse.vceqz_i8, _mm_cmpeq_epi8, _mm_setzero_si128, lane_map1, lane_map2, lane_and, lane_or, lane_xor, lane_not, lane_zero, lane_ofLanes]
  exact LL.cmpeqz _
theorem vceqz_i16 : Lift1 8 (lane 16) sse.vceqz_i16 P.vceqz := by
  intro a k hk
  simp (disch := omega) only [sse.vceqz_i16, _mm_cmpeq_epi16, _mm_setzero_si128, lane_map1, lane_map2, lane_and, lane_or, lane_xor, lane_not, lane_zero, lane_ofLanes]
  exact LL.cmpeqz _
theorem vceqz_i32 : Lift1 4 (lane 32) sse.vceqz_i32 P.vceqz := by
  intro a k hk
  simp (disch := omega) only [sse.vceqz_i32, _mm_cmpeq_epi32, _mm_setzero_si128, lane_map1, lane_map2, lane_and, lane_or, lane_xor, lane_not, lane_zero, lane_ofLanes]
  exact LL.cmpeqz _
theorem vceqz_i64 : Lift1 2 (lane 64) sse.vceqz_i64 P.vceqz := by
  intro a k hk
  simp (disch := omega) only [sse.vceqz_i64, _mm_cmpeq_epi64, _mm_setzero_si128, lane_map1, lane_map2, lane_and, lane_or, lane_xor, lane_not, lane_zero, lane_ofLanes]
  exact LL.cmpeqz _
theorem vceq_f32 : Lift2 4 (lane 32) sse.vceq_f32 f32.vceq := by
  intro a b k hk
  simp (disch := omega) only [sse.vceq_f32, _mm_cmpeq_ps, lane_map1, lane_map2, lane_and, lane_or, lane_xor, lane_not, lane_zero, lane_ofLanes]
  exact LL.fceq f32 _ _
theorem vceq_f64 : Lift2 2 (lane 64) sse.vceq_f64 f64.vceq := by
  intro a b k hk
  simp (disch := omega) only [sse.vceq_f64, _mm_cmpeq_pd, lane_map1, lane_map2, lane_and, lane_or, lane_xor, lane_not, lane_zero, lane_ofLanes]
  exact LL.fceq f64 _ _
theorem vceq_i8 : Lift2 16 (lane 8) sse.vceq_i8 P.vceq := by
  intro a b k hk
  simp (disch := omega) only [sse.vceq_i8, _mm_cmpeq_epi8, lane_map1, lane_map2, lane_and, lane_or, lane_xor, lane_not, lane_zero, lane_ofLanes]
  exact LL.cmpeq _ _
theorem vceq_i16 : Lift2 8 (lane 16) sse.vceq_i16 P.vceq := by
  intro a b k hk
  simp (disch := omega) only [sse.vceq_i16, _mm_cmpeq_epi16, lane_map1, lane_map2, lane_and, lane_or, lane_xor, lane_not, lane_zero, lane_ofLanes]
  exact LL.cmpeq _ _
theorem vceq_i32 : Lift2 4 (lane 32) sse.vceq_i32 P.vceq := by
  intro a b k hk
  simp (disch := omega) only [sse.vceq_i32, _mm_cmpeq_epi32, lane_map1, lane_map2, lane_and, lane_or, lane_xor, lane_not, lane_zero, lane_ofLanes]
  exact LL.cmpeq _ _
theorem vceq_i64 : Lift2 2 (lane 64) sse.vceq_i64 P.vceq := by
  intro a b k hk
  simp (disch := omega) only [sse.vceq_i64, _mm_cmpeq_epi64, lane_map1, lane_map2, lane_and, lane_or, lane_xor, lane_not, lane_zero, lane_ofLanes]
  exact LL.cmpeq _ _
theorem vcgtz_f32 : Lift1 4 (lane 32) sse.vcgtz_f32 f32.vcgtz := by
  intro a k hk
  simp (disch := omega) only [sse.vcgtz_f32, _mm_cmpgt_ps, _mm_setzero_ps, lane_map1, lane_map2, lane_and, lane_or, lane_xor, lane_not, lane_zero, lane_ofLanes]
  exact LL.fcgtz f32 _
theorem vcgtz_f64 : Lift1 2 (lane 64) sse.vcgtz_f64 f64.vcgtz := by
  intro a k hk
  simp (disch := omega) only [sse.vcgtz_f64, _mm_cmpgt_pd, _mm_setzero_pd, lane_map1, lane_map2, lane_and, lane_or, lane_xor, lane_not, lane_zero, lane_ofLanes]
  exact LL.fcgtz f64 _
theorem vcgtz_i8 : Lift1 16 (lane 8) sse.vcgtz_i8 P.vcgtz := by
  intro a k hk
  simp (disch := omega) only [sse.vcgtz_i8, _mm_cmpgt_epi8, _mm_setzero_si128, lane_map1, lane_map2, lane_and, lane_or, lane_xor, lane_not, lane_zero, lane_ofLanes]
  exact LL.cmpgtz _
theorem vcgtz_i16 : Lift1 8 (lane 16) sse.vcgtz_i16 P.vcgtz := by
  intro a k hk
  simp (disch := omega) only [sse.vcgtz_i16, _mm_cmpgt_epi16, _mm_setzero_si128, lane_map1, lane_map2, lane_and, lane_or, lane_xor, lane_not, lane_zero, lane_ofLanes]
  exact LL.cmpgtz _
theorem vcgtz_i32 : Lift1 4 (lane 32) sse.vcgtz_i32 P.vcgtz := by
  intro a k hk
  simp (disch := omega) only [sse.vcgtz_i32, _mm_cmpgt_epi32, _mm_setzero_si128, lane_map1, lane_map2, lane_and, lane_or, lane_xor, lane_not, lane_zero, lane_ofLanes]
  exact LL.cmpgtz _
theorem vcgtz_i64 : Lift1 2 (lane 64) sse.vcgtz_i64 P.vcgtz := by
  intro a k hk
  simp (disch := omega) only [sse.vcgtz_i64, _mm_cmpgt_epi64, _mm_setzero_si128, lane_map1, lane_map2, lane_and, lane_or, lane_xor, lane_not, lane_zero, lane_ofLanes]
  exact LL.cmpgtz _
theorem vcltz_f32 : Lift1 4 (lane 32) sse.vcltz_f32 f32.vcltz := by
  intro a k hk
  simp (disch := omega) only [sse.vcltz_f32, _mm_cmplt_ps, _mm_setzero_ps, lane_map1, lane_map2, lane_and, lane_or, lane_xor, lane_not, lane_zero, lane_ofLanes]
  exact LL.fcltz f32 _
theorem vcltz_f64 : Lift1 2 (lane 64) sse.vcltz_f64 f64.vcltz := by
  intro a k hk
  simp (disch := omega) only [sse.vcltz_f64, _mm_cmplt_pd, _mm_setzero_pd, lane_map1, lane_map2, lane_and, lane_or, lane_xor, lane_not, lane_zero, lane_ofLanes]
  exact LL.fcltz f64 _
theorem vcltz_i8 : Lift1 16 (lane 8) sse.vcltz_i8 P.vcltz := by
  intro a k hk
  simp (disch := omega) only [sse.vcltz_i8, _mm_cmpgt_epi8, _mm_setzero_si128, lane_map1, lane_map2, lane_and, lane_or, lane_xor, lane_not, lane_zero, lane_ofLanes]
  exact LL.cmpgtz' _
theorem vcltz_i16 : Lift1 8 (lane 16) sse.vcltz_i16 P.vcltz := by
  intro a k hk
  simp (disch := omega) only [sse.vcltz_i16, _mm_cmpgt_epi16, _mm_setzero_si128, lane_map1, lane_map2, lane_and, lane_or, lane_xor, lane_not, lane_zero, lane_ofLanes]
  exact LL.cmpgtz' _
theorem vcltz_i32 : Lift1 4 (lane 32) sse.vcltz_i32 P.vcltz := by
  intro a k hk
  simp (disch := omega) only [sse.vcltz_i32, _mm_cmpgt_epi32, _mm_setzero_si128, lane_map1, lane_map2, lane_and, lane_or, lane_xor, lane_not, lane_zero, lane_ofLanes]
  exact LL.cmpgtz' _
theorem vcltz_i64 : Lift1 2 (lane 64) sse.vcltz_i64 P.vcltz := by
  intro a k hk
  simp (disch := omega) only [sse.vcltz_i64, _mm_cmpgt_epi64, _mm_setzero_si128, lane_map1, lane_map2, lane_and, lane_or, lane_xor, lane_not, lane_zero, lane_ofLanes]
  exact LL.cmpgtz' _
theorem vclez_f32 : Lift1 4 (lane 32) sse.vclez_f32 f32.vclez := by
  intro a k hk
  simp (disch := omega) only [sse.vclez_f32, _mm_cmple_ps, _mm_setzero_ps, lane_map1, lane_map2, lane_and, lane_or, lane_xor, lane_not, lane_zero, lane_ofLanes]
  exact LL.fclez f32 _
theorem vclez_f64 : Lift1 2 (lane 64) sse.vclez_f64 f64.vclez := by
  intro a k hk
  simp (disch := omega) only [sse.vclez_f64, _mm_cmple_pd, _mm_setzero_pd, lane_map1, lane_map2, lane_and, lane_or, lane_xor, lane_not, lane_zero, lane_ofLanes]
  exact LL.fclez f64 _
theorem vclez_i8 : Lift1 16 (lane 8) sse.vclez_i8 P.vclez := by
  intro a k hk
  simp (disch := omega) only [sse.vclez_i8, _mm_cmpeq_epi8, _mm_cmpgt_epi8, _mm_or_si128, _mm_setzero_si128, lane_map1, lane_map2, lane_and, lane_or, lane_xor, lane_not, lane_zero, lane_ofLanes]
  exact LL.eqgt _
theorem vclez_i16 : Lift1 8 (lane 16) sse.vclez_i16 P.vclez := by
  intro a k hk
  simp (disch := omega) only [sse.vclez_i16, _mm_cmpeq_epi16, _mm_cmpgt_epi16, _mm_or_si128, _mm_setzero_si128, lane_map1, lane_map2, lane_and, lane_or, lane_xor, lane_not, lane_zero, lane_ofLanes]
  exact LL.eqgt _
theorem vclez_i32 : Lift1 4 (lane 32) sse.vclez_i32 P.vclez := by
  intro a k hk
  simp (disch := omega) only [sse.vclez_i32, _mm_cmpeq_epi32, _mm_cmpgt_epi32, _mm_or_si128, _mm_setzero_si128, lane_map1, lane_map2, lane_and, lane_or, lane_xor, lane_not, lane_zero, lane_ofLanes]
  exact LL.eqgt _
theorem vclez_i64 : Lift1 2 (lane 64) sse.vclez_i64 P.vclez := by
  intro a k hk
  simp (disch := omega) only [sse.vclez_i64, _mm_cmpeq_epi64, _mm_cmpgt_epi64, _mm_or_si128, _mm_setzero_si128, lane_map1, lane_map2, lane_and, lane_or, lane_xor, lane_not, lane_zero, lane_ofLanes]
  exact LL.eqgt _
theorem vmin_f32 : LiftNum2 f32 4 (lane 32) sse.vmin_f32 f32.vmin := by
  intro a b k hk ha hn
  simp (disch := omega) only [sse.vmin_f32, _mm_min_ps, lane_map1, lane_map2, lane_and, lane_or, lane_xor, lane_not, lane_zero, lane_ofLanes]
  exact LL.fmin f32 (by decide) ha hn
theorem vmin_f64 : LiftNum2 f64 2 (lane 64) sse.vmin_f64 f64.vmin := by
  intro a b k hk ha hn
  simp (disch := omega) only [sse.vmin_f64, _mm_min_pd, lane_map1, lane_map2, lane_and, lane_or, lane_xor, lane_not, lane_zero, lane_ofLanes]
  exact LL.fmin f64 (by decide) ha hn
theorem vmin_i8 : Lift2 16 (lane 8) sse.vmin_i8 P.vmin := by
  intro a b k hk
  simp (disch := omega) only [sse.vmin_i8, _mm_min_epi8, lane_map1, lane_map2, lane_and, lane_or, lane_xor, lane_not, lane_zero, lane_ofLanes]
  exact LL.smin _ _
theorem vmin_i16 : Lift2 8 (lane 16) sse.vmin_i16 P.vmin := by
  intro a b k hk
  simp (disch := omega) only [sse.vmin_i16, _mm_min_epi16, lane_map1, lane_map2, lane_and, lane_or, lane_xor, lane_not, lane_zero, lane_ofLanes]
  exact LL.smin _ _
theorem vmin_i32 : Lift2 4 (lane 32) sse.vmin_i32 P.vmin := by
  intro a b k hk
  simp (disch := omega) only [sse.vmin_i32, _mm_min_epi32, lane_map1, lane_map2, lane_and, lane_or, lane_xor, lane_not, lane_zero, lane_ofLanes]
  exact LL.smin _ _
theorem vmax_f32 : LiftNum2 f32 4 (lane 32) sse.vmax_f32 f32.vmax := by
  intro a b k hk ha hn
  simp (disch := omega) only [sse.vmax_f32, _mm_max_ps, lane_map1, lane_map2, lane_and, lane_or, lane_xor, lane_not, lane_zero, lane_ofLanes]
  exact LL.fmax f32 (by decide) ha hn
theorem vmax_f64 : LiftNum2 f64 2 (lane 64) sse.vmax_f64 f64.vmax := by
  intro a b k hk ha hn
  simp (disch := omega) only [sse.vmax_f64, _mm_max_pd, lane_map1, lane_map2, lane_and, lane_or, lane_xor, lane_not, lane_zero, lane_ofLanes]
  exact LL.fmax f64 (by decide) ha hn
theorem vmax_i8 : Lift2 16 (lane 8) sse.vmax_i8 P.vmax := by
  intro a b k hk
  simp (disch := omega) only [sse.vmax_i8, _mm_max_epi8, lane_map1, lane_map2, lane_and, lane_or, lane_xor, lane_not, lane_zero, lane_ofLanes]
  exact LL.smax _ _
theorem vmax_i16 : Lift2 8 (lane 16) sse.vmax_i16 P.vmax := by
  intro a b k hk
  simp (disch := omega) only [sse.vmax_i16, _mm_max_epi16, lane_map1, lane_map2, lane_and, lane_or, lane_xor, lane_not, lane_zero, lane_ofLanes]
  exact LL.smax _ _
theorem vmax_i32 : Lift2 4 (lane 32) sse.vmax_i32 P.vmax := by
  intro a b k hk
  simp (disch := omega) only [sse.vmax_i32, _mm_max_epi32, lane_map1, lane_map2, lane_and, lane_or, lane_xor, lane_not, lane_zero, lane_ofLanes]
  exact LL.smax _ _
theorem vclamp_f32 : LiftClamp f32 4 (lane 32) sse.vclamp_f32 := by
  intro a b c k hk hx ha hn
  simp (disch := omega) only [sse.vclamp_f32, _mm_max_ps, _mm_min_ps, _mm_set1_ps, lane_map1, lane_map2, lane_and, lane_or, lane_xor, lane_not, lane_zero, lane_ofLanes]
  exact LL.fclamp f32 (by decide) hx ha hn
theorem vclamp_f64 : LiftClamp f64 2 (lane 64) sse.vclamp_f64 := by
  intro a b c k hk hx ha hn
  simp (disch := omega) only [sse.vclamp_f64, _mm_max_pd, _mm_min_pd, _mm_set1_pd, lane_map1, lane_map2, lane_and, lane_or, lane_xor, lane_not, lane_zero, lane_ofLanes]
  exact LL.fclamp f64 (by decide) hx ha hn
theorem vclamp_i8 : LiftS 16 (lane 8) sse.vclamp_i8 P.vclamp := by
  intro a b c k hk
  simp (disch := omega) only [sse.vclamp_i8, _mm_max_epi8, _mm_min_epi8, _mm_set1_epi8, lane_map1, lane_map2, lane_and, lane_or, lane_xor, lane_not, lane_zero, lane_ofLanes]
  exact LL.sclamp _ _ _
theorem vclamp_i16 : LiftS 8 (lane 16) sse.vclamp_i16 P.vclamp := by
  intro a b c k hk
  simp (disch := omega) only [sse.vclamp_i16, _mm_max_epi16, _mm_min_epi16, _mm_set1_epi16, lane_map1, lane_map2, lane_and, lane_or, lane_xor, lane_not, lane_zero, lane_ofLanes]
  exact LL.sclamp _ _ _
theorem vclamp_i32 : LiftS 4 (lane 32) sse.vclamp_i32 P.vclamp := by
  intro a b c k hk
  simp (disch := omega) only [sse.vclamp_i32, _mm_max_epi32, _mm_min_epi32, _mm_set1_epi32, lane_map1, lane_map2, lane_and, lane_or, lane_xor, lane_not, lane_zero, lane_ofLanes]
  exact LL.sclamp _ _ _
theorem vshuf_u8 : LiftShuf 16 (fun j => j < 16 ∨ 128 ≤ j) (lane 8) (lane 8) sse.vshuf_u8 := by
  intro a b k hk hj
  have e : (lane 8) (sse.vshuf_u8 a b) k = LL.sh (lane 8 a) ((lane 8) b k) := by
    simp (disch := omega) only [sse.vshuf_u8, _mm_shuffle_epi8, vw, regs_lt, Nat.reduceDiv, LL.lane_low, LL.lane_high, LL.lane_pshufb, LL.lane_tbl1, lane_map1, lane_map2, lane_and, lane_or, lane_xor, lane_not, lane_zero, lane_ofLanes]
  rw [e, LL.comb1 _ _ hj]; rfl
theorem vshuf_i8 : LiftShuf 16 (fun j => j < 16 ∨ 128 ≤ j) (lane 8) (lane 8) sse.vshuf_i8 := by
  intro a b k hk hj
  have e : (lane 8) (sse.vshuf_i8 a b) k = LL.sh (lane 8 a) ((lane 8) b k) := by
    simp (disch := omega) only [sse.vshuf_i8, _mm_shuffle_epi8, vw, regs_lt, Nat.reduceDiv, LL.lane_low, LL.lane_high, LL.lane_pshufb, LL.lane_tbl1, lane_map1, lane_map2, lane_and, lane_or, lane_xor, lane_not, lane_zero, lane_ofLanes]
  rw [e, LL.comb1 _ _ hj]; rfl

end sse_ok
end Verif.SIMD
