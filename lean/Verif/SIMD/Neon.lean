import Verif.SIMD.Intrin
/- Model of neon.hh, generated by tools/gen_simd.py: every function is the composition of intrinsics in its body. -/
namespace Verif.SIMD

/-- neon.hh:110-116 -/
def neon.vreinterpret_u32_f32 (a : BitVec 128) : BitVec 128 :=
  a
/-- neon.hh:118-124 -/
def neon.vreinterpret_f32_u32 (a : BitVec 128) : BitVec 128 :=
  a
/-- neon.hh:126-132 -/
def neon.vreinterpret_u8_i8 (a : BitVec 128) : BitVec 128 :=
  a
/-- neon.hh:134-140 -/
def neon.vreinterpret_i8_u8 (a : BitVec 128) : BitVec 128 :=
  a
/-- neon.hh:142-148 -/
def neon.vreinterpret_u16_i16 (a : BitVec 128) : BitVec 128 :=
  a
/-- neon.hh:150-156 -/
def neon.vreinterpret_i16_u16 (a : BitVec 128) : BitVec 128 :=
  a
/-- neon.hh:158-164 -/
def neon.vreinterpret_u32_i32 (a : BitVec 128) : BitVec 128 :=
  a
/-- neon.hh:166-172 -/
def neon.vreinterpret_i32_u32 (a : BitVec 128) : BitVec 128 :=
  a
/-- neon.hh:174-180 -/
def neon.vdup_f32 (a : BitVec 32) : BitVec 128 :=
  vdupq_n_f32 a
/-- neon.hh:182-188 -/
def neon.vdup_i8 (a : BitVec 8) : BitVec 128 :=
  vdupq_n_s8 a
/-- neon.hh:190-196 -/
def neon.vdup_i16 (a : BitVec 16) : BitVec 128 :=
  vdupq_n_s16 a
/-- neon.hh:198-204 -/
def neon.vdup_i32 (a : BitVec 32) : BitVec 128 :=
  vdupq_n_s32 a
/-- neon.hh:206-212 -/
def neon.vdup_i64 (a : BitVec 64) : BitVec 128 :=
  vdupq_n_s64 a
/-- neon.hh:214-220 -/
def neon.vdup_u8 (a : BitVec 8) : BitVec 128 :=
  vdupq_n_u8 a
/-- neon.hh:222-228 -/
def neon.vdup_u16 (a : BitVec 16) : BitVec 128 :=
  vdupq_n_u16 a
/-- neon.hh:230-236 -/
def neon.vdup_u32 (a : BitVec 32) : BitVec 128 :=
  vdupq_n_u32 a
/-- neon.hh:238-244 -/
def neon.vdup_u64 (a : BitVec 64) : BitVec 128 :=
  vdupq_n_u64 a
/-- neon.hh:246-252 -/
def neon.vzero_f32 (tmp : BitVec 128) : BitVec 128 :=
  veorq_u32 tmp tmp
/-- neon.hh:254-260 -/
def neon.vzero_i8 (tmp : BitVec 128) : BitVec 128 :=
  veorq_s8 tmp tmp
/-- neon.hh:262-268 -/
def neon.vzero_i16 (tmp : BitVec 128) : BitVec 128 :=
  veorq_s16 tmp tmp
/-- neon.hh:270-276 -/
def neon.vzero_i32 (tmp : BitVec 128) : BitVec 128 :=
  veorq_s32 tmp tmp
/-- neon.hh:278-284 -/
def neon.vzero_i64 (tmp : BitVec 128) : BitVec 128 :=
  veorq_s64 tmp tmp
/-- neon.hh:286-292 -/
def neon.vzero_u8 (tmp : BitVec 128) : BitVec 128 :=
  veorq_u8 tmp tmp
/-- neon.hh:294-300 -/
def neon.vzero_u16 (tmp : BitVec 128) : BitVec 128 :=
  veorq_u16 tmp tmp
/-- neon.hh:302-308 -/
def neon.vzero_u32 (tmp : BitVec 128) : BitVec 128 :=
  veorq_u32 tmp tmp
/-- neon.hh:310-316 -/
def neon.vzero_u64 (tmp : BitVec 128) : BitVec 128 :=
  veorq_u64 tmp tmp
/-- neon.hh:318-324 -/
def neon.vadd_f32 (A32 : Fpu 32) (a : BitVec 128) (b : BitVec 128) : BitVec 128 :=
  vaddq_f32 A32 a b
/-- neon.hh:326-332 -/
def neon.vadd_i8 (a : BitVec 128) (b : BitVec 128) : BitVec 128 :=
  vaddq_s8 a b
/-- neon.hh:334-340 -/
def neon.vadd_i16 (a : BitVec 128) (b : BitVec 128) : BitVec 128 :=
  vaddq_s16 a b
/-- neon.hh:342-348 -/
def neon.vadd_i32 (a : BitVec 128) (b : BitVec 128) : BitVec 128 :=
  vaddq_s32 a b
/-- neon.hh:350-356 -/
def neon.vadd_i64 (a : BitVec 128) (b : BitVec 128) : BitVec 128 :=
  vaddq_s64 a b
/-- neon.hh:358-364 -/
def neon.vqadd_i8 (a : BitVec 128) (b : BitVec 128) : BitVec 128 :=
  vqaddq_s8 a b
/-- neon.hh:366-372 -/
def neon.vqadd_i16 (a : BitVec 128) (b : BitVec 128) : BitVec 128 :=
  vqaddq_s16 a b
/-- neon.hh:374-380 -/
def neon.vsub_f32 (A32 : Fpu 32) (a : BitVec 128) (b : BitVec 128) : BitVec 128 :=
  vsubq_f32 A32 a b
/-- neon.hh:382-388 -/
def neon.vsub_i8 (a : BitVec 128) (b : BitVec 128) : BitVec 128 :=
  vsubq_s8 a b
/-- neon.hh:390-396 -/
def neon.vsub_i16 (a : BitVec 128) (b : BitVec 128) : BitVec 128 :=
  vsubq_s16 a b
/-- neon.hh:398-404 -/
def neon.vsub_i32 (a : BitVec 128) (b : BitVec 128) : BitVec 128 :=
  vsubq_s32 a b
/-- neon.hh:406-412 -/
def neon.vsub_i64 (a : BitVec 128) (b : BitVec 128) : BitVec 128 :=
  vsubq_s64 a b
/-- neon.hh:414-420 -/
def neon.vqsub_i8 (a : BitVec 128) (b : BitVec 128) : BitVec 128 :=
  vqsubq_s8 a b
/-- neon.hh:422-428 -/
def neon.vqsub_i16 (a : BitVec 128) (b : BitVec 128) : BitVec 128 :=
  vqsubq_s16 a b
/-- neon.hh:430-436 -/
def neon.vqsub_u8 (a : BitVec 128) (b : BitVec 128) : BitVec 128 :=
  vqsubq_u8 a b
/-- neon.hh:438-444 -/
def neon.vqsub_u16 (a : BitVec 128) (b : BitVec 128) : BitVec 128 :=
  vqsubq_u16 a b
/-- neon.hh:446-452 -/
def neon.vmul_f32 (A32 : Fpu 32) (a : BitVec 128) (b : BitVec 128) : BitVec 128 :=
  vmulq_f32 A32 a b
/-- neon.hh:454-460 -/
def neon.vmul_i8 (a : BitVec 128) (b : BitVec 128) : BitVec 128 :=
  vmulq_s8 a b
/-- neon.hh:462-468 -/
def neon.vabs_f32 (a : BitVec 128) : BitVec 128 :=
  vabsq_f32 a
/-- neon.hh:470-476 -/
def neon.vqabs_i8 (a : BitVec 128) : BitVec 128 :=
  vqabsq_s8 a
/-- neon.hh:478-484 -/
def neon.vqabs_i16 (a : BitVec 128) : BitVec 128 :=
  vqabsq_s16 a
/-- neon.hh:486-494 -/
def neon.vsignum_f32 (a : BitVec 128) : BitVec 128 :=
  vbicq_u32 (veorq_u32 (vdupq_n_f32 f32.one) (vandq_u32 (vdupq_n_f32 (negz 32)) a)) (vceqq_f32 a (vdupq_n_f32 (0#32)))
/-- neon.hh:496-503 -/
def neon.vsignum_i8 (a : BitVec 128) : BitVec 128 :=
  vorrq_u8 (vcgtq_s8 (vdupq_n_s8 0) a) (vandq_u8 (vcgtq_s8 a (vdupq_n_s8 0)) (vdupq_n_s8 1))
/-- neon.hh:505-513 -/
def neon.vsign_f32 (a : BitVec 128) (b : BitVec 128) : BitVec 128 :=
  vbicq_u32 (veorq_u32 a (vandq_u32 (vdupq_n_f32 (negz 32)) b)) (vceqq_f32 b (vdupq_n_f32 (0#32)))
/-- neon.hh:515-523 -/
def neon.vsign_i8 (a : BitVec 128) (b : BitVec 128) : BitVec 128 :=
  vorrq_u8 (vandq_u8 (vcgtq_s8 (vdupq_n_s8 0) b) (vnegq_s8 a)) (vandq_u8 (vcgtq_s8 b (vdupq_n_s8 0)) a)
/-- neon.hh:525-533 -/
def neon.vcopysign_f32 (a : BitVec 128) (b : BitVec 128) : BitVec 128 :=
  vorrq_u32 (vbicq_u32 a (vdupq_n_f32 (negz 32))) (vandq_u32 b (vdupq_n_f32 (negz 32)))
/-- neon.hh:535-541 -/
def neon.vorr_u8 (a : BitVec 128) (b : BitVec 128) : BitVec 128 :=
  vorrq_u8 a b
/-- neon.hh:543-549 -/
def neon.vorr_u16 (a : BitVec 128) (b : BitVec 128) : BitVec 128 :=
  vorrq_u16 a b
/-- neon.hh:551-557 -/
def neon.vorr_u32 (a : BitVec 128) (b : BitVec 128) : BitVec 128 :=
  vorrq_u32 a b
/-- neon.hh:559-565 -/
def neon.vorr_u64 (a : BitVec 128) (b : BitVec 128) : BitVec 128 :=
  vorrq_u64 a b
/-- neon.hh:567-573 -/
def neon.vand_u8 (a : BitVec 128) (b : BitVec 128) : BitVec 128 :=
  vandq_u8 a b
/-- neon.hh:575-581 -/
def neon.vand_u16 (a : BitVec 128) (b : BitVec 128) : BitVec 128 :=
  vandq_u16 a b
/-- neon.hh:583-589 -/
def neon.vand_u32 (a : BitVec 128) (b : BitVec 128) : BitVec 128 :=
  vandq_u32 a b
/-- neon.hh:591-597 -/
def neon.vand_u64 (a : BitVec 128) (b : BitVec 128) : BitVec 128 :=
  vandq_u64 a b
/-- neon.hh:599-605 -/
def neon.veor_u8 (a : BitVec 128) (b : BitVec 128) : BitVec 128 :=
  veorq_u8 a b
/-- neon.hh:607-613 -/
def neon.veor_u16 (a : BitVec 128) (b : BitVec 128) : BitVec 128 :=
  veorq_u16 a b
/-- neon.hh:615-621 -/
def neon.veor_u32 (a : BitVec 128) (b : BitVec 128) : BitVec 128 :=
  veorq_u32 a b
/-- neon.hh:623-629 -/
def neon.veor_u64 (a : BitVec 128) (b : BitVec 128) : BitVec 128 :=
  veorq_u64 a b
/-- neon.hh:631-637 -/
def neon.vbic_u8 (a : BitVec 128) (b : BitVec 128) : BitVec 128 :=
  vbicq_u8 a b
/-- neon.hh:639-645 -/
def neon.vbic_u16 (a : BitVec 128) (b : BitVec 128) : BitVec 128 :=
  vbicq_u16 a b
/-- neon.hh:647-653 -/
def neon.vbic_u32 (a : BitVec 128) (b : BitVec 128) : BitVec 128 :=
  vbicq_u32 a b
/-- neon.hh:655-661 -/
def neon.vbic_u64 (a : BitVec 128) (b : BitVec 128) : BitVec 128 :=
  vbicq_u64 a b
/-- neon.hh:663-669 -/
def neon.vbsl_u8 (a : BitVec 128) (b : BitVec 128) (c : BitVec 128) : BitVec 128 :=
  vbslq_u8 a b c
/-- neon.hh:671-677 -/
def neon.vbsl_u16 (a : BitVec 128) (b : BitVec 128) (c : BitVec 128) : BitVec 128 :=
  vbslq_u16 a b c
/-- neon.hh:679-685 -/
def neon.vbsl_u32 (a : BitVec 128) (b : BitVec 128) (c : BitVec 128) : BitVec 128 :=
  vbslq_u32 a b c
/-- neon.hh:687-693 -/
def neon.vbsl_u64 (a : BitVec 128) (b : BitVec 128) (c : BitVec 128) : BitVec 128 :=
  vbslq_u64 a b c
/-- neon.hh:695-701 -/
def neon.vceqz_f32 (a : BitVec 128) : BitVec 128 :=
  vceqq_f32 a (vdupq_n_f32 (0#32))
/-- neon.hh:703-709 -/
def neon.vceqz_i8 (a : BitVec 128) : BitVec 128 :=
  vceqq_s8 a (vdupq_n_s8 0)
/-- neon.hh:711-717 -/
def neon.vceqz_i16 (a : BitVec 128) : BitVec 128 :=
  vceqq_s16 a (vdupq_n_s16 0)
/-- neon.hh:719-725 -/
def neon.vceqz_i32 (a : BitVec 128) : BitVec 128 :=
  vceqq_s32 a (vdupq_n_s32 0)
/-- neon.hh:727-733 -/
def neon.vceq_f32 (a : BitVec 128) (b : BitVec 128) : BitVec 128 :=
  vceqq_f32 a b
/-- neon.hh:735-741 -/
def neon.vceq_i8 (a : BitVec 128) (b : BitVec 128) : BitVec 128 :=
  vceqq_s8 a b
/-- neon.hh:743-749 -/
def neon.vceq_i16 (a : BitVec 128) (b : BitVec 128) : BitVec 128 :=
  vceqq_s16 a b
/-- neon.hh:751-757 -/
def neon.vceq_i32 (a : BitVec 128) (b : BitVec 128) : BitVec 128 :=
  vceqq_s32 a b
/-- neon.hh:759-765 -/
def neon.vcgtz_f32 (a : BitVec 128) : BitVec 128 :=
  vcgtq_f32 a (vdupq_n_f32 (0#32))
/-- neon.hh:767-773 -/
def neon.vcgtz_i8 (a : BitVec 128) : BitVec 128 :=
  vcgtq_s8 a (vdupq_n_s8 0)
/-- neon.hh:775-781 -/
def neon.vcgtz_i16 (a : BitVec 128) : BitVec 128 :=
  vcgtq_s16 a (vdupq_n_s16 0)
/-- neon.hh:783-789 -/
def neon.vcgtz_i32 (a : BitVec 128) : BitVec 128 :=
  vcgtq_s32 a (vdupq_n_s32 0)
/-- neon.hh:791-797 -/
def neon.vcltz_f32 (a : BitVec 128) : BitVec 128 :=
  vcltq_f32 a (vdupq_n_f32 (0#32))
/-- neon.hh:799-805 -/
def neon.vcltz_i8 (a : BitVec 128) : BitVec 128 :=
  vcltq_s8 a (vdupq_n_s8 0)
/-- neon.hh:807-813 -/
def neon.vcltz_i16 (a : BitVec 128) : BitVec 128 :=
  vcltq_s16 a (vdupq_n_s16 0)
/-- neon.hh:815-821 -/
def neon.vcltz_i32 (a : BitVec 128) : BitVec 128 :=
  vcltq_s32 a (vdupq_n_s32 0)
/-- neon.hh:823-829 -/
def neon.vclez_f32 (a : BitVec 128) : BitVec 128 :=
  vcleq_f32 a (vdupq_n_f32 (0#32))
/-- neon.hh:831-837 -/
def neon.vclez_i8 (a : BitVec 128) : BitVec 128 :=
  vcleq_s8 a (vdupq_n_s8 0)
/-- neon.hh:839-845 -/
def neon.vclez_i16 (a : BitVec 128) : BitVec 128 :=
  vcleq_s16 a (vdupq_n_s16 0)
/-- neon.hh:847-853 -/
def neon.vclez_i32 (a : BitVec 128) : BitVec 128 :=
  vcleq_s32 a (vdupq_n_s32 0)
/-- neon.hh:855-861 -/
def neon.vmin_f32 (a : BitVec 128) (b : BitVec 128) : BitVec 128 :=
  vminq_f32 a b
/-- neon.hh:863-869 -/
def neon.vmin_i8 (a : BitVec 128) (b : BitVec 128) : BitVec 128 :=
  vminq_s8 a b
/-- neon.hh:871-877 -/
def neon.vmin_i16 (a : BitVec 128) (b : BitVec 128) : BitVec 128 :=
  vminq_s16 a b
/-- neon.hh:879-885 -/
def neon.vmin_i32 (a : BitVec 128) (b : BitVec 128) : BitVec 128 :=
  vminq_s32 a b
/-- neon.hh:887-893 -/
def neon.vmax_f32 (a : BitVec 128) (b : BitVec 128) : BitVec 128 :=
  vmaxq_f32 a b
/-- neon.hh:895-901 -/
def neon.vmax_i8 (a : BitVec 128) (b : BitVec 128) : BitVec 128 :=
  vmaxq_s8 a b
/-- neon.hh:903-909 -/
def neon.vmax_i16 (a : BitVec 128) (b : BitVec 128) : BitVec 128 :=
  vmaxq_s16 a b
/-- neon.hh:911-917 -/
def neon.vmax_i32 (a : BitVec 128) (b : BitVec 128) : BitVec 128 :=
  vmaxq_s32 a b
/-- neon.hh:919-925 -/
def neon.vclamp_f32 (x : BitVec 128) (a : BitVec 32) (b : BitVec 32) : BitVec 128 :=
  vminq_f32 (vmaxq_f32 x (vdupq_n_f32 a)) (vdupq_n_f32 b)
/-- neon.hh:927-933 -/
def neon.vclamp_i8 (x : BitVec 128) (a : BitVec 8) (b : BitVec 8) : BitVec 128 :=
  vminq_s8 (vmaxq_s8 x (vdupq_n_s8 a)) (vdupq_n_s8 b)
/-- neon.hh:935-941 -/
def neon.vclamp_i16 (x : BitVec 128) (a : BitVec 16) (b : BitVec 16) : BitVec 128 :=
  vminq_s16 (vmaxq_s16 x (vdupq_n_s16 a)) (vdupq_n_s16 b)
/-- neon.hh:943-949 -/
def neon.vclamp_i32 (x : BitVec 128) (a : BitVec 32) (b : BitVec 32) : BitVec 128 :=
  vminq_s32 (vmaxq_s32 x (vdupq_n_s32 a)) (vdupq_n_s32 b)
/-- neon.hh:951-964 -/
def neon.vshuf_u8_a64 (a : BitVec 128) (b : BitVec 128) : BitVec 128 :=
  vqtbl1q_u8 a b
/-- neon.hh:951-964 -/
def neon.vshuf_u8_a32 (a : BitVec 128) (b : BitVec 128) : BitVec 128 :=
  let c := (vget_low_u8 a, vget_high_u8 a); let d := vtbl2_u8 c (vget_low_u8 b); let e := vtbl2_u8 c (vget_high_u8 b); vcombine_u8 d e
/-- neon.hh:966-979 -/
def neon.vshuf_i8_a64 (a : BitVec 128) (b : BitVec 128) : BitVec 128 :=
  vqtbl1q_s8 a b
/-- neon.hh:966-979 -/
def neon.vshuf_i8_a32 (a : BitVec 128) (b : BitVec 128) : BitVec 128 :=
  let c := (vget_low_s8 a, vget_high_s8 a); let d := vtbl2_s8 c (vget_low_s8 b); let e := vtbl2_s8 c (vget_high_s8 b); vcombine_s8 d e

end Verif.SIMD
