import Verif.SIMD.Intrin
/- Model of neon_double.hh, generated by tools/gen_simd.py: every function is the composition of intrinsics in its body.
A value is the array `m` of its registers. -/
namespace Verif.SIMD

/-- neon_double.hh:110-117 -/
def neon2.vreinterpret_u32_f32 (a : Nat → BitVec 128) : Nat → BitVec 128 :=
  regs 2 fun i => a i
/-- neon_double.hh:119-126 -/
def neon2.vreinterpret_f32_u32 (a : Nat → BitVec 128) : Nat → BitVec 128 :=
  regs 2 fun i => a i
/-- neon_double.hh:128-135 -/
def neon2.vreinterpret_u8_i8 (a : Nat → BitVec 128) : Nat → BitVec 128 :=
  regs 2 fun i => a i
/-- neon_double.hh:137-144 -/
def neon2.vreinterpret_i8_u8 (a : Nat → BitVec 128) : Nat → BitVec 128 :=
  regs 2 fun i => a i
/-- neon_double.hh:146-153 -/
def neon2.vreinterpret_u16_i16 (a : Nat → BitVec 128) : Nat → BitVec 128 :=
  regs 2 fun i => a i
/-- neon_double.hh:155-162 -/
def neon2.vreinterpret_i16_u16 (a : Nat → BitVec 128) : Nat → BitVec 128 :=
  regs 2 fun i => a i
/-- neon_double.hh:164-171 -/
def neon2.vreinterpret_u32_i32 (a : Nat → BitVec 128) : Nat → BitVec 128 :=
  regs 2 fun i => a i
/-- neon_double.hh:173-180 -/
def neon2.vreinterpret_i32_u32 (a : Nat → BitVec 128) : Nat → BitVec 128 :=
  regs 2 fun i => a i
/-- neon_double.hh:182-189 -/
def neon2.vdup_f32 (a : BitVec 32) : Nat → BitVec 128 :=
  regs 2 fun i => vdupq_n_f32 a
/-- neon_double.hh:191-198 -/
def neon2.vdup_i8 (a : BitVec 8) : Nat → BitVec 128 :=
  regs 2 fun i => vdupq_n_s8 a
/-- neon_double.hh:200-207 -/
def neon2.vdup_i16 (a : BitVec 16) : Nat → BitVec 128 :=
  regs 2 fun i => vdupq_n_s16 a
/-- neon_double.hh:209-216 -/
def neon2.vdup_i32 (a : BitVec 32) : Nat → BitVec 128 :=
  regs 2 fun i => vdupq_n_s32 a
/-- neon_double.hh:218-225 -/
def neon2.vdup_i64 (a : BitVec 64) : Nat → BitVec 128 :=
  regs 2 fun i => vdupq_n_s64 a
/-- neon_double.hh:227-234 -/
def neon2.vdup_u8 (a : BitVec 8) : Nat → BitVec 128 :=
  regs 2 fun i => vdupq_n_u8 a
/-- neon_double.hh:236-243 -/
def neon2.vdup_u16 (a : BitVec 16) : Nat → BitVec 128 :=
  regs 2 fun i => vdupq_n_u16 a
/-- neon_double.hh:245-252 -/
def neon2.vdup_u32 (a : BitVec 32) : Nat → BitVec 128 :=
  regs 2 fun i => vdupq_n_u32 a
/-- neon_double.hh:254-261 -/
def neon2.vdup_u64 (a : BitVec 64) : Nat → BitVec 128 :=
  regs 2 fun i => vdupq_n_u64 a
/-- neon_double.hh:263-270 -/
def neon2.vzero_f32 (tmp : Nat → BitVec 128) : Nat → BitVec 128 :=
  regs 2 fun i => veorq_u32 (tmp i) (tmp i)
/-- neon_double.hh:272-279 -/
def neon2.vzero_i8 (tmp : Nat → BitVec 128) : Nat → BitVec 128 :=
  regs 2 fun i => veorq_s8 (tmp i) (tmp i)
/-- neon_double.hh:281-288 -/
def neon2.vzero_i16 (tmp : Nat → BitVec 128) : Nat → BitVec 128 :=
  regs 2 fun i => veorq_s16 (tmp i) (tmp i)
/-- neon_double.hh:290-297 -/
def neon2.vzero_i32 (tmp : Nat → BitVec 128) : Nat → BitVec 128 :=
  regs 2 fun i => veorq_s32 (tmp i) (tmp i)
/-- neon_double.hh:299-306 -/
def neon2.vzero_i64 (tmp : Nat → BitVec 128) : Nat → BitVec 128 :=
  regs 2 fun i => veorq_s64 (tmp i) (tmp i)
/-- neon_double.hh:308-315 -/
def neon2.vzero_u8 (tmp : Nat → BitVec 128) : Nat → BitVec 128 :=
  regs 2 fun i => veorq_u8 (tmp i) (tmp i)
/-- neon_double.hh:317-324 -/
def neon2.vzero_u16 (tmp : Nat → BitVec 128) : Nat → BitVec 128 :=
  regs 2 fun i => veorq_u16 (tmp i) (tmp i)
/-- neon_double.hh:326-333 -/
def neon2.vzero_u32 (tmp : Nat → BitVec 128) : Nat → BitVec 128 :=
  regs 2 fun i => veorq_u32 (tmp i) (tmp i)
/-- neon_double.hh:335-342 -/
def neon2.vzero_u64 (tmp : Nat → BitVec 128) : Nat → BitVec 128 :=
  regs 2 fun i => veorq_u64 (tmp i) (tmp i)
/-- neon_double.hh:344-351 -/
def neon2.vadd_f32 (A32 : Fpu 32) (a : Nat → BitVec 128) (b : Nat → BitVec 128) : Nat → BitVec 128 :=
  regs 2 fun i => vaddq_f32 A32 (a i) (b i)
/-- neon_double.hh:353-360 -/
def neon2.vadd_i8 (a : Nat → BitVec 128) (b : Nat → BitVec 128) : Nat → BitVec 128 :=
  regs 2 fun i => vaddq_s8 (a i) (b i)
/-- neon_double.hh:362-369 -/
def neon2.vadd_i16 (a : Nat → BitVec 128) (b : Nat → BitVec 128) : Nat → BitVec 128 :=
  regs 2 fun i => vaddq_s16 (a i) (b i)
/-- neon_double.hh:371-378 -/
def neon2.vadd_i32 (a : Nat → BitVec 128) (b : Nat → BitVec 128) : Nat → BitVec 128 :=
  regs 2 fun i => vaddq_s32 (a i) (b i)
/-- neon_double.hh:380-387 -/
def neon2.vadd_i64 (a : Nat → BitVec 128) (b : Nat → BitVec 128) : Nat → BitVec 128 :=
  regs 2 fun i => vaddq_s64 (a i) (b i)
/-- neon_double.hh:389-396 -/
def neon2.vqadd_i8 (a : Nat → BitVec 128) (b : Nat → BitVec 128) : Nat → BitVec 128 :=
  regs 2 fun i => vqaddq_s8 (a i) (b i)
/-- neon_double.hh:398-405 -/
def neon2.vqadd_i16 (a : Nat → BitVec 128) (b : Nat → BitVec 128) : Nat → BitVec 128 :=
  regs 2 fun i => vqaddq_s16 (a i) (b i)
/-- neon_double.hh:407-414 -/
def neon2.vsub_f32 (A32 : Fpu 32) (a : Nat → BitVec 128) (b : Nat → BitVec 128) : Nat → BitVec 128 :=
  regs 2 fun i => vsubq_f32 A32 (a i) (b i)
/-- neon_double.hh:416-423 -/
def neon2.vsub_i8 (a : Nat → BitVec 128) (b : Nat → BitVec 128) : Nat → BitVec 128 :=
  regs 2 fun i => vsubq_s8 (a i) (b i)
/-- neon_double.hh:425-432 -/
def neon2.vsub_i16 (a : Nat → BitVec 128) (b : Nat → BitVec 128) : Nat → BitVec 128 :=
  regs 2 fun i => vsubq_s16 (a i) (b i)
/-- neon_double.hh:434-441 -/
def neon2.vsub_i32 (a : Nat → BitVec 128) (b : Nat → BitVec 128) : Nat → BitVec 128 :=
  regs 2 fun i => vsubq_s32 (a i) (b i)
/-- neon_double.hh:443-450 -/
def neon2.vsub_i64 (a : Nat → BitVec 128) (b : Nat → BitVec 128) : Nat → BitVec 128 :=
  regs 2 fun i => vsubq_s64 (a i) (b i)
/-- neon_double.hh:452-459 -/
def neon2.vqsub_i8 (a : Nat → BitVec 128) (b : Nat → BitVec 128) : Nat → BitVec 128 :=
  regs 2 fun i => vqsubq_s8 (a i) (b i)
/-- neon_double.hh:461-468 -/
def neon2.vqsub_i16 (a : Nat → BitVec 128) (b : Nat → BitVec 128) : Nat → BitVec 128 :=
  regs 2 fun i => vqsubq_s16 (a i) (b i)
/-- neon_double.hh:470-477 -/
def neon2.vqsub_u8 (a : Nat → BitVec 128) (b : Nat → BitVec 128) : Nat → BitVec 128 :=
  regs 2 fun i => vqsubq_u8 (a i) (b i)
/-- neon_double.hh:479-486 -/
def neon2.vqsub_u16 (a : Nat → BitVec 128) (b : Nat → BitVec 128) : Nat → BitVec 128 :=
  regs 2 fun i => vqsubq_u16 (a i) (b i)
/-- neon_double.hh:488-495 -/
def neon2.vmul_f32 (A32 : Fpu 32) (a : Nat → BitVec 128) (b : Nat → BitVec 128) : Nat → BitVec 128 :=
  regs 2 fun i => vmulq_f32 A32 (a i) (b i)
/-- neon_double.hh:497-504 -/
def neon2.vmul_i8 (a : Nat → BitVec 128) (b : Nat → BitVec 128) : Nat → BitVec 128 :=
  regs 2 fun i => vmulq_s8 (a i) (b i)
/-- neon_double.hh:506-513 -/
def neon2.vabs_f32 (a : Nat → BitVec 128) : Nat → BitVec 128 :=
  regs 2 fun i => vabsq_f32 (a i)
/-- neon_double.hh:515-522 -/
def neon2.vqabs_i8 (a : Nat → BitVec 128) : Nat → BitVec 128 :=
  regs 2 fun i => vqabsq_s8 (a i)
/-- neon_double.hh:524-531 -/
def neon2.vqabs_i16 (a : Nat → BitVec 128) : Nat → BitVec 128 :=
  regs 2 fun i => vqabsq_s16 (a i)
/-- neon_double.hh:533-542 -/
def neon2.vsignum_f32 (a : Nat → BitVec 128) : Nat → BitVec 128 :=
  regs 2 fun i => vbicq_u32 (veorq_u32 (vdupq_n_f32 f32.one) (vandq_u32 (vdupq_n_f32 (negz 32)) (a i))) (vceqq_f32 (a i) (vdupq_n_f32 (0#32)))
/-- neon_double.hh:544-552 -/
def neon2.vsignum_i8 (a : Nat → BitVec 128) : Nat → BitVec 128 :=
  regs 2 fun i => vorrq_u8 (vcgtq_s8 (vdupq_n_s8 0) (a i)) (vandq_u8 (vcgtq_s8 (a i) (vdupq_n_s8 0)) (vdupq_n_s8 1))
/-- neon_double.hh:554-563 -/
def neon2.vsign_f32 (a : Nat → BitVec 128) (b : Nat → BitVec 128) : Nat → BitVec 128 :=
  regs 2 fun i => vbicq_u32 (veorq_u32 (a i) (vandq_u32 (vdupq_n_f32 (negz 32)) (b i))) (vceqq_f32 (b i) (vdupq_n_f32 (0#32)))
/-- neon_double.hh:565-574 -/
def neon2.vsign_i8 (a : Nat → BitVec 128) (b : Nat → BitVec 128) : Nat → BitVec 128 :=
  regs 2 fun i => vorrq_u8 (vandq_u8 (vcgtq_s8 (vdupq_n_s8 0) (b i)) (vnegq_s8 (a i))) (vandq_u8 (vcgtq_s8 (b i) (vdupq_n_s8 0)) (a i))
/-- neon_double.hh:576-585 -/
def neon2.vcopysign_f32 (a : Nat → BitVec 128) (b : Nat → BitVec 128) : Nat → BitVec 128 :=
  regs 2 fun i => vorrq_u32 (vbicq_u32 (a i) (vdupq_n_f32 (negz 32))) (vandq_u32 (b i) (vdupq_n_f32 (negz 32)))
/-- neon_double.hh:587-594 -/
def neon2.vorr_u8 (a : Nat → BitVec 128) (b : Nat → BitVec 128) : Nat → BitVec 128 :=
  regs 2 fun i => vorrq_u8 (a i) (b i)
/-- neon_double.hh:596-603 -/
def neon2.vorr_u16 (a : Nat → BitVec 128) (b : Nat → BitVec 128) : Nat → BitVec 128 :=
  regs 2 fun i => vorrq_u16 (a i) (b i)
/-- neon_double.hh:605-612 -/
def neon2.vorr_u32 (a : Nat → BitVec 128) (b : Nat → BitVec 128) : Nat → BitVec 128 :=
  regs 2 fun i => vorrq_u32 (a i) (b i)
/-- neon_double.hh:614-621 -/
def neon2.vorr_u64 (a : Nat → BitVec 128) (b : Nat → BitVec 128) : Nat → BitVec 128 :=
  regs 2 fun i => vorrq_u64 (a i) (b i)
/-- neon_double.hh:623-630 -/
def neon2.vand_u8 (a : Nat → BitVec 128) (b : Nat → BitVec 128) : Nat → BitVec 128 :=
  regs 2 fun i => vandq_u8 (a i) (b i)
/-- neon_double.hh:632-639 -/
def neon2.vand_u16 (a : Nat → BitVec 128) (b : Nat → BitVec 128) : Nat → BitVec 128 :=
  regs 2 fun i => vandq_u16 (a i) (b i)
/-- neon_double.hh:641-648 -/
def neon2.vand_u32 (a : Nat → BitVec 128) (b : Nat → BitVec 128) : Nat → BitVec 128 :=
  regs 2 fun i => vandq_u32 (a i) (b i)
/-- neon_double.hh:650-657 -/
def neon2.vand_u64 (a : Nat → BitVec 128) (b : Nat → BitVec 128) : Nat → BitVec 128 :=
  regs 2 fun i => vandq_u64 (a i) (b i)
/-- neon_double.hh:659-666 -/
def neon2.veor_u8 (a : Nat → BitVec 128) (b : Nat → BitVec 128) : Nat → BitVec 128 :=
  regs 2 fun i => veorq_u8 (a i) (b i)
/-- neon_double.hh:668-675 -/
def neon2.veor_u16 (a : Nat → BitVec 128) (b : Nat → BitVec 128) : Nat → BitVec 128 :=
  regs 2 fun i => veorq_u16 (a i) (b i)
/-- neon_double.hh:677-684 -/
def neon2.veor_u32 (a : Nat → BitVec 128) (b : Nat → BitVec 128) : Nat → BitVec 128 :=
  regs 2 fun i => veorq_u32 (a i) (b i)
/-- neon_double.hh:686-693 -/
def neon2.veor_u64 (a : Nat → BitVec 128) (b : Nat → BitVec 128) : Nat → BitVec 128 :=
  regs 2 fun i => veorq_u64 (a i) (b i)
/-- neon_double.hh:695-702 -/
def neon2.vbic_u8 (a : Nat → BitVec 128) (b : Nat → BitVec 128) : Nat → BitVec 128 :=
  regs 2 fun i => vbicq_u8 (a i) (b i)
/-- neon_double.hh:704-711 -/
def neon2.vbic_u16 (a : Nat → BitVec 128) (b : Nat → BitVec 128) : Nat → BitVec 128 :=
  regs 2 fun i => vbicq_u16 (a i) (b i)
/-- neon_double.hh:713-720 -/
def neon2.vbic_u32 (a : Nat → BitVec 128) (b : Nat → BitVec 128) : Nat → BitVec 128 :=
  regs 2 fun i => vbicq_u32 (a i) (b i)
/-- neon_double.hh:722-729 -/
def neon2.vbic_u64 (a : Nat → BitVec 128) (b : Nat → BitVec 128) : Nat → BitVec 128 :=
  regs 2 fun i => vbicq_u64 (a i) (b i)
/-- neon_double.hh:731-738 -/
def neon2.vbsl_u8 (a : Nat → BitVec 128) (b : Nat → BitVec 128) (c : Nat → BitVec 128) : Nat → BitVec 128 :=
  regs 2 fun i => vbslq_u8 (a i) (b i) (c i)
/-- neon_double.hh:740-747 -/
def neon2.vbsl_u16 (a : Nat → BitVec 128) (b : Nat → BitVec 128) (c : Nat → BitVec 128) : Nat → BitVec 128 :=
  regs 2 fun i => vbslq_u16 (a i) (b i) (c i)
/-- neon_double.hh:749-756 -/
def neon2.vbsl_u32 (a : Nat → BitVec 128) (b : Nat → BitVec 128) (c : Nat → BitVec 128) : Nat → BitVec 128 :=
  regs 2 fun i => vbslq_u32 (a i) (b i) (c i)
/-- neon_double.hh:758-765 -/
def neon2.vbsl_u64 (a : Nat → BitVec 128) (b : Nat → BitVec 128) (c : Nat → BitVec 128) : Nat → BitVec 128 :=
  regs 2 fun i => vbslq_u64 (a i) (b i) (c i)
/-- neon_double.hh:767-774 -/
def neon2.vceqz_f32 (a : Nat → BitVec 128) : Nat → BitVec 128 :=
  regs 2 fun i => vceqq_f32 (a i) (vdupq_n_f32 (0#32))
/-- neon_double.hh:776-783 -/
def neon2.vceqz_i8 (a : Nat → BitVec 128) : Nat → BitVec 128 :=
  regs 2 fun i => vceqq_s8 (a i) (vdupq_n_s8 0)
/-- neon_double.hh:785-792 -/
def neon2.vceqz_i16 (a : Nat → BitVec 128) : Nat → BitVec 128 :=
  regs 2 fun i => vceqq_s16 (a i) (vdupq_n_s16 0)
/-- neon_double.hh:794-801 -/
def neon2.vceqz_i32 (a : Nat → BitVec 128) : Nat → BitVec 128 :=
  regs 2 fun i => vceqq_s32 (a i) (vdupq_n_s32 0)
/-- neon_double.hh:803-810 -/
def neon2.vceq_f32 (a : Nat → BitVec 128) (b : Nat → BitVec 128) : Nat → BitVec 128 :=
  regs 2 fun i => vceqq_f32 (a i) (b i)
/-- neon_double.hh:812-819 -/
def neon2.vceq_i8 (a : Nat → BitVec 128) (b : Nat → BitVec 128) : Nat → BitVec 128 :=
  regs 2 fun i => vceqq_s8 (a i) (b i)
/-- neon_double.hh:821-828 -/
def neon2.vceq_i16 (a : Nat → BitVec 128) (b : Nat → BitVec 128) : Nat → BitVec 128 :=
  regs 2 fun i => vceqq_s16 (a i) (b i)
/-- neon_double.hh:830-837 -/
def neon2.vceq_i32 (a : Nat → BitVec 128) (b : Nat → BitVec 128) : Nat → BitVec 128 :=
  regs 2 fun i => vceqq_s32 (a i) (b i)
/-- neon_double.hh:839-846 -/
def neon2.vcgtz_f32 (a : Nat → BitVec 128) : Nat → BitVec 128 :=
  regs 2 fun i => vcgtq_f32 (a i) (vdupq_n_f32 (0#32))
/-- neon_double.hh:848-855 -/
def neon2.vcgtz_i8 (a : Nat → BitVec 128) : Nat → BitVec 128 :=
  regs 2 fun i => vcgtq_s8 (a i) (vdupq_n_s8 0)
/-- neon_double.hh:857-864 -/
def neon2.vcgtz_i16 (a : Nat → BitVec 128) : Nat → BitVec 128 :=
  regs 2 fun i => vcgtq_s16 (a i) (vdupq_n_s16 0)
/-- neon_double.hh:866-873 -/
def neon2.vcgtz_i32 (a : Nat → BitVec 128) : Nat → BitVec 128 :=
  regs 2 fun i => vcgtq_s32 (a i) (vdupq_n_s32 0)
/-- neon_double.hh:875-882 -/
def neon2.vcltz_f32 (a : Nat → BitVec 128) : Nat → BitVec 128 :=
  regs 2 fun i => vcltq_f32 (a i) (vdupq_n_f32 (0#32))
/-- neon_double.hh:884-891 -/
def neon2.vcltz_i8 (a : Nat → BitVec 128) : Nat → BitVec 128 :=
  regs 2 fun i => vcltq_s8 (a i) (vdupq_n_s8 0)
/-- neon_double.hh:893-900 -/
def neon2.vcltz_i16 (a : Nat → BitVec 128) : Nat → BitVec 128 :=
  regs 2 fun i => vcltq_s16 (a i) (vdupq_n_s16 0)
/-- neon_double.hh:902-909 -/
def neon2.vcltz_i32 (a : Nat → BitVec 128) : Nat → BitVec 128 :=
  regs 2 fun i => vcltq_s32 (a i) (vdupq_n_s32 0)
/-- neon_double.hh:911-918 -/
def neon2.vclez_f32 (a : Nat → BitVec 128) : Nat → BitVec 128 :=
  regs 2 fun i => vcleq_f32 (a i) (vdupq_n_f32 (0#32))
/-- neon_double.hh:920-927 -/
def neon2.vclez_i8 (a : Nat → BitVec 128) : Nat → BitVec 128 :=
  regs 2 fun i => vcleq_s8 (a i) (vdupq_n_s8 0)
/-- neon_double.hh:929-936 -/
def neon2.vclez_i16 (a : Nat → BitVec 128) : Nat → BitVec 128 :=
  regs 2 fun i => vcleq_s16 (a i) (vdupq_n_s16 0)
/-- neon_double.hh:938-945 -/
def neon2.vclez_i32 (a : Nat → BitVec 128) : Nat → BitVec 128 :=
  regs 2 fun i => vcleq_s32 (a i) (vdupq_n_s32 0)
/-- neon_double.hh:947-954 -/
def neon2.vmin_f32 (a : Nat → BitVec 128) (b : Nat → BitVec 128) : Nat → BitVec 128 :=
  regs 2 fun i => vminq_f32 (a i) (b i)
/-- neon_double.hh:956-963 -/
def neon2.vmin_i8 (a : Nat → BitVec 128) (b : Nat → BitVec 128) : Nat → BitVec 128 :=
  regs 2 fun i => vminq_s8 (a i) (b i)
/-- neon_double.hh:965-972 -/
def neon2.vmin_i16 (a : Nat → BitVec 128) (b : Nat → BitVec 128) : Nat → BitVec 128 :=
  regs 2 fun i => vminq_s16 (a i) (b i)
/-- neon_double.hh:974-981 -/
def neon2.vmin_i32 (a : Nat → BitVec 128) (b : Nat → BitVec 128) : Nat → BitVec 128 :=
  regs 2 fun i => vminq_s32 (a i) (b i)
/-- neon_double.hh:983-990 -/
def neon2.vmax_f32 (a : Nat → BitVec 128) (b : Nat → BitVec 128) : Nat → BitVec 128 :=
  regs 2 fun i => vmaxq_f32 (a i) (b i)
/-- neon_double.hh:992-999 -/
def neon2.vmax_i8 (a : Nat → BitVec 128) (b : Nat → BitVec 128) : Nat → BitVec 128 :=
  regs 2 fun i => vmaxq_s8 (a i) (b i)
/-- neon_double.hh:1001-1008 -/
def neon2.vmax_i16 (a : Nat → BitVec 128) (b : Nat → BitVec 128) : Nat → BitVec 128 :=
  regs 2 fun i => vmaxq_s16 (a i) (b i)
/-- neon_double.hh:1010-1017 -/
def neon2.vmax_i32 (a : Nat → BitVec 128) (b : Nat → BitVec 128) : Nat → BitVec 128 :=
  regs 2 fun i => vmaxq_s32 (a i) (b i)
/-- neon_double.hh:1019-1026 -/
def neon2.vclamp_f32 (x : Nat → BitVec 128) (a : BitVec 32) (b : BitVec 32) : Nat → BitVec 128 :=
  regs 2 fun i => vminq_f32 (vmaxq_f32 (x i) (vdupq_n_f32 a)) (vdupq_n_f32 b)
/-- neon_double.hh:1028-1035 -/
def neon2.vclamp_i8 (x : Nat → BitVec 128) (a : BitVec 8) (b : BitVec 8) : Nat → BitVec 128 :=
  regs 2 fun i => vminq_s8 (vmaxq_s8 (x i) (vdupq_n_s8 a)) (vdupq_n_s8 b)
/-- neon_double.hh:1037-1044 -/
def neon2.vclamp_i16 (x : Nat → BitVec 128) (a : BitVec 16) (b : BitVec 16) : Nat → BitVec 128 :=
  regs 2 fun i => vminq_s16 (vmaxq_s16 (x i) (vdupq_n_s16 a)) (vdupq_n_s16 b)
/-- neon_double.hh:1046-1053 -/
def neon2.vclamp_i32 (x : Nat → BitVec 128) (a : BitVec 32) (b : BitVec 32) : Nat → BitVec 128 :=
  regs 2 fun i => vminq_s32 (vmaxq_s32 (x i) (vdupq_n_s32 a)) (vdupq_n_s32 b)
/-- neon_double.hh:1056-1063 -/
def neon2.vshuf_u8 (a : Nat → BitVec 128) (b : Nat → BitVec 128) : Nat → BitVec 128 :=
  regs 2 fun i => vorrq_u8 (vqtbl1q_u8 (a 0) (b i)) (vqtbl1q_u8 (a 1) (vsubq_u8 (b i) (vdupq_n_u8 16)))
/-- neon_double.hh:1065-1072 -/
def neon2.vshuf_i8 (a : Nat → BitVec 128) (b : Nat → BitVec 128) : Nat → BitVec 128 :=
  regs 2 fun i => vorrq_s8 (vqtbl1q_s8 (a 0) (b i)) (vqtbl1q_s8 (a 1) (vsubq_u8 (b i) (vdupq_n_u8 16)))

end Verif.SIMD
