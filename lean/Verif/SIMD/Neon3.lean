import Verif.SIMD.Intrin
/- Model of neon_triple.hh, generated by tools/gen_simd.py: every function is the composition of intrinsics in its body.
A value is the array `m` of its registers. -/
namespace Verif.SIMD

/-- neon_triple.hh:110-117 -/
def neon3.vreinterpret_u32_f32 (a : Nat → BitVec 128) : Nat → BitVec 128 :=
  regs 3 fun i => a i
/-- neon_triple.hh:119-126 -/
def neon3.vreinterpret_f32_u32 (a : Nat → BitVec 128) : Nat → BitVec 128 :=
  regs 3 fun i => a i
/-- neon_triple.hh:128-135 -/
def neon3.vreinterpret_u8_i8 (a : Nat → BitVec 128) : Nat → BitVec 128 :=
  regs 3 fun i => a i
/-- neon_triple.hh:137-144 -/
def neon3.vreinterpret_i8_u8 (a : Nat → BitVec 128) : Nat → BitVec 128 :=
  regs 3 fun i => a i
/-- neon_triple.hh:146-153 -/
def neon3.vreinterpret_u16_i16 (a : Nat → BitVec 128) : Nat → BitVec 128 :=
  regs 3 fun i => a i
/-- neon_triple.hh:155-162 -/
def neon3.vreinterpret_i16_u16 (a : Nat → BitVec 128) : Nat → BitVec 128 :=
  regs 3 fun i => a i
/-- neon_triple.hh:164-171 -/
def neon3.vreinterpret_u32_i32 (a : Nat → BitVec 128) : Nat → BitVec 128 :=
  regs 3 fun i => a i
/-- neon_triple.hh:173-180 -/
def neon3.vreinterpret_i32_u32 (a : Nat → BitVec 128) : Nat → BitVec 128 :=
  regs 3 fun i => a i
/-- neon_triple.hh:182-189 -/
def neon3.vdup_f32 (a : BitVec 32) : Nat → BitVec 128 :=
  regs 3 fun i => vdupq_n_f32 a
/-- neon_triple.hh:191-198 -/
def neon3.vdup_i8 (a : BitVec 8) : Nat → BitVec 128 :=
  regs 3 fun i => vdupq_n_s8 a
/-- neon_triple.hh:200-207 -/
def neon3.vdup_i16 (a : BitVec 16) : Nat → BitVec 128 :=
  regs 3 fun i => vdupq_n_s16 a
/-- neon_triple.hh:209-216 -/
def neon3.vdup_i32 (a : BitVec 32) : Nat → BitVec 128 :=
  regs 3 fun i => vdupq_n_s32 a
/-- neon_triple.hh:218-225 -/
def neon3.vdup_i64 (a : BitVec 64) : Nat → BitVec 128 :=
  regs 3 fun i => vdupq_n_s64 a
/-- neon_triple.hh:227-234 -/
def neon3.vdup_u8 (a : BitVec 8) : Nat → BitVec 128 :=
  regs 3 fun i => vdupq_n_u8 a
/-- neon_triple.hh:236-243 -/
def neon3.vdup_u16 (a : BitVec 16) : Nat → BitVec 128 :=
  regs 3 fun i => vdupq_n_u16 a
/-- neon_triple.hh:245-252 -/
def neon3.vdup_u32 (a : BitVec 32) : Nat → BitVec 128 :=
  regs 3 fun i => vdupq_n_u32 a
/-- neon_triple.hh:254-261 -/
def neon3.vdup_u64 (a : BitVec 64) : Nat → BitVec 128 :=
  regs 3 fun i => vdupq_n_u64 a
/-- neon_triple.hh:263-270 -/
def neon3.vzero_f32 (tmp : Nat → BitVec 128) : Nat → BitVec 128 :=
  regs 3 fun i => veorq_u32 (tmp i) (tmp i)
/-- neon_triple.hh:272-279 -/
def neon3.vzero_i8 (tmp : Nat → BitVec 128) : Nat → BitVec 128 :=
  regs 3 fun i => veorq_s8 (tmp i) (tmp i)
/-- neon_triple.hh:281-288 -/
def neon3.vzero_i16 (tmp : Nat → BitVec 128) : Nat → BitVec 128 :=
  regs 3 fun i => veorq_s16 (tmp i) (tmp i)
/-- neon_triple.hh:290-297 -/
def neon3.vzero_i32 (tmp : Nat → BitVec 128) : Nat → BitVec 128 :=
  regs 3 fun i => veorq_s32 (tmp i) (tmp i)
/-- neon_triple.hh:299-306 -/
def neon3.vzero_i64 (tmp : Nat → BitVec 128) : Nat → BitVec 128 :=
  regs 3 fun i => veorq_s64 (tmp i) (tmp i)
/-- neon_triple.hh:308-315 -/
def neon3.vzero_u8 (tmp : Nat → BitVec 128) : Nat → BitVec 128 :=
  regs 3 fun i => veorq_u8 (tmp i) (tmp i)
/-- neon_triple.hh:317-324 -/
def neon3.vzero_u16 (tmp : Nat → BitVec 128) : Nat → BitVec 128 :=
  regs 3 fun i => veorq_u16 (tmp i) (tmp i)
/-- neon_triple.hh:326-333 -/
def neon3.vzero_u32 (tmp : Nat → BitVec 128) : Nat → BitVec 128 :=
  regs 3 fun i => veorq_u32 (tmp i) (tmp i)
/-- neon_triple.hh:335-342 -/
def neon3.vzero_u64 (tmp : Nat → BitVec 128) : Nat → BitVec 128 :=
  regs 3 fun i => veorq_u64 (tmp i) (tmp i)
/-- neon_triple.hh:344-351 -/
def neon3.vadd_f32 (A32 : Fpu 32) (a : Nat → BitVec 128) (b : Nat → BitVec 128) : Nat → BitVec 128 :=
  regs 3 fun i => vaddq_f32 A32 (a i) (b i)
/-- neon_triple.hh:353-360 -/
def neon3.vadd_i8 (a : Nat → BitVec 128) (b : Nat → BitVec 128) : Nat → BitVec 128 :=
  regs 3 fun i => vaddq_s8 (a i) (b i)
/-- neon_triple.hh:362-369 -/
def neon3.vadd_i16 (a : Nat → BitVec 128) (b : Nat → BitVec 128) : Nat → BitVec 128 :=
  regs 3 fun i => vaddq_s16 (a i) (b i)
/-- neon_triple.hh:371-378 -/
def neon3.vadd_i32 (a : Nat → BitVec 128) (b : Nat → BitVec 128) : Nat → BitVec 128 :=
  regs 3 fun i => vaddq_s32 (a i) (b i)
/-- neon_triple.hh:380-387 -/
def neon3.vadd_i64 (a : Nat → BitVec 128) (b : Nat → BitVec 128) : Nat → BitVec 128 :=
  regs 3 fun i => vaddq_s64 (a i) (b i)
/-- neon_triple.hh:389-396 -/
def neon3.vqadd_i8 (a : Nat → BitVec 128) (b : Nat → BitVec 128) : Nat → BitVec 128 :=
  regs 3 fun i => vqaddq_s8 (a i) (b i)
/-- neon_triple.hh:398-405 -/
def neon3.vqadd_i16 (a : Nat → BitVec 128) (b : Nat → BitVec 128) : Nat → BitVec 128 :=
  regs 3 fun i => vqaddq_s16 (a i) (b i)
/-- neon_triple.hh:407-414 -/
def neon3.vsub_f32 (A32 : Fpu 32) (a : Nat → BitVec 128) (b : Nat → BitVec 128) : Nat → BitVec 128 :=
  regs 3 fun i => vsubq_f32 A32 (a i) (b i)
/-- neon_triple.hh:416-423 -/
def neon3.vsub_i8 (a : Nat → BitVec 128) (b : Nat → BitVec 128) : Nat → BitVec 128 :=
  regs 3 fun i => vsubq_s8 (a i) (b i)
/-- neon_triple.hh:425-432 -/
def neon3.vsub_i16 (a : Nat → BitVec 128) (b : Nat → BitVec 128) : Nat → BitVec 128 :=
  regs 3 fun i => vsubq_s16 (a i) (b i)
/-- neon_triple.hh:434-441 -/
def neon3.vsub_i32 (a : Nat → BitVec 128) (b : Nat → BitVec 128) : Nat → BitVec 128 :=
  regs 3 fun i => vsubq_s32 (a i) (b i)
/-- neon_triple.hh:443-450 -/
def neon3.vsub_i64 (a : Nat → BitVec 128) (b : Nat → BitVec 128) : Nat → BitVec 128 :=
  regs 3 fun i => vsubq_s64 (a i) (b i)
/-- neon_triple.hh:452-459 -/
def neon3.vqsub_i8 (a : Nat → BitVec 128) (b : Nat → BitVec 128) : Nat → BitVec 128 :=
  regs 3 fun i => vqsubq_s8 (a i) (b i)
/-- neon_triple.hh:461-468 -/
def neon3.vqsub_i16 (a : Nat → BitVec 128) (b : Nat → BitVec 128) : Nat → BitVec 128 :=
  regs 3 fun i => vqsubq_s16 (a i) (b i)
/-- neon_triple.hh:470-477 -/
def neon3.vqsub_u8 (a : Nat → BitVec 128) (b : Nat → BitVec 128) : Nat → BitVec 128 :=
  regs 3 fun i => vqsubq_u8 (a i) (b i)
/-- neon_triple.hh:479-486 -/
def neon3.vqsub_u16 (a : Nat → BitVec 128) (b : Nat → BitVec 128) : Nat → BitVec 128 :=
  regs 3 fun i => vqsubq_u16 (a i) (b i)
/-- neon_triple.hh:488-495 -/
def neon3.vmul_f32 (A32 : Fpu 32) (a : Nat → BitVec 128) (b : Nat → BitVec 128) : Nat → BitVec 128 :=
  regs 3 fun i => vmulq_f32 A32 (a i) (b i)
/-- neon_triple.hh:497-504 -/
def neon3.vmul_i8 (a : Nat → BitVec 128) (b : Nat → BitVec 128) : Nat → BitVec 128 :=
  regs 3 fun i => vmulq_s8 (a i) (b i)
/-- neon_triple.hh:506-513 -/
def neon3.vabs_f32 (a : Nat → BitVec 128) : Nat → BitVec 128 :=
  regs 3 fun i => vabsq_f32 (a i)
/-- neon_triple.hh:515-522 -/
def neon3.vqabs_i8 (a : Nat → BitVec 128) : Nat → BitVec 128 :=
  regs 3 fun i => vqabsq_s8 (a i)
/-- neon_triple.hh:524-531 -/
def neon3.vqabs_i16 (a : Nat → BitVec 128) : Nat → BitVec 128 :=
  regs 3 fun i => vqabsq_s16 (a i)
/-- neon_triple.hh:533-542 -/
def neon3.vsignum_f32 (a : Nat → BitVec 128) : Nat → BitVec 128 :=
  regs 3 fun i => vbicq_u32 (veorq_u32 (vdupq_n_f32 f32.one) (vandq_u32 (vdupq_n_f32 (negz 32)) (a i))) (vceqq_f32 (a i) (vdupq_n_f32 (0#32)))
/-- neon_triple.hh:544-552 -/
def neon3.vsignum_i8 (a : Nat → BitVec 128) : Nat → BitVec 128 :=
  regs 3 fun i => vorrq_u8 (vcgtq_s8 (vdupq_n_s8 0) (a i)) (vandq_u8 (vcgtq_s8 (a i) (vdupq_n_s8 0)) (vdupq_n_s8 1))
/-- neon_triple.hh:554-563 -/
def neon3.vsign_f32 (a : Nat → BitVec 128) (b : Nat → BitVec 128) : Nat → BitVec 128 :=
  regs 3 fun i => vbicq_u32 (veorq_u32 (a i) (vandq_u32 (vdupq_n_f32 (negz 32)) (b i))) (vceqq_f32 (b i) (vdupq_n_f32 (0#32)))
/-- neon_triple.hh:565-574 -/
def neon3.vsign_i8 (a : Nat → BitVec 128) (b : Nat → BitVec 128) : Nat → BitVec 128 :=
  regs 3 fun i => vorrq_u8 (vandq_u8 (vcgtq_s8 (vdupq_n_s8 0) (b i)) (vnegq_s8 (a i))) (vandq_u8 (vcgtq_s8 (b i) (vdupq_n_s8 0)) (a i))
/-- neon_triple.hh:576-585 -/
def neon3.vcopysign_f32 (a : Nat → BitVec 128) (b : Nat → BitVec 128) : Nat → BitVec 128 :=
  regs 3 fun i => vorrq_u32 (vbicq_u32 (a i) (vdupq_n_f32 (negz 32))) (vandq_u32 (b i) (vdupq_n_f32 (negz 32)))
/-- neon_triple.hh:587-594 -/
def neon3.vorr_u8 (a : Nat → BitVec 128) (b : Nat → BitVec 128) : Nat → BitVec 128 :=
  regs 3 fun i => vorrq_u8 (a i) (b i)
/-- neon_triple.hh:596-603 -/
def neon3.vorr_u16 (a : Nat → BitVec 128) (b : Nat → BitVec 128) : Nat → BitVec 128 :=
  regs 3 fun i => vorrq_u16 (a i) (b i)
/-- neon_triple.hh:605-612 -/
def neon3.vorr_u32 (a : Nat → BitVec 128) (b : Nat → BitVec 128) : Nat → BitVec 128 :=
  regs 3 fun i => vorrq_u32 (a i) (b i)
/-- neon_triple.hh:614-621 -/
def neon3.vorr_u64 (a : Nat → BitVec 128) (b : Nat → BitVec 128) : Nat → BitVec 128 :=
  regs 3 fun i => vorrq_u64 (a i) (b i)
/-- neon_triple.hh:623-630 -/
def neon3.vand_u8 (a : Nat → BitVec 128) (b : Nat → BitVec 128) : Nat → BitVec 128 :=
  regs 3 fun i => vandq_u8 (a i) (b i)
/-- neon_triple.hh:632-639 -/
def neon3.vand_u16 (a : Nat → BitVec 128) (b : Nat → BitVec 128) : Nat → BitVec 128 :=
  regs 3 fun i => vandq_u16 (a i) (b i)
/-- neon_triple.hh:641-648 -/
def neon3.vand_u32 (a : Nat → BitVec 128) (b : Nat → BitVec 128) : Nat → BitVec 128 :=
  regs 3 fun i => vandq_u32 (a i) (b i)
/-- neon_triple.hh:650-657 -/
def neon3.vand_u64 (a : Nat → BitVec 128) (b : Nat → BitVec 128) : Nat → BitVec 128 :=
  regs 3 fun i => vandq_u64 (a i) (b i)
/-- neon_triple.hh:659-666 -/
def neon3.veor_u8 (a : Nat → BitVec 128) (b : Nat → BitVec 128) : Nat → BitVec 128 :=
  regs 3 fun i => veorq_u8 (a i) (b i)
/-- neon_triple.hh:668-675 -/
def neon3.veor_u16 (a : Nat → BitVec 128) (b : Nat → BitVec 128) : Nat → BitVec 128 :=
  regs 3 fun i => veorq_u16 (a i) (b i)
/-- neon_triple.hh:677-684 -/
def neon3.veor_u32 (a : Nat → BitVec 128) (b : Nat → BitVec 128) : Nat → BitVec 128 :=
  regs 3 fun i => veorq_u32 (a i) (b i)
/-- neon_triple.hh:686-693 -/
def neon3.veor_u64 (a : Nat → BitVec 128) (b : Nat → BitVec 128) : Nat → BitVec 128 :=
  regs 3 fun i => veorq_u64 (a i) (b i)
/-- neon_triple.hh:695-702 -/
def neon3.vbic_u8 (a : Nat → BitVec 128) (b : Nat → BitVec 128) : Nat → BitVec 128 :=
  regs 3 fun i => vbicq_u8 (a i) (b i)
/-- neon_triple.hh:704-711 -/
def neon3.vbic_u16 (a : Nat → BitVec 128) (b : Nat → BitVec 128) : Nat → BitVec 128 :=
  regs 3 fun i => vbicq_u16 (a i) (b i)
/-- neon_triple.hh:713-720 -/
def neon3.vbic_u32 (a : Nat → BitVec 128) (b : Nat → BitVec 128) : Nat → BitVec 128 :=
  regs 3 fun i => vbicq_u32 (a i) (b i)
/-- neon_triple.hh:722-729 -/
def neon3.vbic_u64 (a : Nat → BitVec 128) (b : Nat → BitVec 128) : Nat → BitVec 128 :=
  regs 3 fun i => vbicq_u64 (a i) (b i)
/-- neon_triple.hh:731-738 -/
def neon3.vbsl_u8 (a : Nat → BitVec 128) (b : Nat → BitVec 128) (c : Nat → BitVec 128) : Nat → BitVec 128 :=
  regs 3 fun i => vbslq_u8 (a i) (b i) (c i)
/-- neon_triple.hh:740-747 -/
def neon3.vbsl_u16 (a : Nat → BitVec 128) (b : Nat → BitVec 128) (c : Nat → BitVec 128) : Nat → BitVec 128 :=
  regs 3 fun i => vbslq_u16 (a i) (b i) (c i)
/-- neon_triple.hh:749-756 -/
def neon3.vbsl_u32 (a : Nat → BitVec 128) (b : Nat → BitVec 128) (c : Nat → BitVec 128) : Nat → BitVec 128 :=
  regs 3 fun i => vbslq_u32 (a i) (b i) (c i)
/-- neon_triple.hh:758-765 -/
def neon3.vbsl_u64 (a : Nat → BitVec 128) (b : Nat → BitVec 128) (c : Nat → BitVec 128) : Nat → BitVec 128 :=
  regs 3 fun i => vbslq_u64 (a i) (b i) (c i)
/-- neon_triple.hh:767-774 -/
def neon3.vceqz_f32 (a : Nat → BitVec 128) : Nat → BitVec 128 :=
  regs 3 fun i => vceqq_f32 (a i) (vdupq_n_f32 (0#32))
/-- neon_triple.hh:776-783 -/
def neon3.vceqz_i8 (a : Nat → BitVec 128) : Nat → BitVec 128 :=
  regs 3 fun i => vceqq_s8 (a i) (vdupq_n_s8 0)
/-- neon_triple.hh:785-792 -/
def neon3.vceqz_i16 (a : Nat → BitVec 128) : Nat → BitVec 128 :=
  regs 3 fun i => vceqq_s16 (a i) (vdupq_n_s16 0)
/-- neon_triple.hh:794-801 -/
def neon3.vceqz_i32 (a : Nat → BitVec 128) : Nat → BitVec 128 :=
  regs 3 fun i => vceqq_s32 (a i) (vdupq_n_s32 0)
/-- neon_triple.hh:803-810 -/
def neon3.vceq_f32 (a : Nat → BitVec 128) (b : Nat → BitVec 128) : Nat → BitVec 128 :=
  regs 3 fun i => vceqq_f32 (a i) (b i)
/-- neon_triple.hh:812-819 -/
def neon3.vceq_i8 (a : Nat → BitVec 128) (b : Nat → BitVec 128) : Nat → BitVec 128 :=
  regs 3 fun i => vceqq_s8 (a i) (b i)
/-- neon_triple.hh:821-828 -/
def neon3.vceq_i16 (a : Nat → BitVec 128) (b : Nat → BitVec 128) : Nat → BitVec 128 :=
  regs 3 fun i => vceqq_s16 (a i) (b i)
/-- neon_triple.hh:830-837 -/
def neon3.vceq_i32 (a : Nat → BitVec 128) (b : Nat → BitVec 128) : Nat → BitVec 128 :=
  regs 3 fun i => vceqq_s32 (a i) (b i)
/-- neon_triple.hh:839-846 -/
def neon3.vcgtz_f32 (a : Nat → BitVec 128) : Nat → BitVec 128 :=
  regs 3 fun i => vcgtq_f32 (a i) (vdupq_n_f32 (0#32))
/-- neon_triple.hh:848-855 -/
def neon3.vcgtz_i8 (a : Nat → BitVec 128) : Nat → BitVec 128 :=
  regs 3 fun i => vcgtq_s8 (a i) (vdupq_n_s8 0)
/-- neon_triple.hh:857-864 -/
def neon3.vcgtz_i16 (a : Nat → BitVec 128) : Nat → BitVec 128 :=
  regs 3 fun i => vcgtq_s16 (a i) (vdupq_n_s16 0)
/-- neon_triple.hh:866-873 -/
def neon3.vcgtz_i32 (a : Nat → BitVec 128) : Nat → BitVec 128 :=
  regs 3 fun i => vcgtq_s32 (a i) (vdupq_n_s32 0)
/-- neon_triple.hh:875-882 -/
def neon3.vcltz_f32 (a : Nat → BitVec 128) : Nat → BitVec 128 :=
  regs 3 fun i => vcltq_f32 (a i) (vdupq_n_f32 (0#32))
/-- neon_triple.hh:884-891 -/
def neon3.vcltz_i8 (a : Nat → BitVec 128) : Nat → BitVec 128 :=
  regs 3 fun i => vcltq_s8 (a i) (vdupq_n_s8 0)
/-- neon_triple.hh:893-900 -/
def neon3.vcltz_i16 (a : Nat → BitVec 128) : Nat → BitVec 128 :=
  regs 3 fun i => vcltq_s16 (a i) (vdupq_n_s16 0)
/-- neon_triple.hh:902-909 -/
def neon3.vcltz_i32 (a : Nat → BitVec 128) : Nat → BitVec 128 :=
  regs 3 fun i => vcltq_s32 (a i) (vdupq_n_s32 0)
/-- neon_triple.hh:911-918 -/
def neon3.vclez_f32 (a : Nat → BitVec 128) : Nat → BitVec 128 :=
  regs 3 fun i => vcleq_f32 (a i) (vdupq_n_f32 (0#32))
/-- neon_triple.hh:920-927 -/
def neon3.vclez_i8 (a : Nat → BitVec 128) : Nat → BitVec 128 :=
  regs 3 fun i => vcleq_s8 (a i) (vdupq_n_s8 0)
/-- neon_triple.hh:929-936 -/
def neon3.vclez_i16 (a : Nat → BitVec 128) : Nat → BitVec 128 :=
  regs 3 fun i => vcleq_s16 (a i) (vdupq_n_s16 0)
/-- neon_triple.hh:938-945 -/
def neon3.vclez_i32 (a : Nat → BitVec 128) : Nat → BitVec 128 :=
  regs 3 fun i => vcleq_s32 (a i) (vdupq_n_s32 0)
/-- neon_triple.hh:947-954 -/
def neon3.vmin_f32 (a : Nat → BitVec 128) (b : Nat → BitVec 128) : Nat → BitVec 128 :=
  regs 3 fun i => vminq_f32 (a i) (b i)
/-- neon_triple.hh:956-963 -/
def neon3.vmin_i8 (a : Nat → BitVec 128) (b : Nat → BitVec 128) : Nat → BitVec 128 :=
  regs 3 fun i => vminq_s8 (a i) (b i)
/-- neon_triple.hh:965-972 -/
def neon3.vmin_i16 (a : Nat → BitVec 128) (b : Nat → BitVec 128) : Nat → BitVec 128 :=
  regs 3 fun i => vminq_s16 (a i) (b i)
/-- neon_triple.hh:974-981 -/
def neon3.vmin_i32 (a : Nat → BitVec 128) (b : Nat → BitVec 128) : Nat → BitVec 128 :=
  regs 3 fun i => vminq_s32 (a i) (b i)
/-- neon_triple.hh:983-990 -/
def neon3.vmax_f32 (a : Nat → BitVec 128) (b : Nat → BitVec 128) : Nat → BitVec 128 :=
  regs 3 fun i => vmaxq_f32 (a i) (b i)
/-- neon_triple.hh:992-999 -/
def neon3.vmax_i8 (a : Nat → BitVec 128) (b : Nat → BitVec 128) : Nat → BitVec 128 :=
  regs 3 fun i => vmaxq_s8 (a i) (b i)
/-- neon_triple.hh:1001-1008 -/
def neon3.vmax_i16 (a : Nat → BitVec 128) (b : Nat → BitVec 128) : Nat → BitVec 128 :=
  regs 3 fun i => vmaxq_s16 (a i) (b i)
/-- neon_triple.hh:1010-1017 -/
def neon3.vmax_i32 (a : Nat → BitVec 128) (b : Nat → BitVec 128) : Nat → BitVec 128 :=
  regs 3 fun i => vmaxq_s32 (a i) (b i)
/-- neon_triple.hh:1019-1026 -/
def neon3.vclamp_f32 (x : Nat → BitVec 128) (a : BitVec 32) (b : BitVec 32) : Nat → BitVec 128 :=
  regs 3 fun i => vminq_f32 (vmaxq_f32 (x i) (vdupq_n_f32 a)) (vdupq_n_f32 b)
/-- neon_triple.hh:1028-1035 -/
def neon3.vclamp_i8 (x : Nat → BitVec 128) (a : BitVec 8) (b : BitVec 8) : Nat → BitVec 128 :=
  regs 3 fun i => vminq_s8 (vmaxq_s8 (x i) (vdupq_n_s8 a)) (vdupq_n_s8 b)
/-- neon_triple.hh:1037-1044 -/
def neon3.vclamp_i16 (x : Nat → BitVec 128) (a : BitVec 16) (b : BitVec 16) : Nat → BitVec 128 :=
  regs 3 fun i => vminq_s16 (vmaxq_s16 (x i) (vdupq_n_s16 a)) (vdupq_n_s16 b)
/-- neon_triple.hh:1046-1053 -/
def neon3.vclamp_i32 (x : Nat → BitVec 128) (a : BitVec 32) (b : BitVec 32) : Nat → BitVec 128 :=
  regs 3 fun i => vminq_s32 (vmaxq_s32 (x i) (vdupq_n_s32 a)) (vdupq_n_s32 b)
/-- neon_triple.hh:1056-1065 -/
def neon3.vshuf_u8 (a : Nat → BitVec 128) (b : Nat → BitVec 128) : Nat → BitVec 128 :=
  regs 3 fun i => vorrq_u8 (vorrq_u8 (vqtbl1q_u8 (a 0) (b i)) (vqtbl1q_u8 (a 1) (vsubq_u8 (b i) (vdupq_n_u8 16)))) (vqtbl1q_u8 (a 2) (vsubq_u8 (b i) (vdupq_n_u8 32)))
/-- neon_triple.hh:1067-1076 -/
def neon3.vshuf_i8 (a : Nat → BitVec 128) (b : Nat → BitVec 128) : Nat → BitVec 128 :=
  regs 3 fun i => vorrq_s8 (vorrq_s8 (vqtbl1q_s8 (a 0) (b i)) (vqtbl1q_s8 (a 1) (vsubq_u8 (b i) (vdupq_n_u8 16)))) (vqtbl1q_s8 (a 2) (vsubq_u8 (b i) (vdupq_n_u8 32)))

end Verif.SIMD
