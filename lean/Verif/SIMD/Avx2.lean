import Verif.SIMD.Intrin
/- Model of avx2_double.hh, generated by tools/gen_simd.py: every function is the composition of intrinsics in its body.
A value is the array `m` of its registers. -/
namespace Verif.SIMD

/-- avx2_double.hh:121-128 -/
def avx2.vreinterpret_u32_f32 (a : Nat → BitVec 256) : Nat → BitVec 256 :=
  regs 2 fun i => a i
/-- avx2_double.hh:130-137 -/
def avx2.vreinterpret_f32_u32 (a : Nat → BitVec 256) : Nat → BitVec 256 :=
  regs 2 fun i => a i
/-- avx2_double.hh:139-146 -/
def avx2.vreinterpret_u64_f64 (a : Nat → BitVec 256) : Nat → BitVec 256 :=
  regs 2 fun i => a i
/-- avx2_double.hh:148-155 -/
def avx2.vreinterpret_f64_u64 (a : Nat → BitVec 256) : Nat → BitVec 256 :=
  regs 2 fun i => a i
/-- avx2_double.hh:157-164 -/
def avx2.vreinterpret_i8_u8 (a : Nat → BitVec 256) : Nat → BitVec 256 :=
  regs 2 fun i => a i
/-- avx2_double.hh:166-173 -/
def avx2.vreinterpret_u8_i8 (a : Nat → BitVec 256) : Nat → BitVec 256 :=
  regs 2 fun i => a i
/-- avx2_double.hh:175-182 -/
def avx2.vreinterpret_i16_u16 (a : Nat → BitVec 256) : Nat → BitVec 256 :=
  regs 2 fun i => a i
/-- avx2_double.hh:184-191 -/
def avx2.vreinterpret_u16_i16 (a : Nat → BitVec 256) : Nat → BitVec 256 :=
  regs 2 fun i => a i
/-- avx2_double.hh:193-200 -/
def avx2.vreinterpret_i32_u32 (a : Nat → BitVec 256) : Nat → BitVec 256 :=
  regs 2 fun i => a i
/-- avx2_double.hh:202-209 -/
def avx2.vreinterpret_u32_i32 (a : Nat → BitVec 256) : Nat → BitVec 256 :=
  regs 2 fun i => a i
/-- avx2_double.hh:211-218 -/
def avx2.vreinterpret_i64_u64 (a : Nat → BitVec 256) : Nat → BitVec 256 :=
  regs 2 fun i => a i
/-- avx2_double.hh:220-227 -/
def avx2.vreinterpret_u64_i64 (a : Nat → BitVec 256) : Nat → BitVec 256 :=
  regs 2 fun i => a i
/-- avx2_double.hh:229-236 -/
def avx2.vdup_f32 (a : BitVec 32) : Nat → BitVec 256 :=
  regs 2 fun i => _mm256_set1_ps a
/-- avx2_double.hh:238-245 -/
def avx2.vdup_f64 (a : BitVec 64) : Nat → BitVec 256 :=
  regs 2 fun i => _mm256_set1_pd a
/-- avx2_double.hh:247-254 -/
def avx2.vdup_i8 (a : BitVec 8) : Nat → BitVec 256 :=
  regs 2 fun i => _mm256_set1_epi8 a
/-- avx2_double.hh:256-263 -/
def avx2.vdup_i16 (a : BitVec 16) : Nat → BitVec 256 :=
  regs 2 fun i => _mm256_set1_epi16 a
/-- avx2_double.hh:265-272 -/
def avx2.vdup_i32 (a : BitVec 32) : Nat → BitVec 256 :=
  regs 2 fun i => _mm256_set1_epi32 a
/-- avx2_double.hh:274-281 -/
def avx2.vdup_i64 (a : BitVec 64) : Nat → BitVec 256 :=
  regs 2 fun i => _mm256_set1_epi64x a
/-- avx2_double.hh:283-290 -/
def avx2.vzero_f32 : Nat → BitVec 256 :=
  regs 2 fun i => _mm256_setzero_ps
/-- avx2_double.hh:292-299 -/
def avx2.vzero_f64 : Nat → BitVec 256 :=
  regs 2 fun i => _mm256_setzero_pd
/-- avx2_double.hh:301-308 -/
def avx2.vzero_i8 : Nat → BitVec 256 :=
  regs 2 fun i => _mm256_setzero_si256
/-- avx2_double.hh:310-317 -/
def avx2.vzero_i16 : Nat → BitVec 256 :=
  regs 2 fun i => _mm256_setzero_si256
/-- avx2_double.hh:319-326 -/
def avx2.vzero_i32 : Nat → BitVec 256 :=
  regs 2 fun i => _mm256_setzero_si256
/-- avx2_double.hh:328-335 -/
def avx2.vzero_i64 : Nat → BitVec 256 :=
  regs 2 fun i => _mm256_setzero_si256
/-- avx2_double.hh:337-344 -/
def avx2.vadd_f32 (A32 : Fpu 32) (a : Nat → BitVec 256) (b : Nat → BitVec 256) : Nat → BitVec 256 :=
  regs 2 fun i => _mm256_add_ps A32 (a i) (b i)
/-- avx2_double.hh:346-353 -/
def avx2.vadd_f64 (A64 : Fpu 64) (a : Nat → BitVec 256) (b : Nat → BitVec 256) : Nat → BitVec 256 :=
  regs 2 fun i => _mm256_add_pd A64 (a i) (b i)
/-- avx2_double.hh:355-362 -/
def avx2.vadd_i8 (a : Nat → BitVec 256) (b : Nat → BitVec 256) : Nat → BitVec 256 :=
  regs 2 fun i => _mm256_add_epi8 (a i) (b i)
/-- avx2_double.hh:364-371 -/
def avx2.vadd_i16 (a : Nat → BitVec 256) (b : Nat → BitVec 256) : Nat → BitVec 256 :=
  regs 2 fun i => _mm256_add_epi16 (a i) (b i)
/-- avx2_double.hh:373-380 -/
def avx2.vadd_i32 (a : Nat → BitVec 256) (b : Nat → BitVec 256) : Nat → BitVec 256 :=
  regs 2 fun i => _mm256_add_epi32 (a i) (b i)
/-- avx2_double.hh:382-389 -/
def avx2.vadd_i64 (a : Nat → BitVec 256) (b : Nat → BitVec 256) : Nat → BitVec 256 :=
  regs 2 fun i => _mm256_add_epi64 (a i) (b i)
/-- avx2_double.hh:391-398 -/
def avx2.vqadd_i8 (a : Nat → BitVec 256) (b : Nat → BitVec 256) : Nat → BitVec 256 :=
  regs 2 fun i => _mm256_adds_epi8 (a i) (b i)
/-- avx2_double.hh:400-407 -/
def avx2.vqadd_i16 (a : Nat → BitVec 256) (b : Nat → BitVec 256) : Nat → BitVec 256 :=
  regs 2 fun i => _mm256_adds_epi16 (a i) (b i)
/-- avx2_double.hh:409-416 -/
def avx2.vsub_f32 (A32 : Fpu 32) (a : Nat → BitVec 256) (b : Nat → BitVec 256) : Nat → BitVec 256 :=
  regs 2 fun i => _mm256_sub_ps A32 (a i) (b i)
/-- avx2_double.hh:418-425 -/
def avx2.vsub_f64 (A64 : Fpu 64) (a : Nat → BitVec 256) (b : Nat → BitVec 256) : Nat → BitVec 256 :=
  regs 2 fun i => _mm256_sub_pd A64 (a i) (b i)
/-- avx2_double.hh:427-434 -/
def avx2.vsub_i8 (a : Nat → BitVec 256) (b : Nat → BitVec 256) : Nat → BitVec 256 :=
  regs 2 fun i => _mm256_sub_epi8 (a i) (b i)
/-- avx2_double.hh:436-443 -/
def avx2.vsub_i16 (a : Nat → BitVec 256) (b : Nat → BitVec 256) : Nat → BitVec 256 :=
  regs 2 fun i => _mm256_sub_epi16 (a i) (b i)
/-- avx2_double.hh:445-452 -/
def avx2.vsub_i32 (a : Nat → BitVec 256) (b : Nat → BitVec 256) : Nat → BitVec 256 :=
  regs 2 fun i => _mm256_sub_epi32 (a i) (b i)
/-- avx2_double.hh:454-461 -/
def avx2.vsub_i64 (a : Nat → BitVec 256) (b : Nat → BitVec 256) : Nat → BitVec 256 :=
  regs 2 fun i => _mm256_sub_epi64 (a i) (b i)
/-- avx2_double.hh:463-470 -/
def avx2.vqsub_i8 (a : Nat → BitVec 256) (b : Nat → BitVec 256) : Nat → BitVec 256 :=
  regs 2 fun i => _mm256_subs_epi8 (a i) (b i)
/-- avx2_double.hh:472-479 -/
def avx2.vqsub_i16 (a : Nat → BitVec 256) (b : Nat → BitVec 256) : Nat → BitVec 256 :=
  regs 2 fun i => _mm256_subs_epi16 (a i) (b i)
/-- avx2_double.hh:481-488 -/
def avx2.vqsub_u8 (a : Nat → BitVec 256) (b : Nat → BitVec 256) : Nat → BitVec 256 :=
  regs 2 fun i => _mm256_subs_epu8 (a i) (b i)
/-- avx2_double.hh:490-497 -/
def avx2.vqsub_u16 (a : Nat → BitVec 256) (b : Nat → BitVec 256) : Nat → BitVec 256 :=
  regs 2 fun i => _mm256_subs_epu16 (a i) (b i)
/-- avx2_double.hh:499-506 -/
def avx2.vmul_f32 (A32 : Fpu 32) (a : Nat → BitVec 256) (b : Nat → BitVec 256) : Nat → BitVec 256 :=
  regs 2 fun i => _mm256_mul_ps A32 (a i) (b i)
/-- avx2_double.hh:508-515 -/
def avx2.vmul_f64 (A64 : Fpu 64) (a : Nat → BitVec 256) (b : Nat → BitVec 256) : Nat → BitVec 256 :=
  regs 2 fun i => _mm256_mul_pd A64 (a i) (b i)
/-- avx2_double.hh:517-524 -/
def avx2.vabs_f32 (a : Nat → BitVec 256) : Nat → BitVec 256 :=
  regs 2 fun i => _mm256_andnot_ps (_mm256_set1_ps (negz 32)) (a i)
/-- avx2_double.hh:526-533 -/
def avx2.vabs_f64 (a : Nat → BitVec 256) : Nat → BitVec 256 :=
  regs 2 fun i => _mm256_andnot_pd (_mm256_set1_pd (negz 64)) (a i)
/-- avx2_double.hh:535-542 -/
def avx2.vqabs_i8 (a : Nat → BitVec 256) : Nat → BitVec 256 :=
  regs 2 fun i => _mm256_abs_epi8 (_mm256_max_epi8 (a i) (_mm256_set1_epi8 (BitVec.ofInt _ (-127))))
/-- avx2_double.hh:544-551 -/
def avx2.vqabs_i16 (a : Nat → BitVec 256) : Nat → BitVec 256 :=
  regs 2 fun i => _mm256_abs_epi16 (_mm256_max_epi16 (a i) (_mm256_set1_epi16 (BitVec.ofInt _ (-32767))))
/-- avx2_double.hh:553-560 -/
def avx2.vqabs_i32 (a : Nat → BitVec 256) : Nat → BitVec 256 :=
  regs 2 fun i => _mm256_abs_epi32 (_mm256_max_epi32 (a i) (_mm256_set1_epi32 (BitVec.ofInt _ (-2147483647))))
/-- avx2_double.hh:562-571 -/
def avx2.vsignum_f32 (a : Nat → BitVec 256) : Nat → BitVec 256 :=
  regs 2 fun i => _mm256_andnot_ps (_mm256_cmp_ps (a i) _mm256_setzero_ps Cmp.eq) (_mm256_or_ps (_mm256_set1_ps f32.one) (_mm256_and_ps (_mm256_set1_ps (negz 32)) (a i)))
/-- avx2_double.hh:573-582 -/
def avx2.vsignum_f64 (a : Nat → BitVec 256) : Nat → BitVec 256 :=
  regs 2 fun i => _mm256_andnot_pd (_mm256_cmp_pd (a i) _mm256_setzero_pd Cmp.eq) (_mm256_or_pd (_mm256_set1_pd f64.one) (_mm256_and_pd (_mm256_set1_pd (negz 64)) (a i)))
/-- avx2_double.hh:584-591 -/
def avx2.vsignum_i8 (a : Nat → BitVec 256) : Nat → BitVec 256 :=
  regs 2 fun i => _mm256_sign_epi8 (_mm256_set1_epi8 1) (a i)
/-- avx2_double.hh:593-600 -/
def avx2.vsignum_i16 (a : Nat → BitVec 256) : Nat → BitVec 256 :=
  regs 2 fun i => _mm256_sign_epi16 (_mm256_set1_epi16 1) (a i)
/-- avx2_double.hh:602-609 -/
def avx2.vsignum_i32 (a : Nat → BitVec 256) : Nat → BitVec 256 :=
  regs 2 fun i => _mm256_sign_epi32 (_mm256_set1_epi32 1) (a i)
/-- avx2_double.hh:611-620 -/
def avx2.vsign_f32 (a : Nat → BitVec 256) (b : Nat → BitVec 256) : Nat → BitVec 256 :=
  regs 2 fun i => _mm256_andnot_ps (_mm256_cmp_ps (b i) _mm256_setzero_ps Cmp.eq) (_mm256_xor_ps (a i) (_mm256_and_ps (_mm256_set1_ps (negz 32)) (b i)))
/-- avx2_double.hh:622-631 -/
def avx2.vsign_f64 (a : Nat → BitVec 256) (b : Nat → BitVec 256) : Nat → BitVec 256 :=
  regs 2 fun i => _mm256_andnot_pd (_mm256_cmp_pd (b i) _mm256_setzero_pd Cmp.eq) (_mm256_xor_pd (a i) (_mm256_and_pd (_mm256_set1_pd (negz 64)) (b i)))
/-- avx2_double.hh:633-640 -/
def avx2.vsign_i8 (a : Nat → BitVec 256) (b : Nat → BitVec 256) : Nat → BitVec 256 :=
  regs 2 fun i => _mm256_sign_epi8 (a i) (b i)
/-- avx2_double.hh:642-649 -/
def avx2.vsign_i16 (a : Nat → BitVec 256) (b : Nat → BitVec 256) : Nat → BitVec 256 :=
  regs 2 fun i => _mm256_sign_epi16 (a i) (b i)
/-- avx2_double.hh:651-658 -/
def avx2.vsign_i32 (a : Nat → BitVec 256) (b : Nat → BitVec 256) : Nat → BitVec 256 :=
  regs 2 fun i => _mm256_sign_epi32 (a i) (b i)
/-- avx2_double.hh:660-669 -/
def avx2.vcopysign_f32 (a : Nat → BitVec 256) (b : Nat → BitVec 256) : Nat → BitVec 256 :=
  regs 2 fun i => _mm256_or_ps (_mm256_andnot_ps (_mm256_set1_ps (negz 32)) (a i)) (_mm256_and_ps (_mm256_set1_ps (negz 32)) (b i))
/-- avx2_double.hh:671-680 -/
def avx2.vcopysign_f64 (a : Nat → BitVec 256) (b : Nat → BitVec 256) : Nat → BitVec 256 :=
  regs 2 fun i => _mm256_or_pd (_mm256_andnot_pd (_mm256_set1_pd (negz 64)) (a i)) (_mm256_and_pd (_mm256_set1_pd (negz 64)) (b i))
/-- avx2_double.hh:682-689 -/
def avx2.vorr_u8 (a : Nat → BitVec 256) (b : Nat → BitVec 256) : Nat → BitVec 256 :=
  regs 2 fun i => _mm256_or_si256 (a i) (b i)
/-- avx2_double.hh:691-698 -/
def avx2.vorr_u16 (a : Nat → BitVec 256) (b : Nat → BitVec 256) : Nat → BitVec 256 :=
  regs 2 fun i => _mm256_or_si256 (a i) (b i)
/-- avx2_double.hh:700-707 -/
def avx2.vorr_u32 (a : Nat → BitVec 256) (b : Nat → BitVec 256) : Nat → BitVec 256 :=
  regs 2 fun i => _mm256_or_si256 (a i) (b i)
/-- avx2_double.hh:709-716 -/
def avx2.vorr_u64 (a : Nat → BitVec 256) (b : Nat → BitVec 256) : Nat → BitVec 256 :=
  regs 2 fun i => _mm256_or_si256 (a i) (b i)
/-- avx2_double.hh:718-725 -/
def avx2.vand_u8 (a : Nat → BitVec 256) (b : Nat → BitVec 256) : Nat → BitVec 256 :=
  regs 2 fun i => _mm256_and_si256 (a i) (b i)
/-- avx2_double.hh:727-734 -/
def avx2.vand_u16 (a : Nat → BitVec 256) (b : Nat → BitVec 256) : Nat → BitVec 256 :=
  regs 2 fun i => _mm256_and_si256 (a i) (b i)
/-- avx2_double.hh:736-743 -/
def avx2.vand_u32 (a : Nat → BitVec 256) (b : Nat → BitVec 256) : Nat → BitVec 256 :=
  regs 2 fun i => _mm256_and_si256 (a i) (b i)
/-- avx2_double.hh:745-752 -/
def avx2.vand_u64 (a : Nat → BitVec 256) (b : Nat → BitVec 256) : Nat → BitVec 256 :=
  regs 2 fun i => _mm256_and_si256 (a i) (b i)
/-- avx2_double.hh:754-761 -/
def avx2.veor_u8 (a : Nat → BitVec 256) (b : Nat → BitVec 256) : Nat → BitVec 256 :=
  regs 2 fun i => _mm256_xor_si256 (a i) (b i)
/-- avx2_double.hh:763-770 -/
def avx2.veor_u16 (a : Nat → BitVec 256) (b : Nat → BitVec 256) : Nat → BitVec 256 :=
  regs 2 fun i => _mm256_xor_si256 (a i) (b i)
/-- avx2_double.hh:772-779 -/
def avx2.veor_u32 (a : Nat → BitVec 256) (b : Nat → BitVec 256) : Nat → BitVec 256 :=
  regs 2 fun i => _mm256_xor_si256 (a i) (b i)
/-- avx2_double.hh:781-788 -/
def avx2.veor_u64 (a : Nat → BitVec 256) (b : Nat → BitVec 256) : Nat → BitVec 256 :=
  regs 2 fun i => _mm256_xor_si256 (a i) (b i)
/-- avx2_double.hh:790-797 -/
def avx2.vbic_u8 (a : Nat → BitVec 256) (b : Nat → BitVec 256) : Nat → BitVec 256 :=
  regs 2 fun i => _mm256_andnot_si256 (b i) (a i)
/-- avx2_double.hh:799-806 -/
def avx2.vbic_u16 (a : Nat → BitVec 256) (b : Nat → BitVec 256) : Nat → BitVec 256 :=
  regs 2 fun i => _mm256_andnot_si256 (b i) (a i)
/-- avx2_double.hh:808-815 -/
def avx2.vbic_u32 (a : Nat → BitVec 256) (b : Nat → BitVec 256) : Nat → BitVec 256 :=
  regs 2 fun i => _mm256_andnot_si256 (b i) (a i)
/-- avx2_double.hh:817-824 -/
def avx2.vbic_u64 (a : Nat → BitVec 256) (b : Nat → BitVec 256) : Nat → BitVec 256 :=
  regs 2 fun i => _mm256_andnot_si256 (b i) (a i)
/-- avx2_double.hh:826-833 -/
def avx2.vbsl_u8 (a : Nat → BitVec 256) (b : Nat → BitVec 256) (c : Nat → BitVec 256) : Nat → BitVec 256 :=
  regs 2 fun i => _mm256_or_si256 (_mm256_and_si256 (a i) (b i)) (_mm256_andnot_si256 (a i) (c i))
/-- avx2_double.hh:835-842 -/
def avx2.vbsl_u16 (a : Nat → BitVec 256) (b : Nat → BitVec 256) (c : Nat → BitVec 256) : Nat → BitVec 256 :=
  regs 2 fun i => _mm256_or_si256 (_mm256_and_si256 (a i) (b i)) (_mm256_andnot_si256 (a i) (c i))
/-- avx2_double.hh:844-851 -/
def avx2.vbsl_u32 (a : Nat → BitVec 256) (b : Nat → BitVec 256) (c : Nat → BitVec 256) : Nat → BitVec 256 :=
  regs 2 fun i => _mm256_or_si256 (_mm256_and_si256 (a i) (b i)) (_mm256_andnot_si256 (a i) (c i))
/-- avx2_double.hh:853-860 -/
def avx2.vbsl_u64 (a : Nat → BitVec 256) (b : Nat → BitVec 256) (c : Nat → BitVec 256) : Nat → BitVec 256 :=
  regs 2 fun i => _mm256_or_si256 (_mm256_and_si256 (a i) (b i)) (_mm256_andnot_si256 (a i) (c i))
/-- avx2_double.hh:862-869 -/
def avx2.vceqz_f32 (a : Nat → BitVec 256) : Nat → BitVec 256 :=
  regs 2 fun i => _mm256_cmp_ps (a i) _mm256_setzero_ps Cmp.eq
/-- avx2_double.hh:871-878 -/
def avx2.vceqz_f64 (a : Nat → BitVec 256) : Nat → BitVec 256 :=
  regs 2 fun i => _mm256_cmp_pd (a i) _mm256_setzero_pd Cmp.eq
/-- avx2_double.hh:880-887 -/
def avx2.vceqz_i8 (a : Nat → BitVec 256) : Nat → BitVec 256 :=
  regs 2 fun i => _mm256_cmpeq_epi8 (a i) _mm256_setzero_si256
/-- avx2_double.hh:889-896 -/
def avx2.vceqz_i16 (a : Nat → BitVec 256) : Nat → BitVec 256 :=
  regs 2 fun i => _mm256_cmpeq_epi16 (a i) _mm256_setzero_si256
/-- avx2_double.hh:898-905 -/
def avx2.vceqz_i32 (a : Nat → BitVec 256) : Nat → BitVec 256 :=
  regs 2 fun i => _mm256_cmpeq_epi32 (a i) _mm256_setzero_si256
/-- avx2_double.hh:907-914 -/
def avx2.vceqz_i64 (a : Nat → BitVec 256) : Nat → BitVec 256 :=
  regs 2 fun i => _mm256_cmpeq_epi64 (a i) _mm256_setzero_si256
/-- avx2_double.hh:916-923 -/
def avx2.vceq_f32 (a : Nat → BitVec 256) (b : Nat → BitVec 256) : Nat → BitVec 256 :=
  regs 2 fun i => _mm256_cmp_ps (a i) (b i) Cmp.eq
/-- avx2_double.hh:925-932 -/
def avx2.vceq_f64 (a : Nat → BitVec 256) (b : Nat → BitVec 256) : Nat → BitVec 256 :=
  regs 2 fun i => _mm256_cmp_pd (a i) (b i) Cmp.eq
/-- avx2_double.hh:934-941 -/
def avx2.vceq_i8 (a : Nat → BitVec 256) (b : Nat → BitVec 256) : Nat → BitVec 256 :=
  regs 2 fun i => _mm256_cmpeq_epi8 (a i) (b i)
/-- avx2_double.hh:943-950 -/
def avx2.vceq_i16 (a : Nat → BitVec 256) (b : Nat → BitVec 256) : Nat → BitVec 256 :=
  regs 2 fun i => _mm256_cmpeq_epi16 (a i) (b i)
/-- avx2_double.hh:952-959 -/
def avx2.vceq_i32 (a : Nat → BitVec 256) (b : Nat → BitVec 256) : Nat → BitVec 256 :=
  regs 2 fun i => _mm256_cmpeq_epi32 (a i) (b i)
/-- avx2_double.hh:961-968 -/
def avx2.vceq_i64 (a : Nat → BitVec 256) (b : Nat → BitVec 256) : Nat → BitVec 256 :=
  regs 2 fun i => _mm256_cmpeq_epi64 (a i) (b i)
/-- avx2_double.hh:970-977 -/
def avx2.vcgtz_f32 (a : Nat → BitVec 256) : Nat → BitVec 256 :=
  regs 2 fun i => _mm256_cmp_ps (a i) _mm256_setzero_ps Cmp.gt
/-- avx2_double.hh:979-986 -/
def avx2.vcgtz_f64 (a : Nat → BitVec 256) : Nat → BitVec 256 :=
  regs 2 fun i => _mm256_cmp_pd (a i) _mm256_setzero_pd Cmp.gt
/-- avx2_double.hh:988-995 -/
def avx2.vcgtz_i8 (a : Nat → BitVec 256) : Nat → BitVec 256 :=
  regs 2 fun i => _mm256_cmpgt_epi8 (a i) _mm256_setzero_si256
/-- avx2_double.hh:997-1004 -/
def avx2.vcgtz_i16 (a : Nat → BitVec 256) : Nat → BitVec 256 :=
  regs 2 fun i => _mm256_cmpgt_epi16 (a i) _mm256_setzero_si256
/-- avx2_double.hh:1006-1013 -/
def avx2.vcgtz_i32 (a : Nat → BitVec 256) : Nat → BitVec 256 :=
  regs 2 fun i => _mm256_cmpgt_epi32 (a i) _mm256_setzero_si256
/-- avx2_double.hh:1015-1022 -/
def avx2.vcgtz_i64 (a : Nat → BitVec 256) : Nat → BitVec 256 :=
  regs 2 fun i => _mm256_cmpgt_epi64 (a i) _mm256_setzero_si256
/-- avx2_double.hh:1024-1031 -/
def avx2.vcltz_f32 (a : Nat → BitVec 256) : Nat → BitVec 256 :=
  regs 2 fun i => _mm256_cmp_ps (a i) _mm256_setzero_ps Cmp.lt
/-- avx2_double.hh:1033-1040 -/
def avx2.vcltz_f64 (a : Nat → BitVec 256) : Nat → BitVec 256 :=
  regs 2 fun i => _mm256_cmp_pd (a i) _mm256_setzero_pd Cmp.lt
/-- avx2_double.hh:1042-1049 -/
def avx2.vcltz_i8 (a : Nat → BitVec 256) : Nat → BitVec 256 :=
  regs 2 fun i => _mm256_cmpgt_epi8 _mm256_setzero_si256 (a i)
/-- avx2_double.hh:1051-1058 -/
def avx2.vcltz_i16 (a : Nat → BitVec 256) : Nat → BitVec 256 :=
  regs 2 fun i => _mm256_cmpgt_epi16 _mm256_setzero_si256 (a i)
/-- avx2_double.hh:1060-1067 -/
def avx2.vcltz_i32 (a : Nat → BitVec 256) : Nat → BitVec 256 :=
  regs 2 fun i => _mm256_cmpgt_epi32 _mm256_setzero_si256 (a i)
/-- avx2_double.hh:1069-1076 -/
def avx2.vcltz_i64 (a : Nat → BitVec 256) : Nat → BitVec 256 :=
  regs 2 fun i => _mm256_cmpgt_epi64 _mm256_setzero_si256 (a i)
/-- avx2_double.hh:1078-1085 -/
def avx2.vclez_f32 (a : Nat → BitVec 256) : Nat → BitVec 256 :=
  regs 2 fun i => _mm256_cmp_ps (a i) _mm256_setzero_ps Cmp.le
/-- avx2_double.hh:1087-1094 -/
def avx2.vclez_f64 (a : Nat → BitVec 256) : Nat → BitVec 256 :=
  regs 2 fun i => _mm256_cmp_pd (a i) _mm256_setzero_pd Cmp.le
/-- avx2_double.hh:1096-1105 -/
def avx2.vclez_i8 (a : Nat → BitVec 256) : Nat → BitVec 256 :=
  regs 2 fun i => _mm256_or_si256 (_mm256_cmpeq_epi8 (a i) _mm256_setzero_si256) (_mm256_cmpgt_epi8 _mm256_setzero_si256 (a i))
/-- avx2_double.hh:1107-1116 -/
def avx2.vclez_i16 (a : Nat → BitVec 256) : Nat → BitVec 256 :=
  regs 2 fun i => _mm256_or_si256 (_mm256_cmpeq_epi16 (a i) _mm256_setzero_si256) (_mm256_cmpgt_epi16 _mm256_setzero_si256 (a i))
/-- avx2_double.hh:1118-1127 -/
def avx2.vclez_i32 (a : Nat → BitVec 256) : Nat → BitVec 256 :=
  regs 2 fun i => _mm256_or_si256 (_mm256_cmpeq_epi32 (a i) _mm256_setzero_si256) (_mm256_cmpgt_epi32 _mm256_setzero_si256 (a i))
/-- avx2_double.hh:1129-1138 -/
def avx2.vclez_i64 (a : Nat → BitVec 256) : Nat → BitVec 256 :=
  regs 2 fun i => _mm256_or_si256 (_mm256_cmpeq_epi64 (a i) _mm256_setzero_si256) (_mm256_cmpgt_epi64 _mm256_setzero_si256 (a i))
/-- avx2_double.hh:1140-1147 -/
def avx2.vmin_f32 (a : Nat → BitVec 256) (b : Nat → BitVec 256) : Nat → BitVec 256 :=
  regs 2 fun i => _mm256_min_ps (a i) (b i)
/-- avx2_double.hh:1149-1156 -/
def avx2.vmin_f64 (a : Nat → BitVec 256) (b : Nat → BitVec 256) : Nat → BitVec 256 :=
  regs 2 fun i => _mm256_min_pd (a i) (b i)
/-- avx2_double.hh:1158-1165 -/
def avx2.vmin_i8 (a : Nat → BitVec 256) (b : Nat → BitVec 256) : Nat → BitVec 256 :=
  regs 2 fun i => _mm256_min_epi8 (a i) (b i)
/-- avx2_double.hh:1167-1174 -/
def avx2.vmin_i16 (a : Nat → BitVec 256) (b : Nat → BitVec 256) : Nat → BitVec 256 :=
  regs 2 fun i => _mm256_min_epi16 (a i) (b i)
/-- avx2_double.hh:1176-1183 -/
def avx2.vmin_i32 (a : Nat → BitVec 256) (b : Nat → BitVec 256) : Nat → BitVec 256 :=
  regs 2 fun i => _mm256_min_epi32 (a i) (b i)
/-- avx2_double.hh:1185-1192 -/
def avx2.vmax_f32 (a : Nat → BitVec 256) (b : Nat → BitVec 256) : Nat → BitVec 256 :=
  regs 2 fun i => _mm256_max_ps (a i) (b i)
/-- avx2_double.hh:1194-1201 -/
def avx2.vmax_f64 (a : Nat → BitVec 256) (b : Nat → BitVec 256) : Nat → BitVec 256 :=
  regs 2 fun i => _mm256_max_pd (a i) (b i)
/-- avx2_double.hh:1203-1210 -/
def avx2.vmax_i8 (a : Nat → BitVec 256) (b : Nat → BitVec 256) : Nat → BitVec 256 :=
  regs 2 fun i => _mm256_max_epi8 (a i) (b i)
/-- avx2_double.hh:1212-1219 -/
def avx2.vmax_i16 (a : Nat → BitVec 256) (b : Nat → BitVec 256) : Nat → BitVec 256 :=
  regs 2 fun i => _mm256_max_epi16 (a i) (b i)
/-- avx2_double.hh:1221-1228 -/
def avx2.vmax_i32 (a : Nat → BitVec 256) (b : Nat → BitVec 256) : Nat → BitVec 256 :=
  regs 2 fun i => _mm256_max_epi32 (a i) (b i)
/-- avx2_double.hh:1230-1237 -/
def avx2.vclamp_f32 (x : Nat → BitVec 256) (a : BitVec 32) (b : BitVec 32) : Nat → BitVec 256 :=
  regs 2 fun i => _mm256_min_ps (_mm256_max_ps (x i) (_mm256_set1_ps a)) (_mm256_set1_ps b)
/-- avx2_double.hh:1239-1246 -/
def avx2.vclamp_f64 (x : Nat → BitVec 256) (a : BitVec 64) (b : BitVec 64) : Nat → BitVec 256 :=
  regs 2 fun i => _mm256_min_pd (_mm256_max_pd (x i) (_mm256_set1_pd a)) (_mm256_set1_pd b)
/-- avx2_double.hh:1248-1255 -/
def avx2.vclamp_i8 (x : Nat → BitVec 256) (a : BitVec 8) (b : BitVec 8) : Nat → BitVec 256 :=
  regs 2 fun i => _mm256_min_epi8 (_mm256_max_epi8 (x i) (_mm256_set1_epi8 a)) (_mm256_set1_epi8 b)
/-- avx2_double.hh:1257-1264 -/
def avx2.vclamp_i16 (x : Nat → BitVec 256) (a : BitVec 16) (b : BitVec 16) : Nat → BitVec 256 :=
  regs 2 fun i => _mm256_min_epi16 (_mm256_max_epi16 (x i) (_mm256_set1_epi16 a)) (_mm256_set1_epi16 b)
/-- avx2_double.hh:1266-1273 -/
def avx2.vclamp_i32 (x : Nat → BitVec 256) (a : BitVec 32) (b : BitVec 32) : Nat → BitVec 256 :=
  regs 2 fun i => _mm256_min_epi32 (_mm256_max_epi32 (x i) (_mm256_set1_epi32 a)) (_mm256_set1_epi32 b)
/-- avx2_double.hh:1275-1282 -/
def avx2.vclamp_i64 (x : Nat → BitVec 256) (a : BitVec 64) (b : BitVec 64) : Nat → BitVec 256 :=
  regs 2 fun i => _mm256_min_epi64 (_mm256_max_epi64 (x i) (_mm256_set1_epi64x a)) (_mm256_set1_epi64x b)
/-- avx2_double.hh:1284-1302 -/
def avx2.vshuf_u8 (a : Nat → BitVec 256) (b : Nat → BitVec 256) : Nat → BitVec 256 :=
  regs 2 fun i => let c := _mm256_or_si256 (b i) (_mm256_cmpgt_epi8 (b i) (_mm256_set1_epi8 15)); let d := _mm256_or_si256 (_mm256_sub_epi8 (b i) (_mm256_set1_epi8 16)) (_mm256_cmpgt_epi8 (b i) (_mm256_set1_epi8 31)); let e := _mm256_or_si256 (_mm256_sub_epi8 (b i) (_mm256_set1_epi8 32)) (_mm256_cmpgt_epi8 (b i) (_mm256_set1_epi8 47)); let f := _mm256_sub_epi8 (b i) (_mm256_set1_epi8 48); let g := _mm256_or_si256 (_mm256_shuffle_epi8 (_mm256_permute2x128_si256 (a 0) (a 0) 0) c) (_mm256_shuffle_epi8 (_mm256_permute2x128_si256 (a 0) (a 0) 17) d); let h := _mm256_or_si256 (_mm256_shuffle_epi8 (_mm256_permute2x128_si256 (a 1) (a 1) 0) e) (_mm256_shuffle_epi8 (_mm256_permute2x128_si256 (a 1) (a 1) 17) f); _mm256_or_si256 g h
/-- avx2_double.hh:1304-1322 -/
def avx2.vshuf_i8 (a : Nat → BitVec 256) (b : Nat → BitVec 256) : Nat → BitVec 256 :=
  regs 2 fun i => let c := _mm256_or_si256 (b i) (_mm256_cmpgt_epi8 (b i) (_mm256_set1_epi8 15)); let d := _mm256_or_si256 (_mm256_sub_epi8 (b i) (_mm256_set1_epi8 16)) (_mm256_cmpgt_epi8 (b i) (_mm256_set1_epi8 31)); let e := _mm256_or_si256 (_mm256_sub_epi8 (b i) (_mm256_set1_epi8 32)) (_mm256_cmpgt_epi8 (b i) (_mm256_set1_epi8 47)); let f := _mm256_sub_epi8 (b i) (_mm256_set1_epi8 48); let g := _mm256_or_si256 (_mm256_shuffle_epi8 (_mm256_permute2x128_si256 (a 0) (a 0) 0) c) (_mm256_shuffle_epi8 (_mm256_permute2x128_si256 (a 0) (a 0) 17) d); let h := _mm256_or_si256 (_mm256_shuffle_epi8 (_mm256_permute2x128_si256 (a 1) (a 1) 0) e) (_mm256_shuffle_epi8 (_mm256_permute2x128_si256 (a 1) (a 1) 17) f); _mm256_or_si256 g h
/-- avx2_double.hh:1324-1333 -/
def avx2.vshuf_u32 (a : Nat → BitVec 256) (b : Nat → BitVec 256) : Nat → BitVec 256 :=
  regs 2 fun i => _mm256_or_si256 (_mm256_and_si256 (_mm256_permutevar8x32_epi32 (a 0) (b i)) (_mm256_cmpgt_epi32 (_mm256_set1_epi32 8) (b i))) (_mm256_and_si256 (_mm256_permutevar8x32_epi32 (a 1) (_mm256_sub_epi32 (b i) (_mm256_set1_epi32 8))) (_mm256_cmpgt_epi32 (b i) (_mm256_set1_epi32 7)))
/-- avx2_double.hh:1335-1344 -/
def avx2.vshuf_f32 (a : Nat → BitVec 256) (b : Nat → BitVec 256) : Nat → BitVec 256 :=
  regs 2 fun i => _mm256_or_ps (_mm256_and_ps (_mm256_permutevar8x32_ps (a 0) (b i)) (_mm256_cmpgt_epi32 (_mm256_set1_epi32 8) (b i))) (_mm256_and_ps (_mm256_permutevar8x32_ps (a 1) (_mm256_sub_epi32 (b i) (_mm256_set1_epi32 8))) (_mm256_cmpgt_epi32 (b i) (_mm256_set1_epi32 7)))

end Verif.SIMD
