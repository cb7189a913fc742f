import Verif.SIMD.Intrin
/- Model of sse4_1_double.hh, generated by tools/gen_simd.py: every function is the composition of intrinsics in its body.
A value is the array `m` of its registers. -/
namespace Verif.SIMD

/-- sse4_1_double.hh:121-128 -/
def sse2.vreinterpret_u32_f32 (a : Nat → BitVec 128) : Nat → BitVec 128 :=
  regs 2 fun i => a i
/-- sse4_1_double.hh:130-137 -/
def sse2.vreinterpret_f32_u32 (a : Nat → BitVec 128) : Nat → BitVec 128 :=
  regs 2 fun i => a i
/-- sse4_1_double.hh:139-146 -/
def sse2.vreinterpret_u64_f64 (a : Nat → BitVec 128) : Nat → BitVec 128 :=
  regs 2 fun i => a i
/-- sse4_1_double.hh:148-155 -/
def sse2.vreinterpret_f64_u64 (a : Nat → BitVec 128) : Nat → BitVec 128 :=
  regs 2 fun i => a i
/-- sse4_1_double.hh:157-164 -/
def sse2.vreinterpret_i8_u8 (a : Nat → BitVec 128) : Nat → BitVec 128 :=
  regs 2 fun i => a i
/-- sse4_1_double.hh:166-173 -/
def sse2.vreinterpret_u8_i8 (a : Nat → BitVec 128) : Nat → BitVec 128 :=
  regs 2 fun i => a i
/-- sse4_1_double.hh:175-182 -/
def sse2.vreinterpret_i16_u16 (a : Nat → BitVec 128) : Nat → BitVec 128 :=
  regs 2 fun i => a i
/-- sse4_1_double.hh:184-191 -/
def sse2.vreinterpret_u16_i16 (a : Nat → BitVec 128) : Nat → BitVec 128 :=
  regs 2 fun i => a i
/-- sse4_1_double.hh:193-200 -/
def sse2.vreinterpret_i32_u32 (a : Nat → BitVec 128) : Nat → BitVec 128 :=
  regs 2 fun i => a i
/-- sse4_1_double.hh:202-209 -/
def sse2.vreinterpret_u32_i32 (a : Nat → BitVec 128) : Nat → BitVec 128 :=
  regs 2 fun i => a i
/-- sse4_1_double.hh:211-218 -/
def sse2.vreinterpret_i64_u64 (a : Nat → BitVec 128) : Nat → BitVec 128 :=
  regs 2 fun i => a i
/-- sse4_1_double.hh:220-227 -/
def sse2.vreinterpret_u64_i64 (a : Nat → BitVec 128) : Nat → BitVec 128 :=
  regs 2 fun i => a i
/-- sse4_1_double.hh:229-236 -/
def sse2.vdup_f32 (a : BitVec 32) : Nat → BitVec 128 :=
  regs 2 fun i => _mm_set1_ps a
/-- sse4_1_double.hh:238-245 -/
def sse2.vdup_f64 (a : BitVec 64) : Nat → BitVec 128 :=
  regs 2 fun i => _mm_set1_pd a
/-- sse4_1_double.hh:247-254 -/
def sse2.vdup_i8 (a : BitVec 8) : Nat → BitVec 128 :=
  regs 2 fun i => _mm_set1_epi8 a
/-- sse4_1_double.hh:256-263 -/
def sse2.vdup_i16 (a : BitVec 16) : Nat → BitVec 128 :=
  regs 2 fun i => _mm_set1_epi16 a
/-- sse4_1_double.hh:265-272 -/
def sse2.vdup_i32 (a : BitVec 32) : Nat → BitVec 128 :=
  regs 2 fun i => _mm_set1_epi32 a
/-- sse4_1_double.hh:274-281 -/
def sse2.vdup_i64 (a : BitVec 64) : Nat → BitVec 128 :=
  regs 2 fun i => _mm_set1_epi64x a
/-- sse4_1_double.hh:283-290 -/
def sse2.vzero_f32 : Nat → BitVec 128 :=
  regs 2 fun i => _mm_setzero_ps
/-- sse4_1_double.hh:292-299 -/
def sse2.vzero_f64 : Nat → BitVec 128 :=
  regs 2 fun i => _mm_setzero_pd
/-- sse4_1_double.hh:301-308 -/
def sse2.vzero_i8 : Nat → BitVec 128 :=
  regs 2 fun i => _mm_setzero_si128
/-- sse4_1_double.hh:310-317 -/
def sse2.vzero_i16 : Nat → BitVec 128 :=
  regs 2 fun i => _mm_setzero_si128
/-- sse4_1_double.hh:319-326 -/
def sse2.vzero_i32 : Nat → BitVec 128 :=
  regs 2 fun i => _mm_setzero_si128
/-- sse4_1_double.hh:328-335 -/
def sse2.vzero_i64 : Nat → BitVec 128 :=
  regs 2 fun i => _mm_setzero_si128
/-- sse4_1_double.hh:337-344 -/
def sse2.vadd_f32 (A32 : Fpu 32) (a : Nat → BitVec 128) (b : Nat → BitVec 128) : Nat → BitVec 128 :=
  regs 2 fun i => _mm_add_ps A32 (a i) (b i)
/-- sse4_1_double.hh:346-353 -/
def sse2.vadd_f64 (A64 : Fpu 64) (a : Nat → BitVec 128) (b : Nat → BitVec 128) : Nat → BitVec 128 :=
  regs 2 fun i => _mm_add_pd A64 (a i) (b i)
/-- sse4_1_double.hh:355-362 -/
def sse2.vadd_i8 (a : Nat → BitVec 128) (b : Nat → BitVec 128) : Nat → BitVec 128 :=
  regs 2 fun i => _mm_add_epi8 (a i) (b i)
/-- sse4_1_double.hh:364-371 -/
def sse2.vadd_i16 (a : Nat → BitVec 128) (b : Nat → BitVec 128) : Nat → BitVec 128 :=
  regs 2 fun i => _mm_add_epi16 (a i) (b i)
/-- sse4_1_double.hh:373-380 -/
def sse2.vadd_i32 (a : Nat → BitVec 128) (b : Nat → BitVec 128) : Nat → BitVec 128 :=
  regs 2 fun i => _mm_add_epi32 (a i) (b i)
/-- sse4_1_double.hh:382-389 -/
def sse2.vadd_i64 (a : Nat → BitVec 128) (b : Nat → BitVec 128) : Nat → BitVec 128 :=
  regs 2 fun i => _mm_add_epi64 (a i) (b i)
/-- sse4_1_double.hh:391-398 -/
def sse2.vqadd_i8 (a : Nat → BitVec 128) (b : Nat → BitVec 128) : Nat → BitVec 128 :=
  regs 2 fun i => _mm_adds_epi8 (a i) (b i)
/-- sse4_1_double.hh:400-407 -/
def sse2.vqadd_i16 (a : Nat → BitVec 128) (b : Nat → BitVec 128) : Nat → BitVec 128 :=
  regs 2 fun i => _mm_adds_epi16 (a i) (b i)
/-- sse4_1_double.hh:409-416 -/
def sse2.vsub_f32 (A32 : Fpu 32) (a : Nat → BitVec 128) (b : Nat → BitVec 128) : Nat → BitVec 128 :=
  regs 2 fun i => _mm_sub_ps A32 (a i) (b i)
/-- sse4_1_double.hh:418-425 -/
def sse2.vsub_f64 (A64 : Fpu 64) (a : Nat → BitVec 128) (b : Nat → BitVec 128) : Nat → BitVec 128 :=
  regs 2 fun i => _mm_sub_pd A64 (a i) (b i)
/-- sse4_1_double.hh:427-434 -/
def sse2.vsub_i8 (a : Nat → BitVec 128) (b : Nat → BitVec 128) : Nat → BitVec 128 :=
  regs 2 fun i => _mm_sub_epi8 (a i) (b i)
/-- sse4_1_double.hh:436-443 -/
def sse2.vsub_i16 (a : Nat → BitVec 128) (b : Nat → BitVec 128) : Nat → BitVec 128 :=
  regs 2 fun i => _mm_sub_epi16 (a i) (b i)
/-- sse4_1_double.hh:445-452 -/
def sse2.vsub_i32 (a : Nat → BitVec 128) (b : Nat → BitVec 128) : Nat → BitVec 128 :=
  regs 2 fun i => _mm_sub_epi32 (a i) (b i)
/-- sse4_1_double.hh:454-461 -/
def sse2.vsub_i64 (a : Nat → BitVec 128) (b : Nat → BitVec 128) : Nat → BitVec 128 :=
  regs 2 fun i => _mm_sub_epi64 (a i) (b i)
/-- sse4_1_double.hh:463-470 -/
def sse2.vqsub_i8 (a : Nat → BitVec 128) (b : Nat → BitVec 128) : Nat → BitVec 128 :=
  regs 2 fun i => _mm_subs_epi8 (a i) (b i)
/-- sse4_1_double.hh:472-479 -/
def sse2.vqsub_i16 (a : Nat → BitVec 128) (b : Nat → BitVec 128) : Nat → BitVec 128 :=
  regs 2 fun i => _mm_subs_epi16 (a i) (b i)
/-- sse4_1_double.hh:481-488 -/
def sse2.vqsub_u8 (a : Nat → BitVec 128) (b : Nat → BitVec 128) : Nat → BitVec 128 :=
  regs 2 fun i => _mm_subs_epu8 (a i) (b i)
/-- sse4_1_double.hh:490-497 -/
def sse2.vqsub_u16 (a : Nat → BitVec 128) (b : Nat → BitVec 128) : Nat → BitVec 128 :=
  regs 2 fun i => _mm_subs_epu16 (a i) (b i)
/-- sse4_1_double.hh:499-506 -/
def sse2.vmul_f32 (A32 : Fpu 32) (a : Nat → BitVec 128) (b : Nat → BitVec 128) : Nat → BitVec 128 :=
  regs 2 fun i => _mm_mul_ps A32 (a i) (b i)
/-- sse4_1_double.hh:508-515 -/
def sse2.vmul_f64 (A64 : Fpu 64) (a : Nat → BitVec 128) (b : Nat → BitVec 128) : Nat → BitVec 128 :=
  regs 2 fun i => _mm_mul_pd A64 (a i) (b i)
/-- sse4_1_double.hh:517-524 -/
def sse2.vabs_f32 (a : Nat → BitVec 128) : Nat → BitVec 128 :=
  regs 2 fun i => _mm_andnot_ps (_mm_set1_ps (negz 32)) (a i)
/-- sse4_1_double.hh:526-533 -/
def sse2.vabs_f64 (a : Nat → BitVec 128) : Nat → BitVec 128 :=
  regs 2 fun i => _mm_andnot_pd (_mm_set1_pd (negz 64)) (a i)
/-- sse4_1_double.hh:535-542 -/
def sse2.vqabs_i8 (a : Nat → BitVec 128) : Nat → BitVec 128 :=
  regs 2 fun i => _mm_abs_epi8 (_mm_max_epi8 (a i) (_mm_set1_epi8 (BitVec.ofInt _ (-127))))
/-- sse4_1_double.hh:544-551 -/
def sse2.vqabs_i16 (a : Nat → BitVec 128) : Nat → BitVec 128 :=
  regs 2 fun i => _mm_abs_epi16 (_mm_max_epi16 (a i) (_mm_set1_epi16 (BitVec.ofInt _ (-32767))))
/-- sse4_1_double.hh:553-560 -/
def sse2.vqabs_i32 (a : Nat → BitVec 128) : Nat → BitVec 128 :=
  regs 2 fun i => _mm_abs_epi32 (_mm_max_epi32 (a i) (_mm_set1_epi32 (BitVec.ofInt _ (-2147483647))))
/-- sse4_1_double.hh:562-571 -/
def sse2.vsignum_f32 (a : Nat → BitVec 128) : Nat → BitVec 128 :=
  regs 2 fun i => _mm_andnot_ps (_mm_cmpeq_ps (a i) _mm_setzero_ps) (_mm_or_ps (_mm_set1_ps f32.one) (_mm_and_ps (_mm_set1_ps (negz 32)) (a i)))
/-- sse4_1_double.hh:573-582 -/
def sse2.vsignum_f64 (a : Nat → BitVec 128) : Nat → BitVec 128 :=
  regs 2 fun i => _mm_andnot_pd (_mm_cmpeq_pd (a i) _mm_setzero_pd) (_mm_or_pd (_mm_set1_pd f64.one) (_mm_and_pd (_mm_set1_pd (negz 64)) (a i)))
/-- sse4_1_double.hh:584-591 -/
def sse2.vsignum_i8 (a : Nat → BitVec 128) : Nat → BitVec 128 :=
  regs 2 fun i => _mm_sign_epi8 (_mm_set1_epi8 1) (a i)
/-- sse4_1_double.hh:593-600 -/
def sse2.vsignum_i16 (a : Nat → BitVec 128) : Nat → BitVec 128 :=
  regs 2 fun i => _mm_sign_epi16 (_mm_set1_epi16 1) (a i)
/-- sse4_1_double.hh:602-609 -/
def sse2.vsignum_i32 (a : Nat → BitVec 128) : Nat → BitVec 128 :=
  regs 2 fun i => _mm_sign_epi32 (_mm_set1_epi32 1) (a i)
/-- sse4_1_double.hh:611-620 -/
def sse2.vsign_f32 (a : Nat → BitVec 128) (b : Nat → BitVec 128) : Nat → BitVec 128 :=
  regs 2 fun i => _mm_andnot_ps (_mm_cmpeq_ps (b i) _mm_setzero_ps) (_mm_xor_ps (a i) (_mm_and_ps (_mm_set1_ps (negz 32)) (b i)))
/-- sse4_1_double.hh:622-631 -/
def sse2.vsign_f64 (a : Nat → BitVec 128) (b : Nat → BitVec 128) : Nat → BitVec 128 :=
  regs 2 fun i => _mm_andnot_pd (_mm_cmpeq_pd (b i) _mm_setzero_pd) (_mm_xor_pd (a i) (_mm_and_pd (_mm_set1_pd (negz 64)) (b i)))
/-- sse4_1_double.hh:633-640 -/
def sse2.vsign_i8 (a : Nat → BitVec 128) (b : Nat → BitVec 128) : Nat → BitVec 128 :=
  regs 2 fun i => _mm_sign_epi8 (a i) (b i)
/-- sse4_1_double.hh:642-649 -/
def sse2.vsign_i16 (a : Nat → BitVec 128) (b : Nat → BitVec 128) : Nat → BitVec 128 :=
  regs 2 fun i => _mm_sign_epi16 (a i) (b i)
/-- sse4_1_double.hh:651-658 -/
def sse2.vsign_i32 (a : Nat → BitVec 128) (b : Nat → BitVec 128) : Nat → BitVec 128 :=
  regs 2 fun i => _mm_sign_epi32 (a i) (b i)
/-- sse4_1_double.hh:660-669 -/
def sse2.vcopysign_f32 (a : Nat → BitVec 128) (b : Nat → BitVec 128) : Nat → BitVec 128 :=
  regs 2 fun i => _mm_or_ps (_mm_andnot_ps (_mm_set1_ps (negz 32)) (a i)) (_mm_and_ps (_mm_set1_ps (negz 32)) (b i))
/-- sse4_1_double.hh:671-680 -/
def sse2.vcopysign_f64 (a : Nat → BitVec 128) (b : Nat → BitVec 128) : Nat → BitVec 128 :=
  regs 2 fun i => _mm_or_pd (_mm_andnot_pd (_mm_set1_pd (negz 64)) (a i)) (_mm_and_pd (_mm_set1_pd (negz 64)) (b i))
/-- sse4_1_double.hh:682-689 -/
def sse2.vorr_u8 (a : Nat → BitVec 128) (b : Nat → BitVec 128) : Nat → BitVec 128 :=
  regs 2 fun i => _mm_or_si128 (a i) (b i)
/-- sse4_1_double.hh:691-698 -/
def sse2.vorr_u16 (a : Nat → BitVec 128) (b : Nat → BitVec 128) : Nat → BitVec 128 :=
  regs 2 fun i => _mm_or_si128 (a i) (b i)
/-- sse4_1_double.hh:700-707 -/
def sse2.vorr_u32 (a : Nat → BitVec 128) (b : Nat → BitVec 128) : Nat → BitVec 128 :=
  regs 2 fun i => _mm_or_si128 (a i) (b i)
/-- sse4_1_double.hh:709-716 -/
def sse2.vorr_u64 (a : Nat → BitVec 128) (b : Nat → BitVec 128) : Nat → BitVec 128 :=
  regs 2 fun i => _mm_or_si128 (a i) (b i)
/-- sse4_1_double.hh:718-725 -/
def sse2.vand_u8 (a : Nat → BitVec 128) (b : Nat → BitVec 128) : Nat → BitVec 128 :=
  regs 2 fun i => _mm_and_si128 (a i) (b i)
/-- sse4_1_double.hh:727-734 -/
def sse2.vand_u16 (a : Nat → BitVec 128) (b : Nat → BitVec 128) : Nat → BitVec 128 :=
  regs 2 fun i => _mm_and_si128 (a i) (b i)
/-- sse4_1_double.hh:736-743 -/
def sse2.vand_u32 (a : Nat → BitVec 128) (b : Nat → BitVec 128) : Nat → BitVec 128 :=
  regs 2 fun i => _mm_and_si128 (a i) (b i)
/-- sse4_1_double.hh:745-752 -/
def sse2.vand_u64 (a : Nat → BitVec 128) (b : Nat → BitVec 128) : Nat → BitVec 128 :=
  regs 2 fun i => _mm_and_si128 (a i) (b i)
/-- sse4_1_double.hh:754-761 -/
def sse2.veor_u8 (a : Nat → BitVec 128) (b : Nat → BitVec 128) : Nat → BitVec 128 :=
  regs 2 fun i => _mm_xor_si128 (a i) (b i)
/-- sse4_1_double.hh:763-770 -/
def sse2.veor_u16 (a : Nat → BitVec 128) (b : Nat → BitVec 128) : Nat → BitVec 128 :=
  regs 2 fun i => _mm_xor_si128 (a i) (b i)
/-- sse4_1_double.hh:772-779 -/
def sse2.veor_u32 (a : Nat → BitVec 128) (b : Nat → BitVec 128) : Nat → BitVec 128 :=
  regs 2 fun i => _mm_xor_si128 (a i) (b i)
/-- sse4_1_double.hh:781-788 -/
def sse2.veor_u64 (a : Nat → BitVec 128) (b : Nat → BitVec 128) : Nat → BitVec 128 :=
  regs 2 fun i => _mm_xor_si128 (a i) (b i)
/-- sse4_1_double.hh:790-797 -/
def sse2.vbic_u8 (a : Nat → BitVec 128) (b : Nat → BitVec 128) : Nat → BitVec 128 :=
  regs 2 fun i => _mm_andnot_si128 (b i) (a i)
/-- sse4_1_double.hh:799-806 -/
def sse2.vbic_u16 (a : Nat → BitVec 128) (b : Nat → BitVec 128) : Nat → BitVec 128 :=
  regs 2 fun i => _mm_andnot_si128 (b i) (a i)
/-- sse4_1_double.hh:808-815 -/
def sse2.vbic_u32 (a : Nat → BitVec 128) (b : Nat → BitVec 128) : Nat → BitVec 128 :=
  regs 2 fun i => _mm_andnot_si128 (b i) (a i)
/-- sse4_1_double.hh:817-824 -/
def sse2.vbic_u64 (a : Nat → BitVec 128) (b : Nat → BitVec 128) : Nat → BitVec 128 :=
  regs 2 fun i => _mm_andnot_si128 (b i) (a i)
/-- sse4_1_double.hh:826-833 -/
def sse2.vbsl_u8 (a : Nat → BitVec 128) (b : Nat → BitVec 128) (c : Nat → BitVec 128) : Nat → BitVec 128 :=
  regs 2 fun i => _mm_or_si128 (_mm_and_si128 (a i) (b i)) (_mm_andnot_si128 (a i) (c i))
/-- sse4_1_double.hh:835-842 -/
def sse2.vbsl_u16 (a : Nat → BitVec 128) (b : Nat → BitVec 128) (c : Nat → BitVec 128) : Nat → BitVec 128 :=
  regs 2 fun i => _mm_or_si128 (_mm_and_si128 (a i) (b i)) (_mm_andnot_si128 (a i) (c i))
/-- sse4_1_double.hh:844-851 -/
def sse2.vbsl_u32 (a : Nat → BitVec 128) (b : Nat → BitVec 128) (c : Nat → BitVec 128) : Nat → BitVec 128 :=
  regs 2 fun i => _mm_or_si128 (_mm_and_si128 (a i) (b i)) (_mm_andnot_si128 (a i) (c i))
/-- sse4_1_double.hh:853-860 -/
def sse2.vbsl_u64 (a : Nat → BitVec 128) (b : Nat → BitVec 128) (c : Nat → BitVec 128) : Nat → BitVec 128 :=
  regs 2 fun i => _mm_or_si128 (_mm_and_si128 (a i) (b i)) (_mm_andnot_si128 (a i) (c i))
/-- sse4_1_double.hh:862-869 -/
def sse2.vceqz_f32 (a : Nat → BitVec 128) : Nat → BitVec 128 :=
  regs 2 fun i => _mm_cmpeq_ps (a i) _mm_setzero_ps
/-- sse4_1_double.hh:871-878 -/
def sse2.vceqz_f64 (a : Nat → BitVec 128) : Nat → BitVec 128 :=
  regs 2 fun i => _mm_cmpeq_pd (a i) _mm_setzero_pd
/-- sse4_1_double.hh:880-887 -/
def sse2.vceqz_i8 (a : Nat → BitVec 128) : Nat → BitVec 128 :=
  regs 2 fun i => _mm_cmpeq_epi8 (a i) _mm_setzero_si128
/-- sse4_1_double.hh:889-896 -/
def sse2.vceqz_i16 (a : Nat → BitVec 128) : Nat → BitVec 128 :=
  regs 2 fun i => _mm_cmpeq_epi16 (a i) _mm_setzero_si128
/-- sse4_1_double.hh:898-905 -/
def sse2.vceqz_i32 (a : Nat → BitVec 128) : Nat → BitVec 128 :=
  regs 2 fun i => _mm_cmpeq_epi32 (a i) _mm_setzero_si128
/-- sse4_1_double.hh:907-914 -/
def sse2.vceqz_i64 (a : Nat → BitVec 128) : Nat → BitVec 128 :=
  regs 2 fun i => _mm_cmpeq_epi64 (a i) _mm_setzero_si128
/-- sse4_1_double.hh:916-923 -/
def sse2.vceq_f32 (a : Nat → BitVec 128) (b : Nat → BitVec 128) : Nat → BitVec 128 :=
  regs 2 fun i => _mm_cmpeq_ps (a i) (b i)
/-- sse4_1_double.hh:925-932 -/
def sse2.vceq_f64 (a : Nat → BitVec 128) (b : Nat → BitVec 128) : Nat → BitVec 128 :=
  regs 2 fun i => _mm_cmpeq_pd (a i) (b i)
/-- sse4_1_double.hh:934-941 -/
def sse2.vceq_i8 (a : Nat → BitVec 128) (b : Nat → BitVec 128) : Nat → BitVec 128 :=
  regs 2 fun i => _mm_cmpeq_epi8 (a i) (b i)
/-- sse4_1_double.hh:943-950 -/
def sse2.vceq_i16 (a : Nat → BitVec 128) (b : Nat → BitVec 128) : Nat → BitVec 128 :=
  regs 2 fun i => _mm_cmpeq_epi16 (a i) (b i)
/-- sse4_1_double.hh:952-959 -/
def sse2.vceq_i32 (a : Nat → BitVec 128) (b : Nat → BitVec 128) : Nat → BitVec 128 :=
  regs 2 fun i => _mm_cmpeq_epi32 (a i) (b i)
/-- sse4_1_double.hh:961-968 -/
def sse2.vceq_i64 (a : Nat → BitVec 128) (b : Nat → BitVec 128) : Nat → BitVec 128 :=
  regs 2 fun i => _mm_cmpeq_epi64 (a i) (b i)
/-- sse4_1_double.hh:970-977 -/
def sse2.vcgtz_f32 (a : Nat → BitVec 128) : Nat → BitVec 128 :=
  regs 2 fun i => _mm_cmpgt_ps (a i) _mm_setzero_ps
/-- sse4_1_double.hh:979-986 -/
def sse2.vcgtz_f64 (a : Nat → BitVec 128) : Nat → BitVec 128 :=
  regs 2 fun i => _mm_cmpgt_pd (a i) _mm_setzero_pd
/-- sse4_1_double.hh:988-995 -/
def sse2.vcgtz_i8 (a : Nat → BitVec 128) : Nat → BitVec 128 :=
  regs 2 fun i => _mm_cmpgt_epi8 (a i) _mm_setzero_si128
/-- sse4_1_double.hh:997-1004 -/
def sse2.vcgtz_i16 (a : Nat → BitVec 128) : Nat → BitVec 128 :=
  regs 2 fun i => _mm_cmpgt_epi16 (a i) _mm_setzero_si128
/-- sse4_1_double.hh:1006-1013 -/
def sse2.vcgtz_i32 (a : Nat → BitVec 128) : Nat → BitVec 128 :=
  regs 2 fun i => _mm_cmpgt_epi32 (a i) _mm_setzero_si128
/-- sse4_1_double.hh:1015-1022 -/
def sse2.vcgtz_i64 (a : Nat → BitVec 128) : Nat → BitVec 128 :=
  regs 2 fun i => _mm_cmpgt_epi64 (a i) _mm_setzero_si128
/-- sse4_1_double.hh:1024-1031 -/
def sse2.vcltz_f32 (a : Nat → BitVec 128) : Nat → BitVec 128 :=
  regs 2 fun i => _mm_cmplt_ps (a i) _mm_setzero_ps
/-- sse4_1_double.hh:1033-1040 -/
def sse2.vcltz_f64 (a : Nat → BitVec 128) : Nat → BitVec 128 :=
  regs 2 fun i => _mm_cmplt_pd (a i) _mm_setzero_pd
/-- sse4_1_double.hh:1042-1049 -/
def sse2.vcltz_i8 (a : Nat → BitVec 128) : Nat → BitVec 128 :=
  regs 2 fun i => _mm_cmpgt_epi8 _mm_setzero_si128 (a i)
/-- sse4_1_double.hh:1051-1058 -/
def sse2.vcltz_i16 (a : Nat → BitVec 128) : Nat → BitVec 128 :=
  regs 2 fun i => _mm_cmpgt_epi16 _mm_setzero_si128 (a i)
/-- sse4_1_double.hh:1060-1067 -/
def sse2.vcltz_i32 (a : Nat → BitVec 128) : Nat → BitVec 128 :=
  regs 2 fun i => _mm_cmpgt_epi32 _mm_setzero_si128 (a i)
/-- sse4_1_double.hh:1069-1076 -/
def sse2.vcltz_i64 (a : Nat → BitVec 128) : Nat → BitVec 128 :=
  regs 2 fun i => _mm_cmpgt_epi64 _mm_setzero_si128 (a i)
/-- sse4_1_double.hh:1078-1085 -/
def sse2.vclez_f32 (a : Nat → BitVec 128) : Nat → BitVec 128 :=
  regs 2 fun i => _mm_cmple_ps (a i) _mm_setzero_ps
/-- sse4_1_double.hh:1087-1094 -/
def sse2.vclez_f64 (a : Nat → BitVec 128) : Nat → BitVec 128 :=
  regs 2 fun i => _mm_cmple_pd (a i) _mm_setzero_pd
/-- sse4_1_double.hh:1096-1105 -/
def sse2.vclez_i8 (a : Nat → BitVec 128) : Nat → BitVec 128 :=
  regs 2 fun i => _mm_or_si128 (_mm_cmpeq_epi8 (a i) _mm_setzero_si128) (_mm_cmpgt_epi8 _mm_setzero_si128 (a i))
/-- sse4_1_double.hh:1107-1116 -/
def sse2.vclez_i16 (a : Nat → BitVec 128) : Nat → BitVec 128 :=
  regs 2 fun i => _mm_or_si128 (_mm_cmpeq_epi16 (a i) _mm_setzero_si128) (_mm_cmpgt_epi16 _mm_setzero_si128 (a i))
/-- sse4_1_double.hh:1118-1127 -/
def sse2.vclez_i32 (a : Nat → BitVec 128) : Nat → BitVec 128 :=
  regs 2 fun i => _mm_or_si128 (_mm_cmpeq_epi32 (a i) _mm_setzero_si128) (_mm_cmpgt_epi32 _mm_setzero_si128 (a i))
/-- sse4_1_double.hh:1129-1138 -/
def sse2.vclez_i64 (a : Nat → BitVec 128) : Nat → BitVec 128 :=
  regs 2 fun i => _mm_or_si128 (_mm_cmpeq_epi64 (a i) _mm_setzero_si128) (_mm_cmpgt_epi64 _mm_setzero_si128 (a i))
/-- sse4_1_double.hh:1140-1147 -/
def sse2.vmin_f32 (a : Nat → BitVec 128) (b : Nat → BitVec 128) : Nat → BitVec 128 :=
  regs 2 fun i => _mm_min_ps (a i) (b i)
/-- sse4_1_double.hh:1149-1156 -/
def sse2.vmin_f64 (a : Nat → BitVec 128) (b : Nat → BitVec 128) : Nat → BitVec 128 :=
  regs 2 fun i => _mm_min_pd (a i) (b i)
/-- sse4_1_double.hh:1158-1165 -/
def sse2.vmin_i8 (a : Nat → BitVec 128) (b : Nat → BitVec 128) : Nat → BitVec 128 :=
  regs 2 fun i => _mm_min_epi8 (a i) (b i)
/-- sse4_1_double.hh:1167-1174 -/
def sse2.vmin_i16 (a : Nat → BitVec 128) (b : Nat → BitVec 128) : Nat → BitVec 128 :=
  regs 2 fun i => _mm_min_epi16 (a i) (b i)
/-- sse4_1_double.hh:1176-1183 -/
def sse2.vmin_i32 (a : Nat → BitVec 128) (b : Nat → BitVec 128) : Nat → BitVec 128 :=
  regs 2 fun i => _mm_min_epi32 (a i) (b i)
/-- sse4_1_double.hh:1185-1192 -/
def sse2.vmax_f32 (a : Nat → BitVec 128) (b : Nat → BitVec 128) : Nat → BitVec 128 :=
  regs 2 fun i => _mm_max_ps (a i) (b i)
/-- sse4_1_double.hh:1194-1201 -/
def sse2.vmax_f64 (a : Nat → BitVec 128) (b : Nat → BitVec 128) : Nat → BitVec 128 :=
  regs 2 fun i => _mm_max_pd (a i) (b i)
/-- sse4_1_double.hh:1203-1210 -/
def sse2.vmax_i8 (a : Nat → BitVec 128) (b : Nat → BitVec 128) : Nat → BitVec 128 :=
  regs 2 fun i => _mm_max_epi8 (a i) (b i)
/-- sse4_1_double.hh:1212-1219 -/
def sse2.vmax_i16 (a : Nat → BitVec 128) (b : Nat → BitVec 128) : Nat → BitVec 128 :=
  regs 2 fun i => _mm_max_epi16 (a i) (b i)
/-- sse4_1_double.hh:1221-1228 -/
def sse2.vmax_i32 (a : Nat → BitVec 128) (b : Nat → BitVec 128) : Nat → BitVec 128 :=
  regs 2 fun i => _mm_max_epi32 (a i) (b i)
/-- sse4_1_double.hh:1230-1237 -/
def sse2.vclamp_f32 (x : Nat → BitVec 128) (a : BitVec 32) (b : BitVec 32) : Nat → BitVec 128 :=
  regs 2 fun i => _mm_min_ps (_mm_max_ps (x i) (_mm_set1_ps a)) (_mm_set1_ps b)
/-- sse4_1_double.hh:1239-1246 -/
def sse2.vclamp_f64 (x : Nat → BitVec 128) (a : BitVec 64) (b : BitVec 64) : Nat → BitVec 128 :=
  regs 2 fun i => _mm_min_pd (_mm_max_pd (x i) (_mm_set1_pd a)) (_mm_set1_pd b)
/-- sse4_1_double.hh:1248-1255 -/
def sse2.vclamp_i8 (x : Nat → BitVec 128) (a : BitVec 8) (b : BitVec 8) : Nat → BitVec 128 :=
  regs 2 fun i => _mm_min_epi8 (_mm_max_epi8 (x i) (_mm_set1_epi8 a)) (_mm_set1_epi8 b)
/-- sse4_1_double.hh:1257-1264 -/
def sse2.vclamp_i16 (x : Nat → BitVec 128) (a : BitVec 16) (b : BitVec 16) : Nat → BitVec 128 :=
  regs 2 fun i => _mm_min_epi16 (_mm_max_epi16 (x i) (_mm_set1_epi16 a)) (_mm_set1_epi16 b)
/-- sse4_1_double.hh:1266-1273 -/
def sse2.vclamp_i32 (x : Nat → BitVec 128) (a : BitVec 32) (b : BitVec 32) : Nat → BitVec 128 :=
  regs 2 fun i => _mm_min_epi32 (_mm_max_epi32 (x i) (_mm_set1_epi32 a)) (_mm_set1_epi32 b)
/-- sse4_1_double.hh:1275-1284 -/
def sse2.vshuf_u8 (a : Nat → BitVec 128) (b : Nat → BitVec 128) : Nat → BitVec 128 :=
  regs 2 fun i => _mm_or_si128 (_mm_shuffle_epi8 (a 0) (_mm_or_si128 (b i) (_mm_cmpgt_epi8 (b i) (_mm_set1_epi8 15)))) (_mm_shuffle_epi8 (a 1) (_mm_sub_epi8 (b i) (_mm_set1_epi8 16)))
/-- sse4_1_double.hh:1286-1295 -/
def sse2.vshuf_i8 (a : Nat → BitVec 128) (b : Nat → BitVec 128) : Nat → BitVec 128 :=
  regs 2 fun i => _mm_or_si128 (_mm_shuffle_epi8 (a 0) (_mm_or_si128 (b i) (_mm_cmpgt_epi8 (b i) (_mm_set1_epi8 15)))) (_mm_shuffle_epi8 (a 1) (_mm_sub_epi8 (b i) (_mm_set1_epi8 16)))

end Verif.SIMD
