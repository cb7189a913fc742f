import Verif.SIMD.Intrin
/- Model of sse4_1.hh, generated by tools/gen_simd.py: every function is the composition of intrinsics in its body. -/
namespace Verif.SIMD

/-- sse4_1.hh:121-127 -/
def sse.vreinterpret_u32_f32 (a : BitVec 128) : BitVec 128 :=
  a
/-- sse4_1.hh:129-135 -/
def sse.vreinterpret_f32_u32 (a : BitVec 128) : BitVec 128 :=
  a
/-- sse4_1.hh:137-143 -/
def sse.vreinterpret_u64_f64 (a : BitVec 128) : BitVec 128 :=
  a
/-- sse4_1.hh:145-151 -/
def sse.vreinterpret_f64_u64 (a : BitVec 128) : BitVec 128 :=
  a
/-- sse4_1.hh:153-159 -/
def sse.vreinterpret_i8_u8 (a : BitVec 128) : BitVec 128 :=
  a
/-- sse4_1.hh:161-167 -/
def sse.vreinterpret_u8_i8 (a : BitVec 128) : BitVec 128 :=
  a
/-- sse4_1.hh:169-175 -/
def sse.vreinterpret_i16_u16 (a : BitVec 128) : BitVec 128 :=
  a
/-- sse4_1.hh:177-183 -/
def sse.vreinterpret_u16_i16 (a : BitVec 128) : BitVec 128 :=
  a
/-- sse4_1.hh:185-191 -/
def sse.vreinterpret_i32_u32 (a : BitVec 128) : BitVec 128 :=
  a
/-- sse4_1.hh:193-199 -/
def sse.vreinterpret_u32_i32 (a : BitVec 128) : BitVec 128 :=
  a
/-- sse4_1.hh:201-207 -/
def sse.vreinterpret_i64_u64 (a : BitVec 128) : BitVec 128 :=
  a
/-- sse4_1.hh:209-215 -/
def sse.vreinterpret_u64_i64 (a : BitVec 128) : BitVec 128 :=
  a
/-- sse4_1.hh:217-223 -/
def sse.vdup_f32 (a : BitVec 32) : BitVec 128 :=
  _mm_set1_ps a
/-- sse4_1.hh:225-231 -/
def sse.vdup_f64 (a : BitVec 64) : BitVec 128 :=
  _mm_set1_pd a
/-- sse4_1.hh:233-239 -/
def sse.vdup_i8 (a : BitVec 8) : BitVec 128 :=
  _mm_set1_epi8 a
/-- sse4_1.hh:241-247 -/
def sse.vdup_i16 (a : BitVec 16) : BitVec 128 :=
  _mm_set1_epi16 a
/-- sse4_1.hh:249-255 -/
def sse.vdup_i32 (a : BitVec 32) : BitVec 128 :=
  _mm_set1_epi32 a
/-- sse4_1.hh:257-263 -/
def sse.vdup_i64 (a : BitVec 64) : BitVec 128 :=
  _mm_set1_epi64x a
/-- sse4_1.hh:265-271 -/
def sse.vzero_f32 : BitVec 128 :=
  _mm_setzero_ps
/-- sse4_1.hh:273-279 -/
def sse.vzero_f64 : BitVec 128 :=
  _mm_setzero_pd
/-- sse4_1.hh:281-287 -/
def sse.vzero_i8 : BitVec 128 :=
  _mm_setzero_si128
/-- sse4_1.hh:289-295 -/
def sse.vzero_i16 : BitVec 128 :=
  _mm_setzero_si128
/-- sse4_1.hh:297-303 -/
def sse.vzero_i32 : BitVec 128 :=
  _mm_setzero_si128
/-- sse4_1.hh:305-311 -/
def sse.vzero_i64 : BitVec 128 :=
  _mm_setzero_si128
/-- sse4_1.hh:313-319 -/
def sse.vadd_f32 (A32 : Fpu 32) (a : BitVec 128) (b : BitVec 128) : BitVec 128 :=
  _mm_add_ps A32 a b
/-- sse4_1.hh:321-327 -/
def sse.vadd_f64 (A64 : Fpu 64) (a : BitVec 128) (b : BitVec 128) : BitVec 128 :=
  _mm_add_pd A64 a b
/-- sse4_1.hh:329-335 -/
def sse.vadd_i8 (a : BitVec 128) (b : BitVec 128) : BitVec 128 :=
  _mm_add_epi8 a b
/-- sse4_1.hh:337-343 -/
def sse.vadd_i16 (a : BitVec 128) (b : BitVec 128) : BitVec 128 :=
  _mm_add_epi16 a b
/-- sse4_1.hh:345-351 -/
def sse.vadd_i32 (a : BitVec 128) (b : BitVec 128) : BitVec 128 :=
  _mm_add_epi32 a b
/-- sse4_1.hh:353-359 -/
def sse.vadd_i64 (a : BitVec 128) (b : BitVec 128) : BitVec 128 :=
  _mm_add_epi64 a b
/-- sse4_1.hh:361-367 -/
def sse.vqadd_i8 (a : BitVec 128) (b : BitVec 128) : BitVec 128 :=
  _mm_adds_epi8 a b
/-- sse4_1.hh:369-375 -/
def sse.vqadd_i16 (a : BitVec 128) (b : BitVec 128) : BitVec 128 :=
  _mm_adds_epi16 a b
/-- sse4_1.hh:377-383 -/
def sse.vsub_f32 (A32 : Fpu 32) (a : BitVec 128) (b : BitVec 128) : BitVec 128 :=
  _mm_sub_ps A32 a b
/-- sse4_1.hh:385-391 -/
def sse.vsub_f64 (A64 : Fpu 64) (a : BitVec 128) (b : BitVec 128) : BitVec 128 :=
  _mm_sub_pd A64 a b
/-- sse4_1.hh:393-399 -/
def sse.vsub_i8 (a : BitVec 128) (b : BitVec 128) : BitVec 128 :=
  _mm_sub_epi8 a b
/-- sse4_1.hh:401-407 -/
def sse.vsub_i16 (a : BitVec 128) (b : BitVec 128) : BitVec 128 :=
  _mm_sub_epi16 a b
/-- sse4_1.hh:409-415 -/
def sse.vsub_i32 (a : BitVec 128) (b : BitVec 128) : BitVec 128 :=
  _mm_sub_epi32 a b
/-- sse4_1.hh:417-423 -/
def sse.vsub_i64 (a : BitVec 128) (b : BitVec 128) : BitVec 128 :=
  _mm_sub_epi64 a b
/-- sse4_1.hh:425-431 -/
def sse.vqsub_i8 (a : BitVec 128) (b : BitVec 128) : BitVec 128 :=
  _mm_subs_epi8 a b
/-- sse4_1.hh:433-439 -/
def sse.vqsub_i16 (a : BitVec 128) (b : BitVec 128) : BitVec 128 :=
  _mm_subs_epi16 a b
/-- sse4_1.hh:441-447 -/
def sse.vqsub_u8 (a : BitVec 128) (b : BitVec 128) : BitVec 128 :=
  _mm_subs_epu8 a b
/-- sse4_1.hh:449-455 -/
def sse.vqsub_u16 (a : BitVec 128) (b : BitVec 128) : BitVec 128 :=
  _mm_subs_epu16 a b
/-- sse4_1.hh:457-463 -/
def sse.vmul_f32 (A32 : Fpu 32) (a : BitVec 128) (b : BitVec 128) : BitVec 128 :=
  _mm_mul_ps A32 a b
/-- sse4_1.hh:465-471 -/
def sse.vmul_f64 (A64 : Fpu 64) (a : BitVec 128) (b : BitVec 128) : BitVec 128 :=
  _mm_mul_pd A64 a b
/-- sse4_1.hh:473-479 -/
def sse.vabs_f32 (a : BitVec 128) : BitVec 128 :=
  _mm_andnot_ps (_mm_set1_ps (negz 32)) a
/-- sse4_1.hh:481-487 -/
def sse.vabs_f64 (a : BitVec 128) : BitVec 128 :=
  _mm_andnot_pd (_mm_set1_pd (negz 64)) a
/-- sse4_1.hh:489-495 -/
def sse.vqabs_i8 (a : BitVec 128) : BitVec 128 :=
  _mm_abs_epi8 (_mm_max_epi8 a (_mm_set1_epi8 (BitVec.ofInt _ (-127))))
/-- sse4_1.hh:497-503 -/
def sse.vqabs_i16 (a : BitVec 128) : BitVec 128 :=
  _mm_abs_epi16 (_mm_max_epi16 a (_mm_set1_epi16 (BitVec.ofInt _ (-32767))))
/-- sse4_1.hh:505-511 -/
def sse.vqabs_i32 (a : BitVec 128) : BitVec 128 :=
  _mm_abs_epi32 (_mm_max_epi32 a (_mm_set1_epi32 (BitVec.ofInt _ (-2147483647))))
/-- sse4_1.hh:513-521 -/
def sse.vsignum_f32 (a : BitVec 128) : BitVec 128 :=
  _mm_andnot_ps (_mm_cmpeq_ps a _mm_setzero_ps) (_mm_or_ps (_mm_set1_ps f32.one) (_mm_and_ps (_mm_set1_ps (negz 32)) a))
/-- sse4_1.hh:523-531 -/
def sse.vsignum_f64 (a : BitVec 128) : BitVec 128 :=
  _mm_andnot_pd (_mm_cmpeq_pd a _mm_setzero_pd) (_mm_or_pd (_mm_set1_pd f64.one) (_mm_and_pd (_mm_set1_pd (negz 64)) a))
/-- sse4_1.hh:533-539 -/
def sse.vsignum_i8 (a : BitVec 128) : BitVec 128 :=
  _mm_sign_epi8 (_mm_set1_epi8 1) a
/-- sse4_1.hh:541-547 -/
def sse.vsignum_i16 (a : BitVec 128) : BitVec 128 :=
  _mm_sign_epi16 (_mm_set1_epi16 1) a
/-- sse4_1.hh:549-555 -/
def sse.vsignum_i32 (a : BitVec 128) : BitVec 128 :=
  _mm_sign_epi32 (_mm_set1_epi32 1) a
/-- sse4_1.hh:557-565 -/
def sse.vsign_f32 (a : BitVec 128) (b : BitVec 128) : BitVec 128 :=
  _mm_andnot_ps (_mm_cmpeq_ps b _mm_setzero_ps) (_mm_xor_ps a (_mm_and_ps (_mm_set1_ps (negz 32)) b))
/-- sse4_1.hh:567-575 -/
def sse.vsign_f64 (a : BitVec 128) (b : BitVec 128) : BitVec 128 :=
  _mm_andnot_pd (_mm_cmpeq_pd b _mm_setzero_pd) (_mm_xor_pd a (_mm_and_pd (_mm_set1_pd (negz 64)) b))
/-- sse4_1.hh:577-583 -/
def sse.vsign_i8 (a : BitVec 128) (b : BitVec 128) : BitVec 128 :=
  _mm_sign_epi8 a b
/-- sse4_1.hh:585-591 -/
def sse.vsign_i16 (a : BitVec 128) (b : BitVec 128) : BitVec 128 :=
  _mm_sign_epi16 a b
/-- sse4_1.hh:593-599 -/
def sse.vsign_i32 (a : BitVec 128) (b : BitVec 128) : BitVec 128 :=
  _mm_sign_epi32 a b
/-- sse4_1.hh:601-609 -/
def sse.vcopysign_f32 (a : BitVec 128) (b : BitVec 128) : BitVec 128 :=
  _mm_or_ps (_mm_andnot_ps (_mm_set1_ps (negz 32)) a) (_mm_and_ps (_mm_set1_ps (negz 32)) b)
/-- sse4_1.hh:611-619 -/
def sse.vcopysign_f64 (a : BitVec 128) (b : BitVec 128) : BitVec 128 :=
  _mm_or_pd (_mm_andnot_pd (_mm_set1_pd (negz 64)) a) (_mm_and_pd (_mm_set1_pd (negz 64)) b)
/-- sse4_1.hh:621-627 -/
def sse.vorr_u8 (a : BitVec 128) (b : BitVec 128) : BitVec 128 :=
  _mm_or_si128 a b
/-- sse4_1.hh:629-635 -/
def sse.vorr_u16 (a : BitVec 128) (b : BitVec 128) : BitVec 128 :=
  _mm_or_si128 a b
/-- sse4_1.hh:637-643 -/
def sse.vorr_u32 (a : BitVec 128) (b : BitVec 128) : BitVec 128 :=
  _mm_or_si128 a b
/-- sse4_1.hh:645-651 -/
def sse.vorr_u64 (a : BitVec 128) (b : BitVec 128) : BitVec 128 :=
  _mm_or_si128 a b
/-- sse4_1.hh:653-659 -/
def sse.vand_u8 (a : BitVec 128) (b : BitVec 128) : BitVec 128 :=
  _mm_and_si128 a b
/-- sse4_1.hh:661-667 -/
def sse.vand_u16 (a : BitVec 128) (b : BitVec 128) : BitVec 128 :=
  _mm_and_si128 a b
/-- sse4_1.hh:669-675 -/
def sse.vand_u32 (a : BitVec 128) (b : BitVec 128) : BitVec 128 :=
  _mm_and_si128 a b
/-- sse4_1.hh:677-683 -/
def sse.vand_u64 (a : BitVec 128) (b : BitVec 128) : BitVec 128 :=
  _mm_and_si128 a b
/-- sse4_1.hh:685-691 -/
def sse.veor_u8 (a : BitVec 128) (b : BitVec 128) : BitVec 128 :=
  _mm_xor_si128 a b
/-- sse4_1.hh:693-699 -/
def sse.veor_u16 (a : BitVec 128) (b : BitVec 128) : BitVec 128 :=
  _mm_xor_si128 a b
/-- sse4_1.hh:701-707 -/
def sse.veor_u32 (a : BitVec 128) (b : BitVec 128) : BitVec 128 :=
  _mm_xor_si128 a b
/-- sse4_1.hh:709-715 -/
def sse.veor_u64 (a : BitVec 128) (b : BitVec 128) : BitVec 128 :=
  _mm_xor_si128 a b
/-- sse4_1.hh:717-723 -/
def sse.vbic_u8 (a : BitVec 128) (b : BitVec 128) : BitVec 128 :=
  _mm_andnot_si128 b a
/-- sse4_1.hh:725-731 -/
def sse.vbic_u16 (a : BitVec 128) (b : BitVec 128) : BitVec 128 :=
  _mm_andnot_si128 b a
/-- sse4_1.hh:733-739 -/
def sse.vbic_u32 (a : BitVec 128) (b : BitVec 128) : BitVec 128 :=
  _mm_andnot_si128 b a
/-- sse4_1.hh:741-747 -/
def sse.vbic_u64 (a : BitVec 128) (b : BitVec 128) : BitVec 128 :=
  _mm_andnot_si128 b a
/-- sse4_1.hh:749-755 -/
def sse.vbsl_u8 (a : BitVec 128) (b : BitVec 128) (c : BitVec 128) : BitVec 128 :=
  _mm_or_si128 (_mm_and_si128 a b) (_mm_andnot_si128 a c)
/-- sse4_1.hh:757-763 -/
def sse.vbsl_u16 (a : BitVec 128) (b : BitVec 128) (c : BitVec 128) : BitVec 128 :=
  _mm_or_si128 (_mm_and_si128 a b) (_mm_andnot_si128 a c)
/-- sse4_1.hh:765-771 -/
def sse.vbsl_u32 (a : BitVec 128) (b : BitVec 128) (c : BitVec 128) : BitVec 128 :=
  _mm_or_si128 (_mm_and_si128 a b) (_mm_andnot_si128 a c)
/-- sse4_1.hh:773-779 -/
def sse.vbsl_u64 (a : BitVec 128) (b : BitVec 128) (c : BitVec 128) : BitVec 128 :=
  _mm_or_si128 (_mm_and_si128 a b) (_mm_andnot_si128 a c)
/-- sse4_1.hh:781-787 -/
def sse.vceqz_f32 (a : BitVec 128) : BitVec 128 :=
  _mm_cmpeq_ps a _mm_setzero_ps
/-- sse4_1.hh:789-795 -/
def sse.vceqz_f64 (a : BitVec 128) : BitVec 128 :=
  _mm_cmpeq_pd a _mm_setzero_pd
/-- sse4_1.hh:797-803 -/
def sse.vceqz_i8 (a : BitVec 128) : BitVec 128 :=
  _mm_cmpeq_epi8 a _mm_setzero_si128
/-- sse4_1.hh:805-811 -/
def sse.vceqz_i16 (a : BitVec 128) : BitVec 128 :=
  _mm_cmpeq_epi16 a _mm_setzero_si128
/-- sse4_1.hh:813-819 -/
def sse.vceqz_i32 (a : BitVec 128) : BitVec 128 :=
  _mm_cmpeq_epi32 a _mm_setzero_si128
/-- sse4_1.hh:821-827 -/
def sse.vceqz_i64 (a : BitVec 128) : BitVec 128 :=
  _mm_cmpeq_epi64 a _mm_setzero_si128
/-- sse4_1.hh:830-836 -/
def sse.vceq_f32 (a : BitVec 128) (b : BitVec 128) : BitVec 128 :=
  _mm_cmpeq_ps a b
/-- sse4_1.hh:838-844 -/
def sse.vceq_f64 (a : BitVec 128) (b : BitVec 128) : BitVec 128 :=
  _mm_cmpeq_pd a b
/-- sse4_1.hh:846-852 -/
def sse.vceq_i8 (a : BitVec 128) (b : BitVec 128) : BitVec 128 :=
  _mm_cmpeq_epi8 a b
/-- sse4_1.hh:854-860 -/
def sse.vceq_i16 (a : BitVec 128) (b : BitVec 128) : BitVec 128 :=
  _mm_cmpeq_epi16 a b
/-- sse4_1.hh:862-868 -/
def sse.vceq_i32 (a : BitVec 128) (b : BitVec 128) : BitVec 128 :=
  _mm_cmpeq_epi32 a b
/-- sse4_1.hh:870-876 -/
def sse.vceq_i64 (a : BitVec 128) (b : BitVec 128) : BitVec 128 :=
  _mm_cmpeq_epi64 a b
/-- sse4_1.hh:878-884 -/
def sse.vcgtz_f32 (a : BitVec 128) : BitVec 128 :=
  _mm_cmpgt_ps a _mm_setzero_ps
/-- sse4_1.hh:886-892 -/
def sse.vcgtz_f64 (a : BitVec 128) : BitVec 128 :=
  _mm_cmpgt_pd a _mm_setzero_pd
/-- sse4_1.hh:894-900 -/
def sse.vcgtz_i8 (a : BitVec 128) : BitVec 128 :=
  _mm_cmpgt_epi8 a _mm_setzero_si128
/-- sse4_1.hh:902-908 -/
def sse.vcgtz_i16 (a : BitVec 128) : BitVec 128 :=
  _mm_cmpgt_epi16 a _mm_setzero_si128
/-- sse4_1.hh:910-916 -/
def sse.vcgtz_i32 (a : BitVec 128) : BitVec 128 :=
  _mm_cmpgt_epi32 a _mm_setzero_si128
/-- sse4_1.hh:918-924 -/
def sse.vcgtz_i64 (a : BitVec 128) : BitVec 128 :=
  _mm_cmpgt_epi64 a _mm_setzero_si128
/-- sse4_1.hh:926-932 -/
def sse.vcltz_f32 (a : BitVec 128) : BitVec 128 :=
  _mm_cmplt_ps a _mm_setzero_ps
/-- sse4_1.hh:934-940 -/
def sse.vcltz_f64 (a : BitVec 128) : BitVec 128 :=
  _mm_cmplt_pd a _mm_setzero_pd
/-- sse4_1.hh:942-948 -/
def sse.vcltz_i8 (a : BitVec 128) : BitVec 128 :=
  _mm_cmpgt_epi8 _mm_setzero_si128 a
/-- sse4_1.hh:950-956 -/
def sse.vcltz_i16 (a : BitVec 128) : BitVec 128 :=
  _mm_cmpgt_epi16 _mm_setzero_si128 a
/-- sse4_1.hh:958-964 -/
def sse.vcltz_i32 (a : BitVec 128) : BitVec 128 :=
  _mm_cmpgt_epi32 _mm_setzero_si128 a
/-- sse4_1.hh:966-972 -/
def sse.vcltz_i64 (a : BitVec 128) : BitVec 128 :=
  _mm_cmpgt_epi64 _mm_setzero_si128 a
/-- sse4_1.hh:974-980 -/
def sse.vclez_f32 (a : BitVec 128) : BitVec 128 :=
  _mm_cmple_ps a _mm_setzero_ps
/-- sse4_1.hh:982-988 -/
def sse.vclez_f64 (a : BitVec 128) : BitVec 128 :=
  _mm_cmple_pd a _mm_setzero_pd
/-- sse4_1.hh:990-998 -/
def sse.vclez_i8 (a : BitVec 128) : BitVec 128 :=
  _mm_or_si128 (_mm_cmpeq_epi8 a _mm_setzero_si128) (_mm_cmpgt_epi8 _mm_setzero_si128 a)
/-- sse4_1.hh:1000-1008 -/
def sse.vclez_i16 (a : BitVec 128) : BitVec 128 :=
  _mm_or_si128 (_mm_cmpeq_epi16 a _mm_setzero_si128) (_mm_cmpgt_epi16 _mm_setzero_si128 a)
/-- sse4_1.hh:1010-1018 -/
def sse.vclez_i32 (a : BitVec 128) : BitVec 128 :=
  _mm_or_si128 (_mm_cmpeq_epi32 a _mm_setzero_si128) (_mm_cmpgt_epi32 _mm_setzero_si128 a)
/-- sse4_1.hh:1020-1028 -/
def sse.vclez_i64 (a : BitVec 128) : BitVec 128 :=
  _mm_or_si128 (_mm_cmpeq_epi64 a _mm_setzero_si128) (_mm_cmpgt_epi64 _mm_setzero_si128 a)
/-- sse4_1.hh:1030-1036 -/
def sse.vmin_f32 (a : BitVec 128) (b : BitVec 128) : BitVec 128 :=
  _mm_min_ps a b
/-- sse4_1.hh:1038-1044 -/
def sse.vmin_f64 (a : BitVec 128) (b : BitVec 128) : BitVec 128 :=
  _mm_min_pd a b
/-- sse4_1.hh:1046-1052 -/
def sse.vmin_i8 (a : BitVec 128) (b : BitVec 128) : BitVec 128 :=
  _mm_min_epi8 a b
/-- sse4_1.hh:1054-1060 -/
def sse.vmin_i16 (a : BitVec 128) (b : BitVec 128) : BitVec 128 :=
  _mm_min_epi16 a b
/-- sse4_1.hh:1062-1068 -/
def sse.vmin_i32 (a : BitVec 128) (b : BitVec 128) : BitVec 128 :=
  _mm_min_epi32 a b
/-- sse4_1.hh:1070-1076 -/
def sse.vmax_f32 (a : BitVec 128) (b : BitVec 128) : BitVec 128 :=
  _mm_max_ps a b
/-- sse4_1.hh:1078-1084 -/
def sse.vmax_f64 (a : BitVec 128) (b : BitVec 128) : BitVec 128 :=
  _mm_max_pd a b
/-- sse4_1.hh:1086-1092 -/
def sse.vmax_i8 (a : BitVec 128) (b : BitVec 128) : BitVec 128 :=
  _mm_max_epi8 a b
/-- sse4_1.hh:1094-1100 -/
def sse.vmax_i16 (a : BitVec 128) (b : BitVec 128) : BitVec 128 :=
  _mm_max_epi16 a b
/-- sse4_1.hh:1102-1108 -/
def sse.vmax_i32 (a : BitVec 128) (b : BitVec 128) : BitVec 128 :=
  _mm_max_epi32 a b
/-- sse4_1.hh:1110-1116 -/
def sse.vclamp_f32 (x : BitVec 128) (a : BitVec 32) (b : BitVec 32) : BitVec 128 :=
  _mm_min_ps (_mm_max_ps x (_mm_set1_ps a)) (_mm_set1_ps b)
/-- sse4_1.hh:1118-1124 -/
def sse.vclamp_f64 (x : BitVec 128) (a : BitVec 64) (b : BitVec 64) : BitVec 128 :=
  _mm_min_pd (_mm_max_pd x (_mm_set1_pd a)) (_mm_set1_pd b)
/-- sse4_1.hh:1126-1132 -/
def sse.vclamp_i8 (x : BitVec 128) (a : BitVec 8) (b : BitVec 8) : BitVec 128 :=
  _mm_min_epi8 (_mm_max_epi8 x (_mm_set1_epi8 a)) (_mm_set1_epi8 b)
/-- sse4_1.hh:1134-1140 -/
def sse.vclamp_i16 (x : BitVec 128) (a : BitVec 16) (b : BitVec 16) : BitVec 128 :=
  _mm_min_epi16 (_mm_max_epi16 x (_mm_set1_epi16 a)) (_mm_set1_epi16 b)
/-- sse4_1.hh:1142-1148 -/
def sse.vclamp_i32 (x : BitVec 128) (a : BitVec 32) (b : BitVec 32) : BitVec 128 :=
  _mm_min_epi32 (_mm_max_epi32 x (_mm_set1_epi32 a)) (_mm_set1_epi32 b)
/-- sse4_1.hh:1150-1156 -/
def sse.vshuf_u8 (a : BitVec 128) (b : BitVec 128) : BitVec 128 :=
  _mm_shuffle_epi8 a b
/-- sse4_1.hh:1158-1164 -/
def sse.vshuf_i8 (a : BitVec 128) (b : BitVec 128) : BitVec 128 :=
  _mm_shuffle_epi8 a b

end Verif.SIMD
