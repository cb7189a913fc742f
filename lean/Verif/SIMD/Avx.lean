import Verif.SIMD.Intrin
/- Model of avx2.hh, generated by tools/gen_simd.py: every function is the composition of intrinsics in its body. -/
namespace Verif.SIMD

/-- avx2.hh:121-127 -/
def avx.vreinterpret_u32_f32 (a : BitVec 256) : BitVec 256 :=
  a
/-- avx2.hh:129-135 -/
def avx.vreinterpret_f32_u32 (a : BitVec 256) : BitVec 256 :=
  a
/-- avx2.hh:137-143 -/
def avx.vreinterpret_u64_f64 (a : BitVec 256) : BitVec 256 :=
  a
/-- avx2.hh:145-151 -/
def avx.vreinterpret_f64_u64 (a : BitVec 256) : BitVec 256 :=
  a
/-- avx2.hh:153-159 -/
def avx.vreinterpret_i8_u8 (a : BitVec 256) : BitVec 256 :=
  a
/-- avx2.hh:161-167 -/
def avx.vreinterpret_u8_i8 (a : BitVec 256) : BitVec 256 :=
  a
/-- avx2.hh:169-175 -/
def avx.vreinterpret_i16_u16 (a : BitVec 256) : BitVec 256 :=
  a
/-- avx2.hh:177-183 -/
def avx.vreinterpret_u16_i16 (a : BitVec 256) : BitVec 256 :=
  a
/-- avx2.hh:185-191 -/
def avx.vreinterpret_i32_u32 (a : BitVec 256) : BitVec 256 :=
  a
/-- avx2.hh:193-199 -/
def avx.vreinterpret_u32_i32 (a : BitVec 256) : BitVec 256 :=
  a
/-- avx2.hh:201-207 -/
def avx.vreinterpret_i64_u64 (a : BitVec 256) : BitVec 256 :=
  a
/-- avx2.hh:209-215 -/
def avx.vreinterpret_u64_i64 (a : BitVec 256) : BitVec 256 :=
  a
/-- avx2.hh:217-223 -/
def avx.vdup_f32 (a : BitVec 32) : BitVec 256 :=
  _mm256_set1_ps a
/-- avx2.hh:225-231 -/
def avx.vdup_f64 (a : BitVec 64) : BitVec 256 :=
  _mm256_set1_pd a
/-- avx2.hh:233-239 -/
def avx.vdup_i8 (a : BitVec 8) : BitVec 256 :=
  _mm256_set1_epi8 a
/-- avx2.hh:241-247 -/
def avx.vdup_i16 (a : BitVec 16) : BitVec 256 :=
  _mm256_set1_epi16 a
/-- avx2.hh:249-255 -/
def avx.vdup_i32 (a : BitVec 32) : BitVec 256 :=
  _mm256_set1_epi32 a
/-- avx2.hh:257-263 -/
def avx.vdup_i64 (a : BitVec 64) : BitVec 256 :=
  _mm256_set1_epi64x a
/-- avx2.hh:265-271 -/
def avx.vzero_f32 : BitVec 256 :=
  _mm256_setzero_ps
/-- avx2.hh:273-279 -/
def avx.vzero_f64 : BitVec 256 :=
  _mm256_setzero_pd
/-- avx2.hh:281-287 -/
def avx.vzero_i8 : BitVec 256 :=
  _mm256_setzero_si256
/-- avx2.hh:289-295 -/
def avx.vzero_i16 : BitVec 256 :=
  _mm256_setzero_si256
/-- avx2.hh:297-303 -/
def avx.vzero_i32 : BitVec 256 :=
  _mm256_setzero_si256
/-- avx2.hh:305-311 -/
def avx.vzero_i64 : BitVec 256 :=
  _mm256_setzero_si256
/-- avx2.hh:313-319 -/
def avx.vadd_f32 (A32 : Fpu 32) (a : BitVec 256) (b : BitVec 256) : BitVec 256 :=
  _mm256_add_ps A32 a b
/-- avx2.hh:321-327 -/
def avx.vadd_f64 (A64 : Fpu 64) (a : BitVec 256) (b : BitVec 256) : BitVec 256 :=
  _mm256_add_pd A64 a b
/-- avx2.hh:329-335 -/
def avx.vadd_i8 (a : BitVec 256) (b : BitVec 256) : BitVec 256 :=
  _mm256_add_epi8 a b
/-- avx2.hh:337-343 -/
def avx.vadd_i16 (a : BitVec 256) (b : BitVec 256) : BitVec 256 :=
  _mm256_add_epi16 a b
/-- avx2.hh:345-351 -/
def avx.vadd_i32 (a : BitVec 256) (b : BitVec 256) : BitVec 256 :=
  _mm256_add_epi32 a b
/-- avx2.hh:353-359 -/
def avx.vadd_i64 (a : BitVec 256) (b : BitVec 256) : BitVec 256 :=
  _mm256_add_epi64 a b
/-- avx2.hh:361-367 -/
def avx.vqadd_i8 (a : BitVec 256) (b : BitVec 256) : BitVec 256 :=
  _mm256_adds_epi8 a b
/-- avx2.hh:369-375 -/
def avx.vqadd_i16 (a : BitVec 256) (b : BitVec 256) : BitVec 256 :=
  _mm256_adds_epi16 a b
/-- avx2.hh:377-383 -/
def avx.vsub_f32 (A32 : Fpu 32) (a : BitVec 256) (b : BitVec 256) : BitVec 256 :=
  _mm256_sub_ps A32 a b
/-- avx2.hh:385-391 -/
def avx.vsub_f64 (A64 : Fpu 64) (a : BitVec 256) (b : BitVec 256) : BitVec 256 :=
  _mm256_sub_pd A64 a b
/-- avx2.hh:393-399 -/
def avx.vsub_i8 (a : BitVec 256) (b : BitVec 256) : BitVec 256 :=
  _mm256_sub_epi8 a b
/-- avx2.hh:401-407 -/
def avx.vsub_i16 (a : BitVec 256) (b : BitVec 256) : BitVec 256 :=
  _mm256_sub_epi16 a b
/-- avx2.hh:409-415 -/
def avx.vsub_i32 (a : BitVec 256) (b : BitVec 256) : BitVec 256 :=
  _mm256_sub_epi32 a b
/-- avx2.hh:417-423 -/
def avx.vsub_i64 (a : BitVec 256) (b : BitVec 256) : BitVec 256 :=
  _mm256_sub_epi64 a b
/-- avx2.hh:425-431 -/
def avx.vqsub_i8 (a : BitVec 256) (b : BitVec 256) : BitVec 256 :=
  _mm256_subs_epi8 a b
/-- avx2.hh:433-439 -/
def avx.vqsub_i16 (a : BitVec 256) (b : BitVec 256) : BitVec 256 :=
  _mm256_subs_epi16 a b
/-- avx2.hh:441-447 -/
def avx.vqsub_u8 (a : BitVec 256) (b : BitVec 256) : BitVec 256 :=
  _mm256_subs_epu8 a b
/-- avx2.hh:449-455 -/
def avx.vqsub_u16 (a : BitVec 256) (b : BitVec 256) : BitVec 256 :=
  _mm256_subs_epu16 a b
/-- avx2.hh:457-463 -/
def avx.vmul_f32 (A32 : Fpu 32) (a : BitVec 256) (b : BitVec 256) : BitVec 256 :=
  _mm256_mul_ps A32 a b
/-- avx2.hh:465-471 -/
def avx.vmul_f64 (A64 : Fpu 64) (a : BitVec 256) (b : BitVec 256) : BitVec 256 :=
  _mm256_mul_pd A64 a b
/-- avx2.hh:473-479 -/
def avx.vabs_f32 (a : BitVec 256) : BitVec 256 :=
  _mm256_andnot_ps (_mm256_set1_ps (negz 32)) a
/-- avx2.hh:481-487 -/
def avx.vabs_f64 (a : BitVec 256) : BitVec 256 :=
  _mm256_andnot_pd (_mm256_set1_pd (negz 64)) a
/-- avx2.hh:489-495 -/
def avx.vqabs_i8 (a : BitVec 256) : BitVec 256 :=
  _mm256_abs_epi8 (_mm256_max_epi8 a (_mm256_set1_epi8 (BitVec.ofInt _ (-127))))
/-- avx2.hh:497-503 -/
def avx.vqabs_i16 (a : BitVec 256) : BitVec 256 :=
  _mm256_abs_epi16 (_mm256_max_epi16 a (_mm256_set1_epi16 (BitVec.ofInt _ (-32767))))
/-- avx2.hh:505-511 -/
def avx.vqabs_i32 (a : BitVec 256) : BitVec 256 :=
  _mm256_abs_epi32 (_mm256_max_epi32 a (_mm256_set1_epi32 (BitVec.ofInt _ (-2147483647))))
/-- avx2.hh:513-521 -/
def avx.vsignum_f32 (a : BitVec 256) : BitVec 256 :=
  _mm256_andnot_ps (_mm256_cmp_ps a _mm256_setzero_ps Cmp.eq) (_mm256_or_ps (_mm256_set1_ps f32.one) (_mm256_and_ps (_mm256_set1_ps (negz 32)) a))
/-- avx2.hh:523-531 -/
def avx.vsignum_f64 (a : BitVec 256) : BitVec 256 :=
  _mm256_andnot_pd (_mm256_cmp_pd a _mm256_setzero_pd Cmp.eq) (_mm256_or_pd (_mm256_set1_pd f64.one) (_mm256_and_pd (_mm256_set1_pd (negz 64)) a))
/-- avx2.hh:533-539 -/
def avx.vsignum_i8 (a : BitVec 256) : BitVec 256 :=
  _mm256_sign_epi8 (_mm256_set1_epi8 1) a
/-- avx2.hh:541-547 -/
def avx.vsignum_i16 (a : BitVec 256) : BitVec 256 :=
  _mm256_sign_epi16 (_mm256_set1_epi16 1) a
/-- avx2.hh:549-555 -/
def avx.vsignum_i32 (a : BitVec 256) : BitVec 256 :=
  _mm256_sign_epi32 (_mm256_set1_epi32 1) a
/-- avx2.hh:557-565 -/
def avx.vsign_f32 (a : BitVec 256) (b : BitVec 256) : BitVec 256 :=
  _mm256_andnot_ps (_mm256_cmp_ps b _mm256_setzero_ps Cmp.eq) (_mm256_xor_ps a (_mm256_and_ps (_mm256_set1_ps (negz 32)) b))
/-- avx2.hh:567-575 -/
def avx.vsign_f64 (a : BitVec 256) (b : BitVec 256) : BitVec 256 :=
  _mm256_andnot_pd (_mm256_cmp_pd b _mm256_setzero_pd Cmp.eq) (_mm256_xor_pd a (_mm256_and_pd (_mm256_set1_pd (negz 64)) b))
/-- avx2.hh:577-583 -/
def avx.vsign_i8 (a : BitVec 256) (b : BitVec 256) : BitVec 256 :=
  _mm256_sign_epi8 a b
/-- avx2.hh:585-591 -/
def avx.vsign_i16 (a : BitVec 256) (b : BitVec 256) : BitVec 256 :=
  _mm256_sign_epi16 a b
/-- avx2.hh:593-599 -/
def avx.vsign_i32 (a : BitVec 256) (b : BitVec 256) : BitVec 256 :=
  _mm256_sign_epi32 a b
/-- avx2.hh:601-609 -/
def avx.vcopysign_f32 (a : BitVec 256) (b : BitVec 256) : BitVec 256 :=
  _mm256_or_ps (_mm256_andnot_ps (_mm256_set1_ps (negz 32)) a) (_mm256_and_ps (_mm256_set1_ps (negz 32)) b)
/-- avx2.hh:611-619 -/
def avx.vcopysign_f64 (a : BitVec 256) (b : BitVec 256) : BitVec 256 :=
  _mm256_or_pd (_mm256_andnot_pd (_mm256_set1_pd (negz 64)) a) (_mm256_and_pd (_mm256_set1_pd (negz 64)) b)
/-- avx2.hh:621-627 -/
def avx.vorr_u8 (a : BitVec 256) (b : BitVec 256) : BitVec 256 :=
  _mm256_or_si256 a b
/-- avx2.hh:629-635 -/
def avx.vorr_u16 (a : BitVec 256) (b : BitVec 256) : BitVec 256 :=
  _mm256_or_si256 a b
/-- avx2.hh:637-643 -/
def avx.vorr_u32 (a : BitVec 256) (b : BitVec 256) : BitVec 256 :=
  _mm256_or_si256 a b
/-- avx2.hh:645-651 -/
def avx.vorr_u64 (a : BitVec 256) (b : BitVec 256) : BitVec 256 :=
  _mm256_or_si256 a b
/-- avx2.hh:653-659 -/
def avx.vand_u8 (a : BitVec 256) (b : BitVec 256) : BitVec 256 :=
  _mm256_and_si256 a b
/-- avx2.hh:661-667 -/
def avx.vand_u16 (a : BitVec 256) (b : BitVec 256) : BitVec 256 :=
  _mm256_and_si256 a b
/-- avx2.hh:669-675 -/
def avx.vand_u32 (a : BitVec 256) (b : BitVec 256) : BitVec 256 :=
  _mm256_and_si256 a b
/-- avx2.hh:677-683 -/
def avx.vand_u64 (a : BitVec 256) (b : BitVec 256) : BitVec 256 :=
  _mm256_and_si256 a b
/-- avx2.hh:685-691 -/
def avx.veor_u8 (a : BitVec 256) (b : BitVec 256) : BitVec 256 :=
  _mm256_xor_si256 a b
/-- avx2.hh:693-699 -/
def avx.veor_u16 (a : BitVec 256) (b : BitVec 256) : BitVec 256 :=
  _mm256_xor_si256 a b
/-- avx2.hh:701-707 -/
def avx.veor_u32 (a : BitVec 256) (b : BitVec 256) : BitVec 256 :=
  _mm256_xor_si256 a b
/-- avx2.hh:709-715 -/
def avx.veor_u64 (a : BitVec 256) (b : BitVec 256) : BitVec 256 :=
  _mm256_xor_si256 a b
/-- avx2.hh:717-723 -/
def avx.vbic_u8 (a : BitVec 256) (b : BitVec 256) : BitVec 256 :=
  _mm256_andnot_si256 b a
/-- avx2.hh:725-731 -/
def avx.vbic_u16 (a : BitVec 256) (b : BitVec 256) : BitVec 256 :=
  _mm256_andnot_si256 b a
/-- avx2.hh:733-739 -/
def avx.vbic_u32 (a : BitVec 256) (b : BitVec 256) : BitVec 256 :=
  _mm256_andnot_si256 b a
/-- avx2.hh:741-747 -/
def avx.vbic_u64 (a : BitVec 256) (b : BitVec 256) : BitVec 256 :=
  _mm256_andnot_si256 b a
/-- avx2.hh:749-755 -/
def avx.vbsl_u8 (a : BitVec 256) (b : BitVec 256) (c : BitVec 256) : BitVec 256 :=
  _mm256_or_si256 (_mm256_and_si256 a b) (_mm256_andnot_si256 a c)
/-- avx2.hh:757-763 -/
def avx.vbsl_u16 (a : BitVec 256) (b : BitVec 256) (c : BitVec 256) : BitVec 256 :=
  _mm256_or_si256 (_mm256_and_si256 a b) (_mm256_andnot_si256 a c)
/-- avx2.hh:765-771 -/
def avx.vbsl_u32 (a : BitVec 256) (b : BitVec 256) (c : BitVec 256) : BitVec 256 :=
  _mm256_or_si256 (_mm256_and_si256 a b) (_mm256_andnot_si256 a c)
/-- avx2.hh:773-779 -/
def avx.vbsl_u64 (a : BitVec 256) (b : BitVec 256) (c : BitVec 256) : BitVec 256 :=
  _mm256_or_si256 (_mm256_and_si256 a b) (_mm256_andnot_si256 a c)
/-- avx2.hh:781-787 -/
def avx.vceqz_f32 (a : BitVec 256) : BitVec 256 :=
  _mm256_cmp_ps a _mm256_setzero_ps Cmp.eq
/-- avx2.hh:789-795 -/
def avx.vceqz_f64 (a : BitVec 256) : BitVec 256 :=
  _mm256_cmp_pd a _mm256_setzero_pd Cmp.eq
/-- avx2.hh:797-803 -/
def avx.vceqz_i8 (a : BitVec 256) : BitVec 256 :=
  _mm256_cmpeq_epi8 a _mm256_setzero_si256
/-- avx2.hh:805-811 -/
def avx.vceqz_i16 (a : BitVec 256) : BitVec 256 :=
  _mm256_cmpeq_epi16 a _mm256_setzero_si256
/-- avx2.hh:813-819 -/
def avx.vceqz_i32 (a : BitVec 256) : BitVec 256 :=
  _mm256_cmpeq_epi32 a _mm256_setzero_si256
/-- avx2.hh:821-827 -/
def avx.vceqz_i64 (a : BitVec 256) : BitVec 256 :=
  _mm256_cmpeq_epi64 a _mm256_setzero_si256
/-- avx2.hh:829-835 -/
def avx.vceq_f32 (a : BitVec 256) (b : BitVec 256) : BitVec 256 :=
  _mm256_cmp_ps a b Cmp.eq
/-- avx2.hh:837-843 -/
def avx.vceq_f64 (a : BitVec 256) (b : BitVec 256) : BitVec 256 :=
  _mm256_cmp_pd a b Cmp.eq
/-- avx2.hh:845-851 -/
def avx.vceq_i8 (a : BitVec 256) (b : BitVec 256) : BitVec 256 :=
  _mm256_cmpeq_epi8 a b
/-- avx2.hh:853-859 -/
def avx.vceq_i16 (a : BitVec 256) (b : BitVec 256) : BitVec 256 :=
  _mm256_cmpeq_epi16 a b
/-- avx2.hh:861-867 -/
def avx.vceq_i32 (a : BitVec 256) (b : BitVec 256) : BitVec 256 :=
  _mm256_cmpeq_epi32 a b
/-- avx2.hh:869-875 -/
def avx.vceq_i64 (a : BitVec 256) (b : BitVec 256) : BitVec 256 :=
  _mm256_cmpeq_epi64 a b
/-- avx2.hh:877-883 -/
def avx.vcgtz_f32 (a : BitVec 256) : BitVec 256 :=
  _mm256_cmp_ps a _mm256_setzero_ps Cmp.gt
/-- avx2.hh:885-891 -/
def avx.vcgtz_f64 (a : BitVec 256) : BitVec 256 :=
  _mm256_cmp_pd a _mm256_setzero_pd Cmp.gt
/-- avx2.hh:893-899 -/
def avx.vcgtz_i8 (a : BitVec 256) : BitVec 256 :=
  _mm256_cmpgt_epi8 a _mm256_setzero_si256
/-- avx2.hh:901-907 -/
def avx.vcgtz_i16 (a : BitVec 256) : BitVec 256 :=
  _mm256_cmpgt_epi16 a _mm256_setzero_si256
/-- avx2.hh:909-915 -/
def avx.vcgtz_i32 (a : BitVec 256) : BitVec 256 :=
  _mm256_cmpgt_epi32 a _mm256_setzero_si256
/-- avx2.hh:917-923 -/
def avx.vcgtz_i64 (a : BitVec 256) : BitVec 256 :=
  _mm256_cmpgt_epi64 a _mm256_setzero_si256
/-- avx2.hh:925-931 -/
def avx.vcltz_f32 (a : BitVec 256) : BitVec 256 :=
  _mm256_cmp_ps a _mm256_setzero_ps Cmp.lt
/-- avx2.hh:933-939 -/
def avx.vcltz_f64 (a : BitVec 256) : BitVec 256 :=
  _mm256_cmp_pd a _mm256_setzero_pd Cmp.lt
/-- avx2.hh:941-947 -/
def avx.vcltz_i8 (a : BitVec 256) : BitVec 256 :=
  _mm256_cmpgt_epi8 _mm256_setzero_si256 a
/-- avx2.hh:949-955 -/
def avx.vcltz_i16 (a : BitVec 256) : BitVec 256 :=
  _mm256_cmpgt_epi16 _mm256_setzero_si256 a
/-- avx2.hh:957-963 -/
def avx.vcltz_i32 (a : BitVec 256) : BitVec 256 :=
  _mm256_cmpgt_epi32 _mm256_setzero_si256 a
/-- avx2.hh:965-971 -/
def avx.vcltz_i64 (a : BitVec 256) : BitVec 256 :=
  _mm256_cmpgt_epi64 _mm256_setzero_si256 a
/-- avx2.hh:973-979 -/
def avx.vclez_f32 (a : BitVec 256) : BitVec 256 :=
  _mm256_cmp_ps a _mm256_setzero_ps Cmp.le
/-- avx2.hh:981-987 -/
def avx.vclez_f64 (a : BitVec 256) : BitVec 256 :=
  _mm256_cmp_pd a _mm256_setzero_pd Cmp.le
/-- avx2.hh:989-997 -/
def avx.vclez_i8 (a : BitVec 256) : BitVec 256 :=
  _mm256_or_si256 (_mm256_cmpeq_epi8 a _mm256_setzero_si256) (_mm256_cmpgt_epi8 _mm256_setzero_si256 a)
/-- avx2.hh:999-1007 -/
def avx.vclez_i16 (a : BitVec 256) : BitVec 256 :=
  _mm256_or_si256 (_mm256_cmpeq_epi16 a _mm256_setzero_si256) (_mm256_cmpgt_epi16 _mm256_setzero_si256 a)
/-- avx2.hh:1009-1017 -/
def avx.vclez_i32 (a : BitVec 256) : BitVec 256 :=
  _mm256_or_si256 (_mm256_cmpeq_epi32 a _mm256_setzero_si256) (_mm256_cmpgt_epi32 _mm256_setzero_si256 a)
/-- avx2.hh:1019-1027 -/
def avx.vclez_i64 (a : BitVec 256) : BitVec 256 :=
  _mm256_or_si256 (_mm256_cmpeq_epi64 a _mm256_setzero_si256) (_mm256_cmpgt_epi64 _mm256_setzero_si256 a)
/-- avx2.hh:1029-1035 -/
def avx.vmin_f32 (a : BitVec 256) (b : BitVec 256) : BitVec 256 :=
  _mm256_min_ps a b
/-- avx2.hh:1037-1043 -/
def avx.vmin_f64 (a : BitVec 256) (b : BitVec 256) : BitVec 256 :=
  _mm256_min_pd a b
/-- avx2.hh:1045-1051 -/
def avx.vmin_i8 (a : BitVec 256) (b : BitVec 256) : BitVec 256 :=
  _mm256_min_epi8 a b
/-- avx2.hh:1053-1059 -/
def avx.vmin_i16 (a : BitVec 256) (b : BitVec 256) : BitVec 256 :=
  _mm256_min_epi16 a b
/-- avx2.hh:1061-1067 -/
def avx.vmin_i32 (a : BitVec 256) (b : BitVec 256) : BitVec 256 :=
  _mm256_min_epi32 a b
/-- avx2.hh:1069-1075 -/
def avx.vmax_f32 (a : BitVec 256) (b : BitVec 256) : BitVec 256 :=
  _mm256_max_ps a b
/-- avx2.hh:1077-1083 -/
def avx.vmax_f64 (a : BitVec 256) (b : BitVec 256) : BitVec 256 :=
  _mm256_max_pd a b
/-- avx2.hh:1085-1091 -/
def avx.vmax_i8 (a : BitVec 256) (b : BitVec 256) : BitVec 256 :=
  _mm256_max_epi8 a b
/-- avx2.hh:1093-1099 -/
def avx.vmax_i16 (a : BitVec 256) (b : BitVec 256) : BitVec 256 :=
  _mm256_max_epi16 a b
/-- avx2.hh:1101-1107 -/
def avx.vmax_i32 (a : BitVec 256) (b : BitVec 256) : BitVec 256 :=
  _mm256_max_epi32 a b
/-- avx2.hh:1109-1115 -/
def avx.vclamp_f32 (x : BitVec 256) (a : BitVec 32) (b : BitVec 32) : BitVec 256 :=
  _mm256_min_ps (_mm256_max_ps x (_mm256_set1_ps a)) (_mm256_set1_ps b)
/-- avx2.hh:1117-1123 -/
def avx.vclamp_f64 (x : BitVec 256) (a : BitVec 64) (b : BitVec 64) : BitVec 256 :=
  _mm256_min_pd (_mm256_max_pd x (_mm256_set1_pd a)) (_mm256_set1_pd b)
/-- avx2.hh:1125-1131 -/
def avx.vclamp_i8 (x : BitVec 256) (a : BitVec 8) (b : BitVec 8) : BitVec 256 :=
  _mm256_min_epi8 (_mm256_max_epi8 x (_mm256_set1_epi8 a)) (_mm256_set1_epi8 b)
/-- avx2.hh:1133-1139 -/
def avx.vclamp_i16 (x : BitVec 256) (a : BitVec 16) (b : BitVec 16) : BitVec 256 :=
  _mm256_min_epi16 (_mm256_max_epi16 x (_mm256_set1_epi16 a)) (_mm256_set1_epi16 b)
/-- avx2.hh:1141-1147 -/
def avx.vclamp_i32 (x : BitVec 256) (a : BitVec 32) (b : BitVec 32) : BitVec 256 :=
  _mm256_min_epi32 (_mm256_max_epi32 x (_mm256_set1_epi32 a)) (_mm256_set1_epi32 b)
/-- avx2.hh:1149-1155 -/
def avx.vclamp_i64 (x : BitVec 256) (a : BitVec 64) (b : BitVec 64) : BitVec 256 :=
  _mm256_min_epi64 (_mm256_max_epi64 x (_mm256_set1_epi64x a)) (_mm256_set1_epi64x b)
/-- avx2.hh:1157-1167 -/
def avx.vshuf_u8 (a : BitVec 256) (b : BitVec 256) : BitVec 256 :=
  let c := _mm256_sub_epi8 b (_mm256_set1_epi8 16); let d := _mm256_or_si256 b (_mm256_cmpgt_epi8 b (_mm256_set1_epi8 15)); let e := _mm256_shuffle_epi8 (_mm256_permute2x128_si256 a a 0) d; let f := _mm256_shuffle_epi8 (_mm256_permute2x128_si256 a a 17) c; _mm256_or_si256 e f
/-- avx2.hh:1169-1179 -/
def avx.vshuf_i8 (a : BitVec 256) (b : BitVec 256) : BitVec 256 :=
  let c := _mm256_sub_epi8 b (_mm256_set1_epi8 16); let d := _mm256_or_si256 b (_mm256_cmpgt_epi8 b (_mm256_set1_epi8 15)); let e := _mm256_shuffle_epi8 (_mm256_permute2x128_si256 a a 0) d; let f := _mm256_shuffle_epi8 (_mm256_permute2x128_si256 a a 17) c; _mm256_or_si256 e f
/-- avx2.hh:1181-1187 -/
def avx.vshuf_u32 (a : BitVec 256) (b : BitVec 256) : BitVec 256 :=
  _mm256_permutevar8x32_epi32 a b
/-- avx2.hh:1189-1195 -/
def avx.vshuf_f32 (a : BitVec 256) (b : BitVec 256) : BitVec 256 :=
  _mm256_permutevar8x32_ps a b

end Verif.SIMD
