import Verif.SIMD.Lane
/- The intrinsics the back ends use, as functions on registers.  Trusted (generated by tools/gen_simd.py from a table of the
instructions' documented lane operations). -/
namespace Verif.SIMD

/-- The comparison predicates `_CMP_EQ_OQ`, `_CMP_GT_OQ`, `_CMP_LT_OQ`, `_CMP_LE_OQ`. -/
inductive Cmp where
  | eq | gt | lt | le

/-- One lane of VCMPPS/VCMPPD. -/
def Cmp.op {w : Nat} (c : Cmp) (F : Fmt w) : BitVec w → BitVec w → BitVec w :=
  match c with
  | .eq => I.fcmpeq F
  | .gt => I.fcmpgt F
  | .lt => I.fcmplt F
  | .le => I.fcmple F

/-- The choice of VPERM2I128. -/
def sel128 (a b : BitVec 256) (c : Nat) : BitVec 128 :=
  if c / 8 % 2 = 1 then 0 else if c % 4 = 0 then lane 128 a 0 else if c % 4 = 1 then lane 128 a 1 else if c % 4 = 2 then lane 128 b 0 else
  lane 128 b 1

/-- PABS -/
def _mm256_abs_epi16 (a : BitVec 256) : BitVec 256 := map1 16 I.abs a
/-- PABS -/
def _mm256_abs_epi32 (a : BitVec 256) : BitVec 256 := map1 32 I.abs a
/-- PABS -/
def _mm256_abs_epi8 (a : BitVec 256) : BitVec 256 := map1 8 I.abs a
/-- PADD -/
def _mm256_add_epi16 (a b : BitVec 256) : BitVec 256 := map2 16 (fun x y => x + y) a b
/-- PADD -/
def _mm256_add_epi32 (a b : BitVec 256) : BitVec 256 := map2 32 (fun x y => x + y) a b
/-- PADD -/
def _mm256_add_epi64 (a b : BitVec 256) : BitVec 256 := map2 64 (fun x y => x + y) a b
/-- PADD -/
def _mm256_add_epi8 (a b : BitVec 256) : BitVec 256 := map2 8 (fun x y => x + y) a b
/-- ADDPD -/
def _mm256_add_pd (A : Fpu 64) (a b : BitVec 256) : BitVec 256 := map2 64 A.add a b
/-- ADDPS -/
def _mm256_add_ps (A : Fpu 32) (a b : BitVec 256) : BitVec 256 := map2 32 A.add a b
/-- PADDS -/
def _mm256_adds_epi16 (a b : BitVec 256) : BitVec 256 := map2 16 I.adds a b
/-- PADDS -/
def _mm256_adds_epi8 (a b : BitVec 256) : BitVec 256 := map2 8 I.adds a b
/-- PAND, ANDPS, ANDPD -/
def _mm256_and_pd (a b : BitVec 256) : BitVec 256 := a &&& b
/-- PAND, ANDPS, ANDPD -/
def _mm256_and_ps (a b : BitVec 256) : BitVec 256 := a &&& b
/-- PAND, ANDPS, ANDPD -/
def _mm256_and_si256 (a b : BitVec 256) : BitVec 256 := a &&& b
/-- PANDN, ANDNPS, ANDNPD -/
def _mm256_andnot_pd (a b : BitVec 256) : BitVec 256 := ~~~ a &&& b
/-- PANDN, ANDNPS, ANDNPD -/
def _mm256_andnot_ps (a b : BitVec 256) : BitVec 256 := ~~~ a &&& b
/-- PANDN, ANDNPS, ANDNPD -/
def _mm256_andnot_si256 (a b : BitVec 256) : BitVec 256 := ~~~ a &&& b
/-- VCMPPD -/
def _mm256_cmp_pd (a b : BitVec 256) (c : Cmp) : BitVec 256 := map2 64 (c.op f64) a b
/-- VCMPPS -/
def _mm256_cmp_ps (a b : BitVec 256) (c : Cmp) : BitVec 256 := map2 32 (c.op f32) a b
/-- PCMPEQ -/
def _mm256_cmpeq_epi16 (a b : BitVec 256) : BitVec 256 := map2 16 I.cmpeq a b
/-- PCMPEQ -/
def _mm256_cmpeq_epi32 (a b : BitVec 256) : BitVec 256 := map2 32 I.cmpeq a b
/-- PCMPEQ -/
def _mm256_cmpeq_epi64 (a b : BitVec 256) : BitVec 256 := map2 64 I.cmpeq a b
/-- PCMPEQ -/
def _mm256_cmpeq_epi8 (a b : BitVec 256) : BitVec 256 := map2 8 I.cmpeq a b
/-- PCMPGT -/
def _mm256_cmpgt_epi16 (a b : BitVec 256) : BitVec 256 := map2 16 I.cmpgt a b
/-- PCMPGT -/
def _mm256_cmpgt_epi32 (a b : BitVec 256) : BitVec 256 := map2 32 I.cmpgt a b
/-- PCMPGT -/
def _mm256_cmpgt_epi64 (a b : BitVec 256) : BitVec 256 := map2 64 I.cmpgt a b
/-- PCMPGT -/
def _mm256_cmpgt_epi8 (a b : BitVec 256) : BitVec 256 := map2 8 I.cmpgt a b
/-- PMAXS -/
def _mm256_max_epi16 (a b : BitVec 256) : BitVec 256 := map2 16 I.smax a b
/-- PMAXS -/
def _mm256_max_epi32 (a b : BitVec 256) : BitVec 256 := map2 32 I.smax a b
/-- PMAXS; this one needs AVX-512 -/
def _mm256_max_epi64 (a b : BitVec 256) : BitVec 256 := map2 64 I.smax a b
/-- PMAXS -/
def _mm256_max_epi8 (a b : BitVec 256) : BitVec 256 := map2 8 I.smax a b
/-- MAXPD -/
def _mm256_max_pd (a b : BitVec 256) : BitVec 256 := map2 64 (I.fmaxX f64) a b
/-- MAXPS -/
def _mm256_max_ps (a b : BitVec 256) : BitVec 256 := map2 32 (I.fmaxX f32) a b
/-- PMINS -/
def _mm256_min_epi16 (a b : BitVec 256) : BitVec 256 := map2 16 I.smin a b
/-- PMINS -/
def _mm256_min_epi32 (a b : BitVec 256) : BitVec 256 := map2 32 I.smin a b
/-- PMINS; this one needs AVX-512 -/
def _mm256_min_epi64 (a b : BitVec 256) : BitVec 256 := map2 64 I.smin a b
/-- PMINS -/
def _mm256_min_epi8 (a b : BitVec 256) : BitVec 256 := map2 8 I.smin a b
/-- MINPD -/
def _mm256_min_pd (a b : BitVec 256) : BitVec 256 := map2 64 (I.fminX f64) a b
/-- MINPS -/
def _mm256_min_ps (a b : BitVec 256) : BitVec 256 := map2 32 (I.fminX f32) a b
/-- MULPD -/
def _mm256_mul_pd (A : Fpu 64) (a b : BitVec 256) : BitVec 256 := map2 64 A.mul a b
/-- MULPS -/
def _mm256_mul_ps (A : Fpu 32) (a b : BitVec 256) : BitVec 256 := map2 32 A.mul a b
/-- POR, ORPS, ORPD -/
def _mm256_or_pd (a b : BitVec 256) : BitVec 256 := a ||| b
/-- POR, ORPS, ORPD -/
def _mm256_or_ps (a b : BitVec 256) : BitVec 256 := a ||| b
/-- POR, ORPS, ORPD -/
def _mm256_or_si256 (a b : BitVec 256) : BitVec 256 := a ||| b
/-- VPERM2I128 -/
def _mm256_permute2x128_si256 (a b : BitVec 256) (c : Nat) : BitVec 256 := ofLanes 256 128 fun i => sel128 a b (c / 16 ^ i % 16)
/-- VPERMD, VPERMPS -/
def _mm256_permutevar8x32_epi32 (a b : BitVec 256) : BitVec 256 := ofLanes 256 32 fun i => lane 32 a ((lane 32 b i).toNat % 8)
/-- VPERMD, VPERMPS -/
def _mm256_permutevar8x32_ps (a b : BitVec 256) : BitVec 256 := ofLanes 256 32 fun i => lane 32 a ((lane 32 b i).toNat % 8)
/-- broadcast -/
def _mm256_set1_epi16 (a : BitVec 16) : BitVec 256 := ofLanes 256 16 fun _ => a
/-- broadcast -/
def _mm256_set1_epi32 (a : BitVec 32) : BitVec 256 := ofLanes 256 32 fun _ => a
/-- broadcast -/
def _mm256_set1_epi64x (a : BitVec 64) : BitVec 256 := ofLanes 256 64 fun _ => a
/-- broadcast -/
def _mm256_set1_epi8 (a : BitVec 8) : BitVec 256 := ofLanes 256 8 fun _ => a
/-- broadcast -/
def _mm256_set1_pd (a : BitVec 64) : BitVec 256 := ofLanes 256 64 fun _ => a
/-- broadcast -/
def _mm256_set1_ps (a : BitVec 32) : BitVec 256 := ofLanes 256 32 fun _ => a
/-- zero -/
def _mm256_setzero_pd : BitVec 256 := 0
/-- zero -/
def _mm256_setzero_ps : BitVec 256 := 0
/-- zero -/
def _mm256_setzero_si256 : BitVec 256 := 0
/-- PSHUFB -/
def _mm256_shuffle_epi8 (a b : BitVec 256) : BitVec 256 := pshufb 256 a b
/-- PSIGN -/
def _mm256_sign_epi16 (a b : BitVec 256) : BitVec 256 := map2 16 I.sign a b
/-- PSIGN -/
def _mm256_sign_epi32 (a b : BitVec 256) : BitVec 256 := map2 32 I.sign a b
/-- PSIGN -/
def _mm256_sign_epi8 (a b : BitVec 256) : BitVec 256 := map2 8 I.sign a b
/-- PSUB -/
def _mm256_sub_epi16 (a b : BitVec 256) : BitVec 256 := map2 16 (fun x y => x - y) a b
/-- PSUB -/
def _mm256_sub_epi32 (a b : BitVec 256) : BitVec 256 := map2 32 (fun x y => x - y) a b
/-- PSUB -/
def _mm256_sub_epi64 (a b : BitVec 256) : BitVec 256 := map2 64 (fun x y => x - y) a b
/-- PSUB -/
def _mm256_sub_epi8 (a b : BitVec 256) : BitVec 256 := map2 8 (fun x y => x - y) a b
/-- SUBPD -/
def _mm256_sub_pd (A : Fpu 64) (a b : BitVec 256) : BitVec 256 := map2 64 A.sub a b
/-- SUBPS -/
def _mm256_sub_ps (A : Fpu 32) (a b : BitVec 256) : BitVec 256 := map2 32 A.sub a b
/-- PSUBS -/
def _mm256_subs_epi16 (a b : BitVec 256) : BitVec 256 := map2 16 I.subs a b
/-- PSUBS -/
def _mm256_subs_epi8 (a b : BitVec 256) : BitVec 256 := map2 8 I.subs a b
/-- PSUBUS -/
def _mm256_subs_epu16 (a b : BitVec 256) : BitVec 256 := map2 16 I.subus a b
/-- PSUBUS -/
def _mm256_subs_epu8 (a b : BitVec 256) : BitVec 256 := map2 8 I.subus a b
/-- PXOR, XORPS, XORPD -/
def _mm256_xor_pd (a b : BitVec 256) : BitVec 256 := a ^^^ b
/-- PXOR, XORPS, XORPD -/
def _mm256_xor_ps (a b : BitVec 256) : BitVec 256 := a ^^^ b
/-- PXOR, XORPS, XORPD -/
def _mm256_xor_si256 (a b : BitVec 256) : BitVec 256 := a ^^^ b
/-- PABS -/
def _mm_abs_epi16 (a : BitVec 128) : BitVec 128 := map1 16 I.abs a
/-- PABS -/
def _mm_abs_epi32 (a : BitVec 128) : BitVec 128 := map1 32 I.abs a
/-- PABS -/
def _mm_abs_epi8 (a : BitVec 128) : BitVec 128 := map1 8 I.abs a
/-- PADD -/
def _mm_add_epi16 (a b : BitVec 128) : BitVec 128 := map2 16 (fun x y => x + y) a b
/-- PADD -/
def _mm_add_epi32 (a b : BitVec 128) : BitVec 128 := map2 32 (fun x y => x + y) a b
/-- PADD -/
def _mm_add_epi64 (a b : BitVec 128) : BitVec 128 := map2 64 (fun x y => x + y) a b
/-- PADD -/
def _mm_add_epi8 (a b : BitVec 128) : BitVec 128 := map2 8 (fun x y => x + y) a b
/-- ADDPD -/
def _mm_add_pd (A : Fpu 64) (a b : BitVec 128) : BitVec 128 := map2 64 A.add a b
/-- ADDPS -/
def _mm_add_ps (A : Fpu 32) (a b : BitVec 128) : BitVec 128 := map2 32 A.add a b
/-- PADDS -/
def _mm_adds_epi16 (a b : BitVec 128) : BitVec 128 := map2 16 I.adds a b
/-- PADDS -/
def _mm_adds_epi8 (a b : BitVec 128) : BitVec 128 := map2 8 I.adds a b
/-- PAND, ANDPS, ANDPD -/
def _mm_and_pd (a b : BitVec 128) : BitVec 128 := a &&& b
/-- PAND, ANDPS, ANDPD -/
def _mm_and_ps (a b : BitVec 128) : BitVec 128 := a &&& b
/-- PAND, ANDPS, ANDPD -/
def _mm_and_si128 (a b : BitVec 128) : BitVec 128 := a &&& b
/-- PANDN, ANDNPS, ANDNPD -/
def _mm_andnot_pd (a b : BitVec 128) : BitVec 128 := ~~~ a &&& b
/-- PANDN, ANDNPS, ANDNPD -/
def _mm_andnot_ps (a b : BitVec 128) : BitVec 128 := ~~~ a &&& b
/-- PANDN, ANDNPS, ANDNPD -/
def _mm_andnot_si128 (a b : BitVec 128) : BitVec 128 := ~~~ a &&& b
/-- PCMPEQ -/
def _mm_cmpeq_epi16 (a b : BitVec 128) : BitVec 128 := map2 16 I.cmpeq a b
/-- PCMPEQ -/
def _mm_cmpeq_epi32 (a b : BitVec 128) : BitVec 128 := map2 32 I.cmpeq a b
/-- PCMPEQ -/
def _mm_cmpeq_epi64 (a b : BitVec 128) : BitVec 128 := map2 64 I.cmpeq a b
/-- PCMPEQ -/
def _mm_cmpeq_epi8 (a b : BitVec 128) : BitVec 128 := map2 8 I.cmpeq a b
/-- CMPPD -/
def _mm_cmpeq_pd (a b : BitVec 128) : BitVec 128 := map2 64 (I.fcmpeq f64) a b
/-- CMPPS -/
def _mm_cmpeq_ps (a b : BitVec 128) : BitVec 128 := map2 32 (I.fcmpeq f32) a b
/-- PCMPGT -/
def _mm_cmpgt_epi16 (a b : BitVec 128) : BitVec 128 := map2 16 I.cmpgt a b
/-- PCMPGT -/
def _mm_cmpgt_epi32 (a b : BitVec 128) : BitVec 128 := map2 32 I.cmpgt a b
/-- PCMPGT -/
def _mm_cmpgt_epi64 (a b : BitVec 128) : BitVec 128 := map2 64 I.cmpgt a b
/-- PCMPGT -/
def _mm_cmpgt_epi8 (a b : BitVec 128) : BitVec 128 := map2 8 I.cmpgt a b
/-- CMPPD -/
def _mm_cmpgt_pd (a b : BitVec 128) : BitVec 128 := map2 64 (I.fcmpgt f64) a b
/-- CMPPS -/
def _mm_cmpgt_ps (a b : BitVec 128) : BitVec 128 := map2 32 (I.fcmpgt f32) a b
/-- CMPPD -/
def _mm_cmple_pd (a b : BitVec 128) : BitVec 128 := map2 64 (I.fcmple f64) a b
/-- CMPPS -/
def _mm_cmple_ps (a b : BitVec 128) : BitVec 128 := map2 32 (I.fcmple f32) a b
/-- CMPPD -/
def _mm_cmplt_pd (a b : BitVec 128) : BitVec 128 := map2 64 (I.fcmplt f64) a b
/-- CMPPS -/
def _mm_cmplt_ps (a b : BitVec 128) : BitVec 128 := map2 32 (I.fcmplt f32) a b
/-- PMAXS -/
def _mm_max_epi16 (a b : BitVec 128) : BitVec 128 := map2 16 I.smax a b
/-- PMAXS -/
def _mm_max_epi32 (a b : BitVec 128) : BitVec 128 := map2 32 I.smax a b
/-- PMAXS -/
def _mm_max_epi8 (a b : BitVec 128) : BitVec 128 := map2 8 I.smax a b
/-- MAXPD -/
def _mm_max_pd (a b : BitVec 128) : BitVec 128 := map2 64 (I.fmaxX f64) a b
/-- MAXPS -/
def _mm_max_ps (a b : BitVec 128) : BitVec 128 := map2 32 (I.fmaxX f32) a b
/-- PMINS -/
def _mm_min_epi16 (a b : BitVec 128) : BitVec 128 := map2 16 I.smin a b
/-- PMINS -/
def _mm_min_epi32 (a b : BitVec 128) : BitVec 128 := map2 32 I.smin a b
/-- PMINS -/
def _mm_min_epi8 (a b : BitVec 128) : BitVec 128 := map2 8 I.smin a b
/-- MINPD -/
def _mm_min_pd (a b : BitVec 128) : BitVec 128 := map2 64 (I.fminX f64) a b
/-- MINPS -/
def _mm_min_ps (a b : BitVec 128) : BitVec 128 := map2 32 (I.fminX f32) a b
/-- MULPD -/
def _mm_mul_pd (A : Fpu 64) (a b : BitVec 128) : BitVec 128 := map2 64 A.mul a b
/-- MULPS -/
def _mm_mul_ps (A : Fpu 32) (a b : BitVec 128) : BitVec 128 := map2 32 A.mul a b
/-- POR, ORPS, ORPD -/
def _mm_or_pd (a b : BitVec 128) : BitVec 128 := a ||| b
/-- POR, ORPS, ORPD -/
def _mm_or_ps (a b : BitVec 128) : BitVec 128 := a ||| b
/-- POR, ORPS, ORPD -/
def _mm_or_si128 (a b : BitVec 128) : BitVec 128 := a ||| b
/-- broadcast -/
def _mm_set1_epi16 (a : BitVec 16) : BitVec 128 := ofLanes 128 16 fun _ => a
/-- broadcast -/
def _mm_set1_epi32 (a : BitVec 32) : BitVec 128 := ofLanes 128 32 fun _ => a
/-- broadcast -/
def _mm_set1_epi64x (a : BitVec 64) : BitVec 128 := ofLanes 128 64 fun _ => a
/-- broadcast -/
def _mm_set1_epi8 (a : BitVec 8) : BitVec 128 := ofLanes 128 8 fun _ => a
/-- broadcast -/
def _mm_set1_pd (a : BitVec 64) : BitVec 128 := ofLanes 128 64 fun _ => a
/-- broadcast -/
def _mm_set1_ps (a : BitVec 32) : BitVec 128 := ofLanes 128 32 fun _ => a
/-- zero -/
def _mm_setzero_pd : BitVec 128 := 0
/-- zero -/
def _mm_setzero_ps : BitVec 128 := 0
/-- zero -/
def _mm_setzero_si128 : BitVec 128 := 0
/-- PSHUFB -/
def _mm_shuffle_epi8 (a b : BitVec 128) : BitVec 128 := pshufb 128 a b
/-- PSIGN -/
def _mm_sign_epi16 (a b : BitVec 128) : BitVec 128 := map2 16 I.sign a b
/-- PSIGN -/
def _mm_sign_epi32 (a b : BitVec 128) : BitVec 128 := map2 32 I.sign a b
/-- PSIGN -/
def _mm_sign_epi8 (a b : BitVec 128) : BitVec 128 := map2 8 I.sign a b
/-- PSUB -/
def _mm_sub_epi16 (a b : BitVec 128) : BitVec 128 := map2 16 (fun x y => x - y) a b
/-- PSUB -/
def _mm_sub_epi32 (a b : BitVec 128) : BitVec 128 := map2 32 (fun x y => x - y) a b
/-- PSUB -/
def _mm_sub_epi64 (a b : BitVec 128) : BitVec 128 := map2 64 (fun x y => x - y) a b
/-- PSUB -/
def _mm_sub_epi8 (a b : BitVec 128) : BitVec 128 := map2 8 (fun x y => x - y) a b
/-- SUBPD -/
def _mm_sub_pd (A : Fpu 64) (a b : BitVec 128) : BitVec 128 := map2 64 A.sub a b
/-- SUBPS -/
def _mm_sub_ps (A : Fpu 32) (a b : BitVec 128) : BitVec 128 := map2 32 A.sub a b
/-- PSUBS -/
def _mm_subs_epi16 (a b : BitVec 128) : BitVec 128 := map2 16 I.subs a b
/-- PSUBS -/
def _mm_subs_epi8 (a b : BitVec 128) : BitVec 128 := map2 8 I.subs a b
/-- PSUBUS -/
def _mm_subs_epu16 (a b : BitVec 128) : BitVec 128 := map2 16 I.subus a b
/-- PSUBUS -/
def _mm_subs_epu8 (a b : BitVec 128) : BitVec 128 := map2 8 I.subus a b
/-- PXOR, XORPS, XORPD -/
def _mm_xor_pd (a b : BitVec 128) : BitVec 128 := a ^^^ b
/-- PXOR, XORPS, XORPD -/
def _mm_xor_ps (a b : BitVec 128) : BitVec 128 := a ^^^ b
/-- PXOR, XORPS, XORPD -/
def _mm_xor_si128 (a b : BitVec 128) : BitVec 128 := a ^^^ b
/-- FABS -/
def vabsq_f32 (a : BitVec 128) : BitVec 128 := map1 32 (fun x => x &&& ~~~ negz 32) a
/-- FADD -/
def vaddq_f32 (A : Fpu 32) (a b : BitVec 128) : BitVec 128 := map2 32 A.add a b
/-- ADD -/
def vaddq_s16 (a b : BitVec 128) : BitVec 128 := map2 16 (fun x y => x + y) a b
/-- ADD -/
def vaddq_s32 (a b : BitVec 128) : BitVec 128 := map2 32 (fun x y => x + y) a b
/-- ADD -/
def vaddq_s64 (a b : BitVec 128) : BitVec 128 := map2 64 (fun x y => x + y) a b
/-- ADD -/
def vaddq_s8 (a b : BitVec 128) : BitVec 128 := map2 8 (fun x y => x + y) a b
/-- AND -/
def vandq_u16 (a b : BitVec 128) : BitVec 128 := a &&& b
/-- AND -/
def vandq_u32 (a b : BitVec 128) : BitVec 128 := a &&& b
/-- AND -/
def vandq_u64 (a b : BitVec 128) : BitVec 128 := a &&& b
/-- AND -/
def vandq_u8 (a b : BitVec 128) : BitVec 128 := a &&& b
/-- BIC -/
def vbicq_u16 (a b : BitVec 128) : BitVec 128 := a &&& ~~~ b
/-- BIC -/
def vbicq_u32 (a b : BitVec 128) : BitVec 128 := a &&& ~~~ b
/-- BIC -/
def vbicq_u64 (a b : BitVec 128) : BitVec 128 := a &&& ~~~ b
/-- BIC -/
def vbicq_u8 (a b : BitVec 128) : BitVec 128 := a &&& ~~~ b
/-- BSL -/
def vbslq_u16 (a b c : BitVec 128) : BitVec 128 := (a &&& b) ||| (~~~ a &&& c)
/-- BSL -/
def vbslq_u32 (a b c : BitVec 128) : BitVec 128 := (a &&& b) ||| (~~~ a &&& c)
/-- BSL -/
def vbslq_u64 (a b c : BitVec 128) : BitVec 128 := (a &&& b) ||| (~~~ a &&& c)
/-- BSL -/
def vbslq_u8 (a b c : BitVec 128) : BitVec 128 := (a &&& b) ||| (~~~ a &&& c)
/-- FCMEQ -/
def vceqq_f32 (a b : BitVec 128) : BitVec 128 := map2 32 (I.fcmpeq f32) a b
/-- CMEQ -/
def vceqq_s16 (a b : BitVec 128) : BitVec 128 := map2 16 I.cmpeq a b
/-- CMEQ -/
def vceqq_s32 (a b : BitVec 128) : BitVec 128 := map2 32 I.cmpeq a b
/-- CMEQ -/
def vceqq_s8 (a b : BitVec 128) : BitVec 128 := map2 8 I.cmpeq a b
/-- FCMGT -/
def vcgtq_f32 (a b : BitVec 128) : BitVec 128 := map2 32 (I.fcmpgt f32) a b
/-- CMGT -/
def vcgtq_s16 (a b : BitVec 128) : BitVec 128 := map2 16 I.cmpgt a b
/-- CMGT -/
def vcgtq_s32 (a b : BitVec 128) : BitVec 128 := map2 32 I.cmpgt a b
/-- CMGT -/
def vcgtq_s8 (a b : BitVec 128) : BitVec 128 := map2 8 I.cmpgt a b
/-- FCMLE -/
def vcleq_f32 (a b : BitVec 128) : BitVec 128 := map2 32 (I.fcmple f32) a b
/-- CMLE -/
def vcleq_s16 (a b : BitVec 128) : BitVec 128 := map2 16 I.cmple a b
/-- CMLE -/
def vcleq_s32 (a b : BitVec 128) : BitVec 128 := map2 32 I.cmple a b
/-- CMLE -/
def vcleq_s8 (a b : BitVec 128) : BitVec 128 := map2 8 I.cmple a b
/-- FCMLT -/
def vcltq_f32 (a b : BitVec 128) : BitVec 128 := map2 32 (I.fcmplt f32) a b
/-- CMLT -/
def vcltq_s16 (a b : BitVec 128) : BitVec 128 := map2 16 I.cmplt a b
/-- CMLT -/
def vcltq_s32 (a b : BitVec 128) : BitVec 128 := map2 32 I.cmplt a b
/-- CMLT -/
def vcltq_s8 (a b : BitVec 128) : BitVec 128 := map2 8 I.cmplt a b
/-- combine halves -/
def vcombine_s8 (a b : BitVec 64) : BitVec 128 := ofLanes 128 64 fun i => if i = 0 then a else b
/-- combine halves -/
def vcombine_u8 (a b : BitVec 64) : BitVec 128 := ofLanes 128 64 fun i => if i = 0 then a else b
/-- DUP -/
def vdupq_n_f32 (a : BitVec 32) : BitVec 128 := ofLanes 128 32 fun _ => a
/-- DUP -/
def vdupq_n_s16 (a : BitVec 16) : BitVec 128 := ofLanes 128 16 fun _ => a
/-- DUP -/
def vdupq_n_s32 (a : BitVec 32) : BitVec 128 := ofLanes 128 32 fun _ => a
/-- DUP -/
def vdupq_n_s64 (a : BitVec 64) : BitVec 128 := ofLanes 128 64 fun _ => a
/-- DUP -/
def vdupq_n_s8 (a : BitVec 8) : BitVec 128 := ofLanes 128 8 fun _ => a
/-- DUP -/
def vdupq_n_u16 (a : BitVec 16) : BitVec 128 := ofLanes 128 16 fun _ => a
/-- DUP -/
def vdupq_n_u32 (a : BitVec 32) : BitVec 128 := ofLanes 128 32 fun _ => a
/-- DUP -/
def vdupq_n_u64 (a : BitVec 64) : BitVec 128 := ofLanes 128 64 fun _ => a
/-- DUP -/
def vdupq_n_u8 (a : BitVec 8) : BitVec 128 := ofLanes 128 8 fun _ => a
/-- EOR -/
def veorq_s16 (a b : BitVec 128) : BitVec 128 := a ^^^ b
/-- EOR -/
def veorq_s32 (a b : BitVec 128) : BitVec 128 := a ^^^ b
/-- EOR -/
def veorq_s64 (a b : BitVec 128) : BitVec 128 := a ^^^ b
/-- EOR -/
def veorq_s8 (a b : BitVec 128) : BitVec 128 := a ^^^ b
/-- EOR -/
def veorq_u16 (a b : BitVec 128) : BitVec 128 := a ^^^ b
/-- EOR -/
def veorq_u32 (a b : BitVec 128) : BitVec 128 := a ^^^ b
/-- EOR -/
def veorq_u64 (a b : BitVec 128) : BitVec 128 := a ^^^ b
/-- EOR -/
def veorq_u8 (a b : BitVec 128) : BitVec 128 := a ^^^ b
/-- upper half -/
def vget_high_s8 (a : BitVec 128) : BitVec 64 := lane 64 a 1
/-- upper half -/
def vget_high_u8 (a : BitVec 128) : BitVec 64 := lane 64 a 1
/-- lower half -/
def vget_low_s8 (a : BitVec 128) : BitVec 64 := lane 64 a 0
/-- lower half -/
def vget_low_u8 (a : BitVec 128) : BitVec 64 := lane 64 a 0
/-- FMAX -/
def vmaxq_f32 (a b : BitVec 128) : BitVec 128 := map2 32 (I.fmaxN f32) a b
/-- SMAX -/
def vmaxq_s16 (a b : BitVec 128) : BitVec 128 := map2 16 I.smax a b
/-- SMAX -/
def vmaxq_s32 (a b : BitVec 128) : BitVec 128 := map2 32 I.smax a b
/-- SMAX -/
def vmaxq_s8 (a b : BitVec 128) : BitVec 128 := map2 8 I.smax a b
/-- FMIN -/
def vminq_f32 (a b : BitVec 128) : BitVec 128 := map2 32 (I.fminN f32) a b
/-- SMIN -/
def vminq_s16 (a b : BitVec 128) : BitVec 128 := map2 16 I.smin a b
/-- SMIN -/
def vminq_s32 (a b : BitVec 128) : BitVec 128 := map2 32 I.smin a b
/-- SMIN -/
def vminq_s8 (a b : BitVec 128) : BitVec 128 := map2 8 I.smin a b
/-- FMUL -/
def vmulq_f32 (A : Fpu 32) (a b : BitVec 128) : BitVec 128 := map2 32 A.mul a b
/-- MUL -/
def vmulq_s8 (a b : BitVec 128) : BitVec 128 := map2 8 (fun x y => x * y) a b
/-- NEG -/
def vnegq_s8 (a : BitVec 128) : BitVec 128 := map1 8 (fun x => -x) a
/-- ORR -/
def vorrq_s8 (a b : BitVec 128) : BitVec 128 := a ||| b
/-- ORR -/
def vorrq_u16 (a b : BitVec 128) : BitVec 128 := a ||| b
/-- ORR -/
def vorrq_u32 (a b : BitVec 128) : BitVec 128 := a ||| b
/-- ORR -/
def vorrq_u64 (a b : BitVec 128) : BitVec 128 := a ||| b
/-- ORR -/
def vorrq_u8 (a b : BitVec 128) : BitVec 128 := a ||| b
/-- SQABS -/
def vqabsq_s16 (a : BitVec 128) : BitVec 128 := map1 16 I.qabs a
/-- SQABS -/
def vqabsq_s8 (a : BitVec 128) : BitVec 128 := map1 8 I.qabs a
/-- SQADD -/
def vqaddq_s16 (a b : BitVec 128) : BitVec 128 := map2 16 I.adds a b
/-- SQADD -/
def vqaddq_s8 (a b : BitVec 128) : BitVec 128 := map2 8 I.adds a b
/-- SQSUB -/
def vqsubq_s16 (a b : BitVec 128) : BitVec 128 := map2 16 I.subs a b
/-- SQSUB -/
def vqsubq_s8 (a b : BitVec 128) : BitVec 128 := map2 8 I.subs a b
/-- UQSUB -/
def vqsubq_u16 (a b : BitVec 128) : BitVec 128 := map2 16 I.subus a b
/-- UQSUB -/
def vqsubq_u8 (a b : BitVec 128) : BitVec 128 := map2 8 I.subus a b
/-- TBL -/
def vqtbl1q_s8 (a b : BitVec 128) : BitVec 128 := tbl1 a b
/-- TBL -/
def vqtbl1q_u8 (a b : BitVec 128) : BitVec 128 := tbl1 a b
/-- FSUB -/
def vsubq_f32 (A : Fpu 32) (a b : BitVec 128) : BitVec 128 := map2 32 A.sub a b
/-- SUB -/
def vsubq_s16 (a b : BitVec 128) : BitVec 128 := map2 16 (fun x y => x - y) a b
/-- SUB -/
def vsubq_s32 (a b : BitVec 128) : BitVec 128 := map2 32 (fun x y => x - y) a b
/-- SUB -/
def vsubq_s64 (a b : BitVec 128) : BitVec 128 := map2 64 (fun x y => x - y) a b
/-- SUB -/
def vsubq_s8 (a b : BitVec 128) : BitVec 128 := map2 8 (fun x y => x - y) a b
/-- SUB -/
def vsubq_u8 (a b : BitVec 128) : BitVec 128 := map2 8 (fun x y => x - y) a b
/-- VTBL -/
def vtbl2_s8 (c : BitVec 64 × BitVec 64) (b : BitVec 64) : BitVec 64 := tbl2 c b
/-- VTBL -/
def vtbl2_u8 (c : BitVec 64 × BitVec 64) (b : BitVec 64) : BitVec 64 := tbl2 c b

end Verif.SIMD
