/-! ### The conditions of the float and `vshuf` statements are needed, and are met by ordinary values -/

/-- An index from 16 to 127 selects a byte modulo 16 instead of returning 0 as the portable template does. -/
theorem C52_vshuf_index (a b : BitVec 128) (k : Nat) (hk : k < 16) (h : (lane 8 b k).toNat < 128) :
    lane 8 (sse.vshuf_i8 a b) k = lane 8 a ((lane 8 b k).toNat % 16) := by
  simp (disch := omega) only [sse.vshuf_i8, _mm_shuffle_epi8, LL.lane_pshufb]
  unfold LL.sh
  rw [if_neg (by rw [BitVec.msb_eq_decide]; simp; omega)]

/-- `vsignum` of a NaN is 1 or -1 instead of 0. -/
theorem C52_vsignum_nan (a : BitVec 128) (k : Nat) (hk : k < 4) (h : f32.nan (lane 32 a k)) :
    lane 32 (sse.vsignum_f32 a) k = (if (lane 32 a k).msb then 0xbf800000#32 else 0x3f800000#32) ∧ f32.vsignum (lane 32 a k) = 0 := by
  simp (disch := omega) only [sse.vsignum_f32, _mm_andnot_ps, _mm_or_ps, _mm_and_ps, _mm_set1_ps, _mm_cmpeq_ps, _mm_setzero_ps,
    lane_and, lane_or, lane_not, lane_map2, lane_ofLanes, lane_zero]
  constructor
  · rw [LL.negz_and (by decide), I.fcmpeq, if_neg (fun h' => h'.1 h)]
    split <;> decide
  · unfold Fmt.vsignum Fmt.fsgn
    rw [if_neg (fun h' => h'.2.1 h), if_neg (fun h' => h'.1 h)]; decide

/-- `vmin(NaN, b)` is `b`; the portable template returns the NaN. -/
theorem C52_vmin_nan (a b : BitVec 128) (k : Nat) (hk : k < 4) (h : f32.nan (lane 32 a k)) :
    lane 32 (sse.vmin_f32 a b) k = lane 32 b k ∧ f32.vmin (lane 32 a k) (lane 32 b k) = lane 32 a k := by
  simp (disch := omega) only [sse.vmin_f32, _mm_min_ps, lane_map2]
  exact ⟨by rw [I.fminX, if_neg (fun h' => h'.1 h)], by rw [Fmt.vmin, if_neg (fun h' => h'.2.1 h)]⟩

/-- `vmin(0, -0)` is `-0`; the portable template returns `0`. -/
theorem C52_vmin_zero : I.fminX f32 0 (negz 32) = negz 32 ∧ f32.vmin 0 (negz 32) = 0 := by decide

/-- A multiplication that satisfies `MulLaws` exists. -/
theorem mulLaws_example : f32.MulLaws fun x a => if x = f32.one then a else if x = f32.one ^^^ negz 32 then a ^^^ negz 32 else 0 where
  one a _ := if_pos rfl
  neg a _ := by rw [if_neg (by decide), if_pos rfl]
  zero a _ := by rw [if_neg (by decide), if_neg (by decide)]; decide

/-- `1.5`, `-2.0` and infinity are not NaNs, and the first two are finite. -/
example : ¬ f32.nan 0x3fc00000#32 ∧ f32.finite 0x3fc00000#32 ∧ ¬ f32.nan 0xc0000000#32 ∧ f32.finite 0xc0000000#32 ∧
    ¬ f32.nan 0x7f800000#32 ∧ ¬ f32.finite 0x7f800000#32 ∧ f32.nan 0x7fc00000#32 := by decide
/-- The lane functions on these values. -/
example : f32.vmin 0x3fc00000#32 0xc0000000#32 = 0xc0000000#32 ∧ f32.vsignum 0xc0000000#32 = 0xbf800000#32 ∧
    f32.vclamp 0x7f800000#32 0xc0000000#32 0x3fc00000#32 = 0x3fc00000#32 ∧ f32.vcgtz 0x3fc00000#32 = 0xffffffff#32 := by decide
/-- A register with sixteen different bytes, and the value of a saturating operation on its lanes. -/
example : lane 8 (0x0f0e0d0c0b0a09080706050403028180#128) 0 = 0x80#8 ∧ P.vqadd 0x80#8 0x80#8 = 0x80#8 ∧ P.vqabs 0x80#8 = 0x7f#8 ∧
    P.vqsubU 3#8 5#8 = 0 ∧ P.vsign 5#8 0x80#8 = 0xfb#8 := by decide

