/-- `vsignum` of a NaN is 1 or -1 instead of 0. -/
theorem C54_vsignum_nan (a : BitVec 128) (k : Nat) (hk : k < 4) (h : f32.nan (lane 32 a k)) :
    lane 32 (neon.vsignum_f32 a) k = (if (lane 32 a k).msb then 0xbf800000#32 else 0x3f800000#32) ∧ f32.vsignum (lane 32 a k) = 0 := by
  simp (disch := omega) only [neon.vsignum_f32, vbicq_u32, veorq_u32, vdupq_n_f32, vandq_u32, vceqq_f32,
    lane_and, lane_xor, lane_not, lane_map2, lane_ofLanes]
  constructor
  · have e : I.fcmpeq f32 (lane 32 a k) (0#32) = 0 := if_neg fun h' => h'.1 h
    rw [e, LL.negz_and (by decide)]
    split <;> decide
  · unfold Fmt.vsignum Fmt.fsgn
    rw [if_neg (fun h' => h'.2.1 h), if_neg (fun h' => h'.1 h)]; decide

