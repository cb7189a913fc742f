/-! ### The conditions of the `vshuf` statements are needed -/

/-- A 32 bit index is taken modulo 8; the portable template returns 0 from index 8 on. -/
theorem C53_vshuf_index (a b : BitVec 256) (k : Nat) (hk : k < 8) : lane 32 (avx.vshuf_f32 a b) k = lane 32 a ((lane 32 b k).toNat % 8) := by
  simp (disch := omega) only [avx.vshuf_f32, _mm256_permutevar8x32_ps, lane_ofLanes]

/-- An index byte from 128 to 143 selects one of the upper 16 bytes instead of returning 0. -/
theorem C53_vshuf_index_8 (a b : BitVec 256) (k : Nat) (hk : k < 32) (h1 : 128 ≤ (lane 8 b k).toNat) (h2 : (lane 8 b k).toNat < 144) :
    lane 8 (avx.vshuf_i8 a b) k = lane 8 a (16 + (lane 8 b k).toNat % 16) := by
  simp (disch := omega) only [avx.vshuf_i8, _mm256_cmpgt_epi8, _mm256_or_si256, _mm256_permute2x128_si256, _mm256_set1_epi8,
    _mm256_shuffle_epi8, _mm256_sub_epi8, LL.lane_low, LL.lane_high, lane_map2, lane_or, lane_ofLanes]
  have h : ∀ j : BitVec 8, 128 ≤ j.toNat → j.toNat < 144 → (j - 16).msb = false ∧ (j - 16).toNat % 16 = j.toNat % 16 := by decide +kernel
  obtain ⟨h3, h4⟩ := h _ h1 h2
  rw [LL.sh_first, if_neg (by omega)]
  unfold LL.sh
  rw [h3, h4]; simp

