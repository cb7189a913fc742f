import Verif.Targets.LdpcSim
import Verif.SIMD.Shuf
/- The rotations of the targets, and the shifts in the tables of the decoder. -/
namespace Verif.Targets
open Verif.SIMD
open Verif.LDPC (Table Cfg Dec Loc)
open Verif.RS (sb)
open Verif.Polar (bind_some')
open Verif.Rotate (IsRotation)
variable {R : Type}

theorem wrt_bytes {T : Target R} (h : T.Ok) {l : List (BitVec 8)} (hl : l.length = T.n) : T.bytes (T.ofBytes l) = l := by
  apply List.ext_getElem?
  intro k
  by_cases hk : k < T.n
  · rw [bytes_get _ _ hk]
    unfold Target.ofBytes
    rw [h.wrt _ _ hk, ← getElem_eq_getD (by omega), List.getElem?_eq_getElem (by omega)]
  · rw [List.getElem?_eq_none (by rw [bytes_len]; omega), List.getElem?_eq_none (by omega)]

theorem bytes_getD (T : Target R) (a : R) {k : Nat} (hk : k < T.n) : (T.bytes a).getD k 0#8 = T.O.v a k := by
  rw [List.getD_eq_getElem?_getD, bytes_get _ _ hk]; rfl

theorem rotGen_ok {T : Target R} (h : T.Ok) {D : Nat} (hD : D ≤ T.n) : RotOk T T.rotGen D := by
  intro ret0 a s h1 h2
  obtain ⟨r, e, h3, h4⟩ := Rotate.C48_generic D (T.bytes ret0) (T.bytes a) s h1 (by omega) (by rw [bytes_len]; exact hD) (by rw [bytes_len]; exact hD)
  refine ⟨T.ofBytes r, ?_, ?_⟩
  · unfold Target.rotGen; rw [e, sb]; rfl
  · rw [wrt_bytes h (by rw [h3, bytes_len])]; exact h4

theorem msb_ofNat : ∀ n < 256, (BitVec.ofNat 8 n).msb = n.testBit 7 ∧ (BitVec.ofNat 8 n).toNat = n := by decide +kernel

/-- Rows of the table: bytes. -/
theorem rot16_row {W : Nat} (hW : W ≤ 16) {rot : List (List Nat)} {s : Int} {row : List Nat} (e : Rotate.rot16 W = some rot) (e2 : rdZ rot s = some row) :
    ∀ k, row.getD k 0 < 16 ∨ row.getD k 0 = 0x80 := by
  have htab : Rotate.rot16 W = some ((List.range W).map fun i => (List.range W).map (Rotate.posOf W i) ++ (List.replicate 16 0x80).drop W) :=
    Rotate.table_rows W [] (Rotate.rot16Row W) _ (fun i _ => Rotate.rot16Row_ok W i hW)
  rw [htab] at e
  cases e
  unfold rdZ at e2
  split at e2
  · cases e2
  · obtain ⟨h1, h2⟩ := List.getElem?_eq_some_iff.1 e2
    rw [List.getElem_map] at h2
    subst h2
    intro k
    generalize (List.range W)[s.toNat]'(by simpa using h1) = i
    by_cases hk : k < W
    · left
      rw [List.getD_append _ _ _ _ (by simpa using hk), ← getElem_eq_getD (by simpa using hk)]
      have := Rotate.posOf_lt W i k (by omega)
      simp only [List.getElem_map, List.getElem_range]; omega
    · rw [List.getD_append_right _ _ _ _ (by simp; omega), List.length_map, List.length_range]
      by_cases h3 : k - W < ((List.replicate 16 0x80).drop W).length
      · right; rw [← getElem_eq_getD h3, List.getElem_drop, List.getElem_replicate]
      · left; rw [List.getD_eq_default _ _ (by omega)]; norm_num

/-- The single shuffle versions. -/
theorem rot16_ok {T : Target R} (h : T.Ok) (hn : T.n = 16) {D : Nat} (hD : D ≤ 16) {rot : Nat → R → R → Int → Option R} {shuf : R → R → R}
    (hrot : ∀ ret0 a s, rot D ret0 a s = (rotRow T D s).bind fun r => some (shuf a r))
    (hs : ∀ a r, (∀ k, k < 16 → (T.O.v r k).toNat < 16 ∨ (T.O.v r k).toNat = 0x80) → ∀ k, k < 16 → T.O.v (shuf a r) k = if (T.O.v r k).toNat = 0x80 then 0 else T.O.v a (T.O.v r k).toNat) :
    RotOk T rot D := by
  intro ret0 a s h1 h2
  obtain ⟨r, e, h3, h4⟩ := Rotate.C48_shuffle16 D hD (T.bytes a) (by rw [bytes_len, hn]) s h1 h2
  unfold Rotate.rotate16 at e
  obtain ⟨tab, e1, e⟩ := bind_some' e
  obtain ⟨row, e2, e⟩ := bind_some' e
  have hrow := rot16_row hD e1 e2
  refine ⟨shuf a (T.ofRow row), ?_, ?_⟩
  · rw [hrot]
    unfold rotRow
    rw [e1, sb]
    dsimp only at e2 ⊢
    rw [e2, sb]; rfl
  · have hv : ∀ k, k < 16 → (T.O.v (T.ofRow row) k).toNat = row.getD k 0 := by
      intro k hk
      unfold Target.ofRow
      rw [h.wrt _ _ (by omega)]
      exact (msb_ofNat _ (by rcases hrow k with h | h <;> omega)).2
    have : T.bytes (shuf a (T.ofRow row)) = r := by
      cases e
      show (List.range T.n).map _ = (List.range 16).map _
      rw [hn]
      refine List.map_congr_left fun k hk => ?_
      have hk : k < 16 := List.mem_range.1 hk
      rw [hs a _ (fun k hk => by rw [hv k hk]; exact hrow k) k hk, hv k hk]
      dsimp only
      rcases hrow k with h5 | h5
      · rw [if_neg (by omega), Nat.testBit_eq_false_of_lt (by omega), if_neg (by simp), Nat.mod_eq_of_lt h5, bytes_getD _ _ (by omega)]
      · rw [h5]; rfl
    rw [this]; exact h4

theorem rotSse_ok {D : Nat} (hD : D ≤ 16) : RotOk sse rotSse D := by
  refine rot16_ok sse_ok rfl hD (shuf := _mm_shuffle_epi8) (fun _ _ _ => rfl) fun a r hr k hk => ?_
  show lane 8 (pshufb 128 a r) k = _
  rw [LL.lane_pshufb _ _ hk]
  have h := hr k hk
  change (lane 8 r k).toNat < 16 ∨ (lane 8 r k).toNat = 0x80 at h
  show _ = if (lane 8 r k).toNat = 0x80 then 0 else lane 8 a (lane 8 r k).toNat
  generalize lane 8 r k = j at h
  have key : ∀ j : BitVec 8, (j.toNat < 16 → j.msb = false) ∧ (j.toNat = 0x80 → j.msb = true) := by decide +kernel
  unfold LL.sh
  rcases h with h | h
  · rw [(key j).1 h, if_neg (by simp), if_neg (by omega), Nat.mod_eq_of_lt h]
  · rw [(key j).2 h, if_pos rfl, if_pos h]

theorem rotA64_ok {D : Nat} (hD : D ≤ 16) : RotOk neon_a64 rotA64 D := by
  refine rot16_ok neon_a64_ok rfl hD (shuf := vqtbl1q_s8) (fun _ _ _ => rfl) fun a r hr k hk => ?_
  show lane 8 (tbl1 a r) k = _
  rw [LL.lane_tbl1 _ _ hk]
  have h := hr k hk
  change (lane 8 r k).toNat < 16 ∨ (lane 8 r k).toNat = 0x80 at h
  show _ = if (lane 8 r k).toNat = 0x80 then 0 else lane 8 a (lane 8 r k).toNat
  generalize lane 8 r k = j at h
  unfold LL.tb
  rcases h with h | h
  · rw [if_pos h, if_neg (by omega)]
  · rw [if_neg (by omega), if_pos h]

theorem rotA32_ok {D : Nat} (hD : D ≤ 16) : RotOk neon_a32 rotA32 D := by
  refine rot16_ok neon_a32_ok rfl hD (shuf := neon.vshuf_i8_a32) (fun _ _ _ => rfl) fun a r hr k hk => ?_
  have e : (lane 8) (neon.vshuf_i8_a32 a r) k = LL.tb (lane 8 a) (lane 8 r k) := by
    have h2 : k / 8 = 0 ∨ k / 8 = 1 := by omega
    simp (disch := omega) only [neon.vshuf_i8_a32, vcombine_s8, vget_high_s8, vget_low_s8, vtbl2_s8, LL.lane_big64]
    rcases h2 with h | h <;> rw [h]
    · rw [if_pos rfl, LL.lane_tbl2 _ _ (by omega), LL.lane_lane64 _ _ _ (by omega)]; congr 2; omega
    · rw [if_neg (by decide), LL.lane_tbl2 _ _ (by omega), LL.lane_lane64 _ _ _ (by omega)]; congr 2; omega
  show lane 8 (neon.vshuf_i8_a32 a r) k = _
  rw [e]
  have h := hr k hk
  change (lane 8 r k).toNat < 16 ∨ (lane 8 r k).toNat = 0x80 at h
  show _ = if (lane 8 r k).toNat = 0x80 then 0 else lane 8 a (lane 8 r k).toNat
  generalize lane 8 r k = j at h
  unfold LL.tb
  rcases h with h | h
  · rw [if_pos h, if_neg (by omega)]
  · rw [if_neg (by omega), if_pos h]

/-- Swapping the halves of a register. -/
theorem lane_swap (c : BitVec 256) {k : Nat} (hk : k < 32) : lane 8 (_mm256_permute2x128_si256 c c 1) k = lane 8 c (if k < 16 then k + 16 else k - 16) := by
  unfold _mm256_permute2x128_si256
  have h : k / 16 = 0 ∨ k / 16 = 1 := by omega
  have hg := LL.lane_big (fun i => sel128 c c (1 / 16 ^ i % 16)) (q := k / 16) (i := k % 16) (by omega) (by omega)
  rw [show k / 16 * 16 + k % 16 = k by omega] at hg
  rw [hg]
  rcases h with h | h
  · rw [h, if_pos (by omega)]
    change lane 8 (lane 128 c 1) (k % 16) = _
    rw [LL.lane_lane _ _ _ (by omega)]; congr 1; omega
  · rw [h, if_neg (by omega)]
    change lane 8 (lane 128 c 0) (k % 16) = _
    rw [LL.lane_lane _ _ _ (by omega)]; congr 1; omega

theorem rot32_row {W : Nat} (hW : W ≤ 32) {rot : List (List Nat × List Nat)} {s : Int} {row : List Nat × List Nat} (e : Rotate.rot32 W = some rot) (e2 : rdZ rot s = some row) :
    ∀ k, k < 32 → (row.1.getD k 0 < 256 ∧ row.2.getD k 0 < 256) := by
  have hrow : ∀ i, ∃ p : List Nat × List Nat, Rotate.rot32Row W i = some p ∧
      (∀ k, k < 32 → p.1.getD k 0 = Rotate.g0 W i k) ∧ (∀ k, k < 32 → p.2.getD k 0 = Rotate.g1 W i k) := by
    intro i
    obtain ⟨r0, r1, h⟩ := Rotate.rot32Row_ok W i hW
    exact ⟨(r0, r1), h⟩
  choose g hg using hrow
  have htab : Rotate.rot32 W = some ((List.range W).map g) := Rotate.table_rows W ([], []) (Rotate.rot32Row W) g (fun i _ => (hg i).1)
  rw [htab] at e
  cases e
  unfold rdZ at e2
  split at e2
  · cases e2
  · obtain ⟨h1, h2⟩ := List.getElem?_eq_some_iff.1 e2
    rw [List.getElem_map] at h2
    intro k hk
    rw [← h2, (hg _).2.1 k hk, (hg _).2.2 k hk]
    have hif : ∀ (P : Prop) [Decidable P] (x : Nat), (if P then x % 16 else 0x80) < 256 := by intro P _ x; split <;> omega
    exact ⟨hif _ _, hif _ _⟩

theorem getD_mapRange {α : Type} {n : Nat} (f : Nat → α) (d : α) {k : Nat} (hk : k < n) : ((List.range n).map f).getD k d = f k := by
  rw [List.getD_eq_getElem?_getD, List.getElem?_map, List.getElem?_range hk]; rfl

theorem rotAvx_ok {D : Nat} (hD : D ≤ 32) : RotOk avx rotAvx D := by
  intro ret0 a s h1 h2
  obtain ⟨r, e, h3, h4⟩ := Rotate.C48_shuffle32 D hD (avx.bytes a) (by rw [bytes_len]; rfl) s h1 h2
  unfold Rotate.rotate32 at e
  obtain ⟨tab, e1, e⟩ := bind_some' e
  obtain ⟨row, e2, e⟩ := bind_some' e
  have hrow := rot32_row hD e1 e2
  have hsh : ∀ (l : List Nat), (∀ k, k < 32 → l.getD k 0 < 256) → ∀ k, k < 32 → lane 8 (_mm256_shuffle_epi8 a (avx.ofRow l)) k = (Rotate.shuffle32 (avx.bytes a) l).getD k 0#8 := by
    intro l hl k hk
    have hv : lane 8 (avx.ofRow l) k = BitVec.ofNat 8 (l.getD k 0) := avx_ok.wrt (fun k => BitVec.ofNat 8 (l.getD k 0)) k hk
    obtain ⟨m1, m2⟩ := msb_ofNat _ (hl k hk)
    show lane 8 (pshufb 256 a (avx.ofRow l)) k = _
    rw [LL.lane_pshufb2 _ _ hk, hv]
    unfold LL.sh Rotate.shuffle32
    rw [m1, m2, getD_mapRange _ _ hk]
    show _ = if (l.getD k 0).testBit 7 = true then 0#8 else _
    rw [bytes_getD avx a (k := k / 16 * 16 + l.getD k 0 % 16) (show _ < 32 by omega)]
    rfl
  refine ⟨_mm256_or_si256 (_mm256_shuffle_epi8 a (avx.ofRow row.1)) (_mm256_permute2x128_si256 (_mm256_shuffle_epi8 a (avx.ofRow row.2)) (_mm256_shuffle_epi8 a (avx.ofRow row.2)) 1), ?_, ?_⟩
  · unfold rotAvx
    rw [e1, sb]
    dsimp only at e2 ⊢
    rw [e2, sb]; rfl
  · have : avx.bytes (_mm256_or_si256 (_mm256_shuffle_epi8 a (avx.ofRow row.1)) (_mm256_permute2x128_si256 (_mm256_shuffle_epi8 a (avx.ofRow row.2)) (_mm256_shuffle_epi8 a (avx.ofRow row.2)) 1)) = r := by
      cases e
      show (List.range 32).map _ = (List.range 32).map _
      refine List.map_congr_left fun k hk => ?_
      have hk : k < 32 := List.mem_range.1 hk
      show lane 8 (_ ||| _) k = _
      rw [lane_or, lane_swap _ hk, hsh _ (fun k hk => (hrow k hk).1) k hk, hsh _ (fun k hk => (hrow k hk).2) _ (by split <;> omega)]
      congr 1
      unfold Rotate.swapHalves
      rw [getD_mapRange _ _ hk]
    rw [this]; exact h4

/-! ### Shifts -/

open Verif.LDPC in
theorem shi_lt {C : Cfg} (h : C.WF) {X : Dec} (hX : DecOK C X) : ∀ l ∈ X.loc, l.shi < C.D := by
  have hW := h.hW
  have hM := h.hT.hM
  have hMD := h.hDM
  have hloc : ∀ (j : Nat) (e : Nat × Nat), (locOf C j e).shi < C.D := by
    intro j e
    unfold locOf
    dsimp only
    apply Nat.div_lt_of_lt_mul
    rw [← hMD]
    exact Nat.mod_lt _ hM
  have key : ∀ i, i ≤ C.T.q → ∀ p, p < C.W * pre C.T i → ∀ l, X.loc[p]? = some l → l.shi < C.D := by
    intro i
    induction i with
    | zero => intro _ p hp; simp [pre] at hp
    | succ i ih =>
      intro hi p hp l hl
      by_cases h1 : p < C.W * pre C.T i
      · exact ih (by omega) p h1 l hl
      · rw [pre, Nat.mul_add] at hp
        generalize hL : (C.T.ent i).length = L at hp
        have hL0 : 0 < L := by
          rcases Nat.eq_zero_or_pos L with h0 | h0
          · rw [h0, Nat.mul_zero] at hp; omega
          · exact h0
        obtain ⟨d, hd⟩ : ∃ d, p = C.W * pre C.T i + d := ⟨p - C.W * pre C.T i, by omega⟩
        have hd2 : d < C.W * L := by omega
        have hj : d / L < C.W := Nat.div_lt_of_lt_mul (by rwa [Nat.mul_comm])
        obtain ⟨E, _, hE, _⟩ := hX.hs i (by omega) (d / L) hj
        have hk : d % L < L := Nat.mod_lt _ hL0
        have e : (E.map (locOf C (d / L)))[d % L]? = some l := by
          rw [← hE, hL, List.getElem?_take, if_pos hk, List.getElem?_drop, ← hl]
          congr 1
          rw [hd, lo0, hL, Nat.add_assoc]
          congr 1
          rw [Nat.mul_comm]; exact Nat.div_add_mod d L
        rw [List.getElem?_map] at e
        obtain ⟨x, _, rfl⟩ := Option.map_eq_some_iff.1 e
        exact hloc _ _
  intro l hl
  obtain ⟨p, hp, rfl⟩ := List.getElem_of_mem hl
  refine key C.T.q (le_refl _) p ?_ _ (List.getElem?_eq_getElem hp)
  rw [pre_total h.hT, ← h.loc_eq, ← hX.hl]; exact hp

end Verif.Targets
