import Verif.OSD.ListDec
/- The list decoder: start, search and output. -/
namespace Verif.OSD
open Finset
open Verif.RS (sb)
open Verif.BCH (beBit setBe_bit b2)
open Verif.Bits (setBe)

variable {K N L : Nat} {g : Nat → Nat → ZMod 2} {soft : List (BitVec 8)} {M : Mem} {q : Nat → Nat} {v : Nat → Nat → ZMod 2}

/-- Writing `N` bits at the offset `off`, in the order of the columns. -/
theorem outB_ok (P : Prep N K g soft M q v) {off : Nat} {hard : List (BitVec 8)} {b : Nat → Bool}
    {f : Nat → List (BitVec 8) → Option (List (BitVec 8))} (h : off + N ≤ 8 * hard.length)
    (hf : ∀ i l, i < N → f i l = setBe l ((off + q i : Nat) : Int) (b i)) :
    Ok (forUp 0 N hard f) (fun out => out.length = hard.length ∧ (∀ i, i < N → beBit out (off + q i) = b i) ∧
      ∀ x, x < 8 * hard.length → (x < off ∨ off + N ≤ x) → beBit out x = beBit hard x) := by
  refine forUp_inv (fun t (out : List (BitVec 8)) => out.length = hard.length ∧
    (∀ i, i < t → beBit out (off + q i) = b i) ∧
    ∀ x, x < 8 * hard.length → (x < off ∨ off + N ≤ x) → beBit out x = beBit hard x) (Nat.zero_le _)
    ⟨rfl, fun i h => by omega, fun x _ _ => rfl⟩ ?_
  rintro t out _ ht ⟨l1, h1, h2⟩
  have hq := P.qlt t ht
  rw [hf t out ht]
  obtain ⟨o', e1, e2, e3⟩ := setBe_bit (buf := out) (i := off + q t) (b t) (by rw [l1]; omega)
  rw [e1]
  rw [l1] at e3
  refine Ok.some ⟨e2.trans l1, ?_, ?_⟩
  · intro i hi
    have hqi := P.qlt i (by omega)
    rw [e3 _ (by omega)]
    by_cases hit : i = t
    · subst hit
      rw [if_pos rfl]
    · rw [if_neg]
      · exact h1 i (by omega)
      · intro h
        exact hit (P.qinj i t (by omega) ht (by omega))
  · intro x hx hx2
    rw [e3 x hx, if_neg (by omega), h2 x hx hx2]

/-- Bytes per output word. -/
abbrev By (N : Nat) : Nat := (N + 7) / 8

theorem slot_off {a b N : Nat} (h : a < b) : 8 * (a * By N) + N ≤ 8 * (b * By N) := by
  have h1 : (a + 1) * By N ≤ b * By N := Nat.mul_le_mul_right _ h
  have h2 : N ≤ 8 * By N := by unfold By; omega
  rw [Nat.add_mul, Nat.one_mul] at h1
  omega

theorem emit_ok (P : Prep N K g soft M q v) {s : Lst} {rank : List Nat} {hard : List (BitVec 8)}
    (lc : s.candidate.length = W N * L) (ls : s.score.length = L) (lp : s.cperm.length = L) (plt : ∀ j, j < L → s.cperm.getD j 0 < L)
    (hr : L ≤ rank.length) (hh : L * By N ≤ hard.length) :
    Ok (emit N L M.perm s rank hard) (fun t => t.2.1.length = rank.length ∧ t.2.2.length = hard.length ∧
      (0 < L → t.2.1.getD 0 0 = 0) ∧
      (∀ j, j + 1 < L → t.2.1.getD (j + 1) 0 = t.2.1.getD j 0 + (if s.score.getD j 0 = s.score.getD (j + 1) 0 then 0 else 1)) ∧
      (∀ j, L ≤ j → t.2.1.getD j 0 = rank.getD j 0) ∧
      (∀ j i, j < L → i < N → beBit t.2.2 (8 * (j * By N) + q i) = (s.candidate.getD (s.cperm.getD j 0 * W N + i) 0 != 0#8)) ∧
      ∀ x, x < 8 * hard.length → (∀ j, j < L → x < 8 * (j * By N) ∨ 8 * (j * By N) + N ≤ x) → beBit t.2.2 x = beBit hard x) := by
  have hW := N_le_W N
  unfold emit
  refine Ok.mono (forUp_inv (fun u (t : Nat × List Nat × List (BitVec 8)) => t.2.1.length = rank.length ∧ t.2.2.length = hard.length ∧
      (0 < u → t.2.1.getD 0 0 = 0) ∧ (if u = 0 then t.1 = 0 else t.1 = t.2.1.getD (u - 1) 0) ∧
      (∀ j, j + 1 < u → t.2.1.getD (j + 1) 0 = t.2.1.getD j 0 + (if s.score.getD j 0 = s.score.getD (j + 1) 0 then 0 else 1)) ∧
      (∀ j, u ≤ j → t.2.1.getD j 0 = rank.getD j 0) ∧
      (∀ j i, j < u → i < N → beBit t.2.2 (8 * (j * By N) + q i) = (s.candidate.getD (s.cperm.getD j 0 * W N + i) 0 != 0#8)) ∧
      ∀ x, x < 8 * hard.length → (∀ j, j < u → x < 8 * (j * By N) ∨ 8 * (j * By N) + N ≤ x) → beBit t.2.2 x = beBit hard x)
      (Nat.zero_le _) ⟨rfl, rfl, fun h => by omega, rfl, fun j h => by omega, fun j _ => rfl, fun j i h => by omega, fun x _ _ => rfl⟩ ?_) ?_
  · rintro u ⟨r, rk, hd⟩ _ hu ⟨l1, l2, h1, h2, h3, h4, h5, h6⟩
    dsimp only at l1 l2 h1 h2 h3 h4 h5 h6
    have hr' : Ok (if u > 0 then do
        let x ← rd s.score (u - 1)
        let y ← rd s.score u
        return (if x ≠ y then r + 1 else r)
      else some r) (fun r' => if u = 0 then r' = 0 else r' = rk.getD (u - 1) 0 + (if s.score.getD (u - 1) 0 = s.score.getD u 0 then 0 else 1)) := by
      by_cases h0 : u = 0
      · subst h0
        rw [if_neg (by omega)]
        rw [if_pos rfl] at h2
        exact Ok.some (by rw [if_pos rfl]; exact h2)
      · rw [if_neg h0] at h2
        rw [if_pos (by omega), rd_of_lt (show u - 1 < s.score.length by omega), getElem_eq_getD (show u - 1 < s.score.length by omega) 0, sb,
          rd_of_lt (show u < s.score.length by omega), getElem_eq_getD (show u < s.score.length by omega) 0, sb]
        refine Ok.some ?_
        rw [if_neg h0, ← h2]
        by_cases he : s.score.getD (u - 1) 0 = s.score.getD u 0
        · rw [if_neg (not_not.2 he), if_pos he, Nat.add_zero]
        · rw [if_pos he, if_neg he]
    refine Ok.bind' hr' fun r' hr' => ?_
    rw [wr_of_lt (show u < rk.length by omega), sb, rd_of_lt (show u < s.cperm.length by omega),
      getElem_eq_getD (show u < s.cperm.length by omega) 0, sb]
    have hoff := slot_off (N := N) hu
    refine Ok.bind' (outB_ok P (off := 8 * (u * By N)) (hard := hd)
      (b := fun i => s.candidate.getD (s.cperm.getD u 0 * W N + i) 0 != 0#8) (by rw [l2]; omega) ?_) ?_
    · intro i l hi
      have hp := P.valid.perm
      have hb : s.cperm.getD u 0 * W N + i < s.candidate.length := by
        rw [lc, Nat.mul_comm _ (W N)]; exact idx_lt (plt u hu) (by omega)
      rw [rd_of_lt (show i < M.perm.length by omega), getElem_eq_getD (show i < M.perm.length by omega) 0, P.perm i hi, sb,
        rd_of_lt hb, getElem_eq_getD hb 0, sb]
    · rintro hd' ⟨m1, m2, m3⟩
      rw [l2] at m1 m3
      refine Ok.some ⟨by rw [List.length_set]; exact l1, m1, ?_, ?_, ?_, ?_, ?_, ?_⟩
      · intro _
        dsimp only
        rw [getD_set]
        by_cases h0 : u = 0
        · rw [if_pos ⟨h0, by omega⟩]
          rwa [if_pos h0] at hr'
        · rw [if_neg (by omega)]; exact h1 (by omega)
      · rw [if_neg (by omega), Nat.add_sub_cancel]
        dsimp only
        rw [getD_set, if_pos ⟨rfl, by omega⟩]
      · intro j hj
        dsimp only
        rw [getD_set, getD_set, if_neg (show ¬ (u = j ∧ _) by omega)]
        by_cases hju : u = j + 1
        · rw [if_pos ⟨hju, by omega⟩]
          rw [if_neg (by omega)] at hr'
          rw [hr', hju, Nat.add_sub_cancel]
        · rw [if_neg (by omega)]
          exact h3 j (by omega)
      · intro j hj
        dsimp only
        rw [getD_set, if_neg (by omega)]
        exact h4 j (by omega)
      · intro j i hj hi
        have hq := P.qlt i hi
        dsimp only
        by_cases hju : j = u
        · subst hju; exact m2 i hi
        · have h7 := slot_off (N := N) (show j < u by omega)
          rw [m3 _ (by omega) (Or.inl (by omega))]
          exact h5 j i (by omega) hi
      · intro x hx hx2
        dsimp only
        rw [m3 x hx (hx2 u (by omega))]
        exact h6 x hx fun j hj => hx2 j (by omega)
  · rintro t ⟨l1, l2, h1, _, h3, h4, h5, h6⟩
    exact ⟨l1, l2, h1, h3, h4, h5, h6⟩

theorem foldl_snoc (ws l : List (Nat → ZMod 2)) : ws.foldl (fun x c => x ++ [c]) l = l ++ ws := by
  induction ws generalizing l with
  | nil => rw [List.append_nil]; rfl
  | cons c ws ih => rw [List.foldl_cons, ih, List.append_assoc]; rfl

/-- Extents of the members of the list decoder. -/
structure ValidL (N L : Nat) (s : Lst) : Prop where
  candidate : s.candidate.length = W N * L
  score : s.score.length = L
  cperm : s.cperm.length = L

theorem decodeL_ok {O : Nat} {M : Mem} {s0 : Lst} {rank : List Nat} {hard soft genmat : List (BitVec 8)} (hM : Valid N K M)
    (hs0 : ValidL N L s0) (hL : 1 ≤ L) (hK : 1 ≤ K)
    (h01 : ∀ x ∈ genmat, x = 0#8 ∨ x = 1#8) (hg : N * K ≤ genmat.length) (hs : N ≤ soft.length)
    (hrk : L ≤ rank.length) (hh : L * By N ≤ hard.length)
    (hr : FullRank K N (entry N genmat)) :
    ∃ rank' out M' s, decodeL N K O L M s0 rank hard soft genmat = some (rank', out, M', s) ∧ Valid N K M' ∧ ValidL N L s ∧
      ∃ M1 q v n k, Prep N K (entry N genmat) soft M1 q v ∧ LInv N L soft q (words K (min O 6) soft q v) s n k ∧
      rank'.length = rank.length ∧ out.length = hard.length ∧
      (0 < L → rank'.getD 0 0 = 0) ∧
      (∀ j, j + 1 < L → rank'.getD (j + 1) 0 = rank'.getD j 0 + (if s.score.getD j 0 = s.score.getD (j + 1) 0 then 0 else 1)) ∧
      (∀ j, L ≤ j → rank'.getD j 0 = rank.getD j 0) ∧
      (∀ j i, j < L → i < N → beBit out (8 * (j * By N) + q i) = (s.candidate.getD (s.cperm.getD j 0 * W N + i) 0 != 0#8)) ∧
      ∀ x, x < 8 * hard.length → (∀ j, j < L → x < 8 * (j * By N) ∨ 8 * (j * By N) + N ≤ x) → beBit out x = beBit hard x := by
  have hW := N_le_W N
  unfold decodeL
  obtain ⟨M1, e1, q, v, P⟩ := prepare_ok hM hK h01 hg hs hr
  rw [e1, sb]
  have hcw := P.valid.codeword
  have hWL : W N ≤ W N * L := Nat.le_mul_of_pos_right _ (by omega)
  obtain ⟨c1, e2, l2, h2⟩ := copy_ok (N := W N) (cand := s0.candidate) (cw := M1.codeword) (by rw [hs0.candidate]; exact hWL) (by omega)
  have hsl := hs0.score
  have hpl := hs0.cperm
  rw [e2, sb, metric_ok P hcw P.cw, sb, wr_of_lt (show 0 < s0.score.length by omega), sb]
  set met := corr N soft (base K soft q v) with hmet
  obtain ⟨sc, e3, l3, h3⟩ : Ok (forUp 1 L (s0.score.set 0 met) fun i score => wr score i (-1)) (fun sc => sc.length = L ∧
      ∀ i, i < L → sc.getD i 0 = if i = 0 then met else -1) := by
    refine Ok.mono (forUp_inv (fun t (sc : List Int) => sc.length = L ∧ ∀ i, i < t → sc.getD i 0 = if i = 0 then met else -1) hL
      ⟨by rw [List.length_set]; exact hsl, fun i hi => by rw [getD_set, if_pos ⟨by omega, by omega⟩, if_pos (by omega)]⟩ ?_) (fun _ h => h)
    rintro t sc ht1 ht2 ⟨l, h⟩
    refine Ok.wr (by omega) ⟨by rw [List.length_set]; exact l, fun i hi => ?_⟩
    rw [getD_set]
    by_cases hit : t = i
    · rw [if_pos ⟨hit, by omega⟩, if_neg (by omega)]
    · rw [if_neg (by omega)]; exact h i (by omega)
  rw [e3, sb]
  obtain ⟨cp, e4, l4, h4⟩ : Ok (forUp 0 L s0.cperm fun i cperm => wr cperm i i) (fun cp => cp.length = L ∧
      ∀ i, i < L → cp.getD i 0 = i) := by
    refine Ok.mono (forUp_inv (fun t (cp : List Nat) => cp.length = L ∧ ∀ i, i < t → cp.getD i 0 = i) (Nat.zero_le _)
      ⟨hpl, fun i hi => by omega⟩ ?_) (fun _ h => h)
    rintro t cp _ ht2 ⟨l, h⟩
    refine Ok.wr (by omega) ⟨by rw [List.length_set]; exact l, fun i hi => ?_⟩
    rw [getD_set]
    by_cases hit : t = i
    · rw [if_pos ⟨hit, by omega⟩, hit]
    · rw [if_neg (by omega)]; exact h i (by omega)
  rw [e4, sb]
  have hslot0 : Slot N q c1 0 (base K soft q v) := by
    intro i hi
    rw [Nat.zero_mul, Nat.zero_add, h2 i (by omega), P.cw i hi]
  have hstart : RLst N L soft q (base K soft q v) [base K soft q v] ⟨M1.codeword, c1, sc, cp⟩ := by
    refine ⟨hcw, P.cw, if 0 ≤ met then 1 else 0, fun _ => 0, l2.trans hs0.candidate, l3, l4, fun j hj => by rw [h4 j hj]; exact hj,
      fun i j hi hj e => by rwa [h4 i hi, h4 j hj] at e, by split <;> omega, ?_, ?_, ?_, ?_, ?_, ?_, ?_, ?_, ?_, ?_, ?_⟩
    · intro j hj
      have : j = 0 := by split at hj <;> omega
      subst this
      show sc.getD 0 0 = _
      rw [h3 0 (by omega), if_pos rfl]; rfl
    · intro j hj
      show 0 ≤ sc.getD j 0
      split at hj
      · have : j = 0 := by omega
        subst this
        rw [h3 0 (by omega), if_pos rfl]; assumption
      · omega
    · intro j _; exact Nat.zero_lt_one
    · intro i j hi hj _
      have : (if 0 ≤ met then 1 else 0) ≤ 1 := by split <;> omega
      omega
    · intro j hj
      have : j = 0 := by split at hj <;> omega
      subst this
      show Slot N q c1 (cp.getD 0 0) _
      rw [h4 0 (by omega)]; exact hslot0
    · intro j hj1 hj2
      show sc.getD j 0 < 0
      rw [h3 j hj2]
      split at hj1
      · rw [if_neg (by omega)]; omega
      · split <;> omega
    · intro i j hij hj; split at hj <;> omega
    · intro t ht h0
      rw [List.length_singleton] at ht
      have : t = 0 := by omega
      subst this
      have h0' : 0 ≤ met := h0
      exact Or.inl ⟨0, by rw [if_pos h0']; exact Nat.zero_lt_one, rfl⟩
    · intro i j hij hj; split at hj <;> omega
    · intro t ht h0
      rw [List.length_singleton] at ht
      have : t = 0 := by omega
      subst this
      have h0' : 0 ≤ met := h0
      exact Or.inl ⟨0, by rw [if_pos h0']; exact Nat.zero_lt_one, rfl⟩
    · refine ⟨_, List.mem_singleton_self _, ?_, ?_⟩
      · show sc.getD 0 0 = _
        rw [h3 0 (by omega), if_pos rfl]
      · show Slot N q c1 (cp.getD 0 0) _
        rw [h4 0 (by omega)]; exact hslot0
  have hfl : ∀ (c : Nat → ZMod 2) (l : List (Nat → ZMod 2)) (s : Lst) (a : Nat), a < K → RLst N L soft q c l s →
      Ok (do
        let cw ← flip N M1.G a s.codeword
        return { s with codeword := cw }) (RLst N L soft q (c + v a) l) := by
    rintro c x s a ha ⟨r1, r2, n, k, I⟩
    refine Ok.bind' (flip_ok P r1 r2 ha) ?_
    rintro cw ⟨l, h⟩
    exact Ok.some ⟨l, h, n, k, ⟨I.lc, I.ls, I.lp, I.plt, I.pinj, I.nL, I.score, I.nonneg, I.klt, I.kinj, I.slot, I.neg, I.sorted, I.complete, I.stable, I.late, I.head⟩⟩
  obtain ⟨s, e5, h5⟩ := nest_ok (O := O) (RLst N L soft q) (fun c l => l ++ [c]) hfl
    (fun c x s R => updateL_ok P hL R) 6 1 0 (base K soft q v) [base K soft q v] ⟨M1.codeword, c1, sc, cp⟩ (Nat.zero_le _) hstart
  rw [Nat.add_sub_cancel, Nat.min_comm] at h5
  have hwords : (vis K (min O 6) 0).foldl (fun x A => x ++ [base K soft q v + sumV v A]) [base K soft q v] = words K (min O 6) soft q v := by
    have := foldl_snoc ((vis K (min O 6) 0).map fun A => base K soft q v + sumV v A) [base K soft q v]
    rw [List.foldl_map] at this
    exact this
  rw [hwords] at h5
  obtain ⟨r1, r2, n, k, I⟩ := h5
  rw [e5, sb]
  obtain ⟨⟨r, rk, out⟩, e6, f1, f2, f3, f4, f5, f6, f7⟩ := emit_ok P (rank := rank) (hard := hard) I.lc I.ls I.lp I.plt hrk hh
  rw [e6, sb]
  exact ⟨rk, out, _, s, rfl, ⟨P.valid.int16, P.valid.G, r1, P.valid.softperm, P.valid.perm, P.valid.tmp⟩, ⟨I.lc, I.ls, I.lp⟩, M1, q, v, n, k, P, I,
    f1, f2, f3, f4, f5, f6, f7⟩

end Verif.OSD
