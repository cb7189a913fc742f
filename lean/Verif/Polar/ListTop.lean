import Verif.Polar.ListProof
/- The loops around the recursion of the list decoders, and the paths as messages. -/
namespace Verif.Polar
open PolarHelper (I8 prodV maddV qmulV)
open Verif.RS (sb)
variable {L : Nat} {τ : Type}

theorem metric0_ok {m : List Int} (hL : 0 < L) (hm : m.length = L) :
    ∃ m', metric0 L m = some m' ∧ m'.length = L ∧ m'.getD 0 0 = 0 ∧ ∀ k, 0 < k → k < L → m'.getD k 0 = 1000000 := by
  have key : Ok (metric0 L m) (fun m' => m'.length = L ∧ m'.getD 0 0 = 0 ∧ ∀ k, 0 < k → k < L → m'.getD k 0 = 1000000) := by
    unfold metric0
    rw [wr_of_lt (by omega), sb]
    refine forUp_inv (fun j (a : List Int) => a.length = L ∧ a.getD 0 0 = 0 ∧ ∀ k, 0 < k → k < j → a.getD k 0 = 1000000) (by omega)
      ⟨by simp [hm], by rw [getD_set, if_pos ⟨rfl, by omega⟩], fun k _ _ => by omega⟩ ?_
    rintro j a hj0 hj ⟨a1, a2, a3⟩
    rw [wr_of_lt (by omega)]
    refine Ok.some ⟨by simp [a1], by rw [getD_set, if_neg (by omega), a2], fun k h1 h2 => ?_⟩
    rw [getD_set]
    by_cases h : j = k
    · rw [if_pos ⟨h, by omega⟩]
    · rw [if_neg (by tauto)]; exact a3 k h1 (by omega)
  obtain ⟨m', e, h⟩ := key
  exact ⟨m', e, h⟩

theorem dupLoop_ok {level : Nat} {codeword : List Int} {soft : List (Reg L)} (hs : 2 * 2 ^ level ≤ soft.length) (hc : 2 ^ level ≤ codeword.length) :
    Ok (dupLoop level codeword soft) (fun a => a.length = soft.length ∧ Has 0 a (2 ^ level) ((codeword.take (2 ^ level)).map fun v (_ : Fin L) => v)) := by
  have hl : ((codeword.take (2 ^ level)).map fun v (_ : Fin L) => v).length = 2 ^ level := by simp [hc]
  unfold dupLoop
  refine Ok.mono (fill_upd (d := 0) (o := 2 ^ level) hl (by omega) fun i a' hi _ => ?_) ?_
  · rw [rd_of_lt (by omega), sb, getD_map' _ _ 0 0 (by simp; omega), getD_take_lt hi, getElem_eq_getD _ 0]
  · rintro a ⟨a1, a2⟩
    refine ⟨a1, by rw [hl]; omega, fun i hi => ?_⟩
    rw [hl] at hi
    rw [a2, if_pos (by rw [hl]; omega), Nat.add_sub_cancel_left]

/-- How often the sequence `m` changes up to position `i`. -/
def changes (m : Nat → Int) : Nat → Nat
  | 0 => 0
  | i + 1 => changes m i + if m i ≠ m (i + 1) then 1 else 0

theorem rankLoop_ok {m : List Int} {rank : List Nat} (hm : m.length = L) (hr : L ≤ rank.length) :
    ∃ r, rankLoop L m rank = some r ∧ r.length = rank.length ∧ (∀ i, i < L → r.getD i 0 = changes (fun j => m.getD j 0) i) ∧
      ∀ i, L ≤ i → r.getD i 0 = rank.getD i 0 := by
  have key : Ok (rankLoop L m rank) (fun r => r.length = rank.length ∧ (∀ i, i < L → r.getD i 0 = changes (fun j => m.getD j 0) i) ∧
      ∀ i, L ≤ i → r.getD i 0 = rank.getD i 0) := by
    unfold rankLoop
    refine Ok.bind' (forUp_inv (fun j (s : List Nat × Nat) => s.1.length = rank.length ∧ (∀ i, i < j → s.1.getD i 0 = changes (fun j => m.getD j 0) i) ∧
      (∀ i, L ≤ i → s.1.getD i 0 = rank.getD i 0) ∧ s.2 = changes (fun j => m.getD j 0) (j - 1)) (Nat.zero_le _)
      ⟨rfl, fun i hi => by omega, fun _ _ => rfl, rfl⟩ ?_) ?_
    · rintro j ⟨a, r⟩ _ hj ⟨a1, a2, a3, a4⟩
      dsimp only at a1 a2 a3 a4 ⊢
      have e : (if 0 < j then do
          let a ← rd m (j - 1)
          let b ← rd m j
          return if a ≠ b then r + 1 else r
        else some r) = some (changes (fun j => m.getD j 0) j) := by
        cases j with
        | zero => rw [if_neg (by omega), a4]
        | succ j =>
          rw [if_pos (by omega), Nat.add_sub_cancel, rd_of_lt (by omega), sb, rd_of_lt (by omega), sb, getElem_eq_getD _ 0, getElem_eq_getD _ 0, a4, Nat.add_sub_cancel]
          show some _ = some _
          congr 1
          rw [changes]
          split <;> rfl
      have h0 : (if 0 < j then do
          let a ← rd m (j - 1)
          let b ← rd m j
          return if a ≠ b then r + 1 else r
        else some r) >>= (fun r => do
          let rank ← wr a j r
          return (rank, r)) = (do
          let rank ← wr a j (changes (fun j => m.getD j 0) j)
          return (rank, changes (fun j => m.getD j 0) j)) := by rw [e, sb]
      refine cast (congrArg (fun o => Ok o _) h0.symm) ?_
      rw [wr_of_lt (by omega), sb]
      refine Ok.some ⟨by simp [a1], fun i hi => ?_, fun i hi => ?_, rfl⟩
      · dsimp only
        rw [getD_set]
        by_cases h : j = i
        · rw [if_pos ⟨h, by omega⟩, h]
        · rw [if_neg (by tauto)]; exact a2 i (by omega)
      · dsimp only
        rw [getD_set, if_neg (by omega), a3 i hi]
    · rintro ⟨a, r⟩ ⟨a1, a2, a3, -⟩
      exact Ok.some ⟨a1, a2, a3⟩
  obtain ⟨r, e, h⟩ := key
  exact ⟨r, e, h⟩

theorem rankOpt_ok {m : List Int} {rank : Option (List Nat)} (hm : m.length = L) (hr : ∀ r, rank = some r → L ≤ r.length) :
    ∃ rank', rankOpt L m rank = some rank' ∧ (rank = none → rank' = none) ∧ ∀ r0, rank = some r0 → ∃ r', rank' = some r' ∧ r'.length = r0.length ∧
      (∀ i, i < L → r'.getD i 0 = changes (fun j => m.getD j 0) i) ∧ ∀ i, L ≤ i → r'.getD i 0 = r0.getD i 0 := by
  cases rank with
  | none => exact ⟨none, rfl, fun _ => rfl, fun r0 h => by cases h⟩
  | some r0 =>
    obtain ⟨r', e', b1, b2, b3⟩ := rankLoop_ok (L := L) (m := m) (rank := r0) hm (hr _ rfl)
    refine ⟨some r', ?_, (fun h => by cases h), fun r1 h => ?_⟩
    · unfold rankOpt; dsimp only; rw [e']; rfl
    · cases h
      exact ⟨r', rfl, b1, b2, b3⟩

/-! ### Paths and messages -/

theorem info_inj {one : τ} : ∀ {f : List Bool} {u v : List τ}, Obeys one f u → Obeys one f v → info f u = info f v → u = v := by
  intro f
  induction f with
  | nil =>
    intro u v hu hv _
    rw [List.eq_nil_of_length_eq_zero hu.1.symm, List.eq_nil_of_length_eq_zero hv.1.symm]
  | cons b f ih =>
    intro u v hu hv h
    cases u with
    | nil => have := hu.1; simp at this
    | cons a u =>
      cases v with
      | nil => have := hv.1; simp at this
      | cons c v =>
        have hu' : Obeys one f u := ⟨by simpa using hu.1, fun i hi => by simpa using hu.2 (i + 1) (by simpa using hi)⟩
        have hv' : Obeys one f v := ⟨by simpa using hv.1, fun i hi => by simpa using hv.2 (i + 1) (by simpa using hi)⟩
        cases b with
        | true =>
          have e1 : a = one := hu.2 0 rfl
          have e2 : c = one := hv.2 0 rfl
          rw [e1, e2, ih hu' hv' (by simpa [info] using h)]
        | false =>
          have h' : a :: info f u = c :: info f v := by simpa [info] using h
          rw [List.cons.injEq] at h'
          rw [h'.1, ih hu' hv' h'.2]

theorem obeys_complete (one : τ) (frozen : List Nat) (m : List τ) (n : Nat) : Obeys one (fbits frozen 0 n) ((List.range n).map (complete one (fbit frozen) m)) := by
  refine ⟨by simp [fbits], fun i hi => ?_⟩
  by_cases hi' : i < n
  · rw [fbits_zero, getD_range_map _ _ hi'] at hi
    rw [getD_range_map _ _ hi']
    unfold complete
    rw [if_pos hi]
  · rw [List.getD_eq_default _ _ (by simp; omega)]

theorem info_complete {one : τ} {frozen : List Nat} {m : List τ} {n : Nat} (hm : m.length = rank (fbit frozen) n) :
    info (fbits frozen 0 n) ((List.range n).map (complete one (fbit frozen) m)) = m := by
  rw [fbits_zero, info_range, filter_range_map _ _ _ _ (by omega), List.take_of_length_le (by omega)]

/-- A path that obeys the frozen set is the completion of its decisions. -/
theorem obeys_eq {one : τ} {frozen : List Nat} {n : Nat} {u : List τ} (hu : Obeys one (fbits frozen 0 n) u) :
    u = (List.range n).map (complete one (fbit frozen) (info (fbits frozen 0 n) u)) := by
  refine info_inj hu (obeys_complete _ _ _ _) ?_
  rw [info_complete]
  rw [info_length hu.1, filter_count]

theorem cnt_fbits (frozen : List Nat) (n : Nat) : cnt (fbits frozen 0 n) = freeBelow frozen n := by
  rw [← rank_eq]; exact filter_count frozen n

theorem fbits_last {frozen : List Nat} {n : Nat} (hn : 0 < n) : (fbits frozen 0 n).getLast? = some (fbit frozen (n - 1)) := by
  obtain ⟨m, rfl⟩ : ∃ m, n = m + 1 := ⟨n - 1, by omega⟩
  rw [fbits_zero, List.range_succ, List.map_append]
  simp

theorem not_all_frozen {f : List Bool} (h : 0 < cnt f) : ¬ f.all (fun b => b) = true := fun h' => by rw [cnt_all h'] at h; omega

/-- A decoder call: the recursion is entered with the soft values of the codeword in every lane, and its outcome
is described by `Run`. -/
theorem top_run [NeZero L] {X C Q : Type} {A : Lf L X C Q} {W : Walk (Reg L) (LMap L) X} {N : Nodes (Reg L) (LMap L) X} (ok : LfOk A W N)
    (ag : Agree 0 W N) {frozen : List Nat} (hw : ∀ w ∈ frozen, w < 2 ^ 32) {level : Nat} (h5 : 5 ≤ level) (h16 : level ≤ 16) (hf : 2 ^ level ≤ 32 * frozen.length)
    (hfree : 0 < freeBelow frozen (2 ^ level)) {codeword : List Int} (hc : 2 ^ level ≤ codeword.length) (h8 : ∀ i, i < 2 ^ level → I8 (codeword.getD i 0))
    {m : Mem (Reg L) X} (hs : Has 0 m.soft (2 ^ level) ((codeword.take (2 ^ level)).map fun v (_ : Fin L) => v)) (hh : 2 ^ level ≤ m.hard.length)
    (hinv : A.Inv (freeBelow frozen (2 ^ level)) 1000000 m.x) :
    ∃ t r U, treeTop W 16 frozen level m = some t ∧ t.1.x = r.1 ∧ (∃ B, A.Inv 0 B r.1) ∧
      Run A level (fbits frozen 0 (2 ^ level)) m.x ((codeword.take (2 ^ level)).map fun v (_ : Fin L) => v) r U := by
  obtain ⟨k, rfl⟩ : ∃ k, level = k + 1 := ⟨level - 1, by omega⟩
  have hcnt : cnt (fbits frozen 0 (2 ^ (k + 1))) = freeBelow frozen (2 ^ (k + 1)) := cnt_fbits _ _
  have hp : (2 : Int) ^ (k + 1) ≤ 2 ^ 16 := pow_le_pow_right₀ (by norm_num) h16
  have hsl : ((codeword.take (2 ^ (k + 1))).map fun v (_ : Fin L) => v).length = 2 ^ (k + 1) := by simp [hc]
  obtain ⟨r, e, hi, U, hU⟩ := run_node ok (run_child ok k) (fbits frozen 0 (2 ^ (k + 1))) m.x ((codeword.take (2 ^ (k + 1))).map fun v (_ : Fin L) => v) 0 1000000
    (by simp [fbits]) hsl (fun a ha j => by
      obtain ⟨b, hb, rfl⟩ := List.mem_map.1 ha
      obtain ⟨i, hi, rfl⟩ := List.mem_iff_getElem.1 hb
      have hi' : i < 2 ^ (k + 1) := by simp at hi; omega
      have := h8 i hi'
      rw [← getElem_eq_getD (by omega)] at this
      simpa using this) (by rw [hcnt]; exact hinv) (by norm_num at hp ⊢; omega) (fun h => not_all_frozen (by omega) h.2)
  obtain ⟨t, et, t1, -⟩ := treeTop_ok ag hw h5 h16 hf hsl hs hh e
  exact ⟨t, r, U, et, t1, ⟨_, hi⟩, hU⟩

end Verif.Polar
