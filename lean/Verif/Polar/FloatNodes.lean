import Verif.Polar.FloatPrune
import Verif.Polar.ListProof
/- The nodes of the two list decoders on floating point numbers, and the loops around the recursion. -/
namespace Verif.Polar
open Verif.RS (sb)
variable {L : Nat}
open FlList (FReg LXF PXF)

/-- All lanes 1 -/
abbrev oneF (L : Nat) : FReg L := fun _ => .fin 1

/-! ### Nodes on lists -/

/-- The node functions on lists. -/
def listNF (F : Rounding) (U L : Nat) : Nodes (FReg L) (LMap L) (LXF L) where
  r0 M x s := do
    let m ← chargeAllF F (2 ^ M) s x.metric
    return ({ x with metric := m }, List.replicate (2 ^ M) (phFV F L).one, FlList.idMap U L)
  r1 M x s := match M, s with
    | 0, [v] => do
      let r ← FlList.listFork F U x v
      return (r.1, [r.2.1], r.2.2)
    | _, _ => none

/-- The node functions on lists. -/
def parNF (F : Rounding) (U L stride : Nat) : Nodes (FReg L) (LMap L) (PXF L) where
  r0 M x s := do
    let m ← chargeAllF F (2 ^ M) s x.metric
    return ({ x with metric := m }, List.replicate (2 ^ M) (phFV F L).one, FlList.idMap U L)
  r1 M x s := match M, s with
    | 0, [v] => do
      let r ← FlList.parFork F U stride x v
      return (r.1, [r.2.1], r.2.2)
    | _, _ => none

theorem chargeLoopF_eq {F : Rounding} {M : Nat} {soft s : List (FReg L)} {m : List Fl} (d : FReg L) (hs : s.length = 2 ^ M) (hH : Has d soft (2 ^ M) s) :
    (forUp 0 (2 ^ M) m fun i m => do
      let v ← rd soft (i + 2 ^ M)
      FlList.charge F v m) = chargeAllF F (2 ^ M) s m := by
  obtain ⟨h1, h2⟩ := hH
  refine forUp_congr fun j t _ hj => ?_
  rw [rd_of_lt (by omega), rd_of_lt (by omega), getElem_eq_getD _ d, getElem_eq_getD _ d, add_comm, h2 j (by omega)]

theorem listAgreeF (F : Rounding) (U : Nat) (d : FReg L) : Agree d (FlList.listWalk F U L) (listNF F U L) where
  len0 := by
    intro M x s r hs h
    obtain ⟨m, _, h⟩ := bind_some h
    cases h; simp
  len1 := by
    intro M x s r hs h
    simp only [listNF] at h
    split at h
    · obtain ⟨m, _, h⟩ := bind_some h
      cases h; rfl
    · cases h
  eff0 := by
    intro M off m s r hM hs hH hh h
    obtain ⟨mm, hmm, h⟩ := bind_some h
    cases h
    show Ok (FlList.listRate0 F U M off m) _
    unfold FlList.listRate0
    refine Ok.bind' (fill_upd (d := d) (l := List.replicate (2 ^ M) (phFV F L).one) (by simp) hh fun i a' hi _ => ?_) fun a' ha => ?_
    · rw [getD_replicate' _ _ _ hi]
    · rw [chargeLoopF_eq d hs hH, hmm, sb]
      exact Ok.some ⟨rfl, rfl, ha, rfl, fun i _ => rfl⟩
  eff1 := by
    intro M off m s r hM _ hs hH hh h
    cases M with
    | succ M => cases h
    | zero =>
    obtain ⟨v, rfl⟩ : ∃ v, s = [v] := List.length_eq_one_iff.1 hs
    obtain ⟨q, hq, h⟩ := bind_some h
    cases h
    obtain ⟨h1, h2⟩ := hH
    have hv : m.soft.getD 1 d = v := h2 0 (by simp)
    show Ok (FlList.listRate1 F U 0 off m) _
    unfold FlList.listRate1
    simp only [List.length_singleton, pow_zero] at h1
    rw [rd_of_lt (by omega), sb, getElem_eq_getD _ d, hv, hq, sb, wr_of_lt (by simpa using hh), sb]
    refine Ok.some ⟨rfl, rfl, ⟨by simp, fun i => ?_⟩, rfl, fun i _ => rfl⟩
    dsimp only
    rw [getD_set]
    have hh' : off < m.hard.length := by simpa using hh
    by_cases hi : off = i
    · subst hi; rw [if_pos ⟨rfl, hh'⟩, if_pos (by simp)]; simp
    · rw [if_neg (by tauto), if_neg (by simp; omega)]

theorem parAgreeF (F : Rounding) (U stride : Nat) (d : FReg L) : Agree d (FlList.parWalk F U L stride) (parNF F U L stride) where
  len0 := by
    intro M x s r hs h
    obtain ⟨m, _, h⟩ := bind_some h
    cases h; simp
  len1 := by
    intro M x s r hs h
    simp only [parNF] at h
    split at h
    · obtain ⟨m, _, h⟩ := bind_some h
      cases h; rfl
    · cases h
  eff0 := by
    intro M off m s r hM hs hH hh h
    obtain ⟨mm, hmm, h⟩ := bind_some h
    cases h
    show Ok (FlList.parRate0 F U M off m) _
    unfold FlList.parRate0
    refine Ok.bind' (fill_upd (d := d) (l := List.replicate (2 ^ M) (phFV F L).one) (by simp) hh fun i a' hi _ => ?_) fun a' ha => ?_
    · rw [getD_replicate' _ _ _ hi]
    · rw [chargeLoopF_eq d hs hH, hmm, sb]
      exact Ok.some ⟨rfl, rfl, ha, rfl, fun i _ => rfl⟩
  eff1 := by
    intro M off m s r hM _ hs hH hh h
    cases M with
    | succ M => cases h
    | zero =>
    obtain ⟨v, rfl⟩ : ∃ v, s = [v] := List.length_eq_one_iff.1 hs
    obtain ⟨q, hq, h⟩ := bind_some h
    cases h
    obtain ⟨h1, h2⟩ := hH
    have hv : m.soft.getD 1 d = v := h2 0 (by simp)
    show Ok (FlList.parRate1 F U stride 0 off m) _
    unfold FlList.parRate1
    simp only [List.length_singleton, pow_zero] at h1
    rw [rd_of_lt (by omega), sb, getElem_eq_getD _ d, hv, hq, sb, wr_of_lt (by simpa using hh), sb]
    refine Ok.some ⟨rfl, rfl, ⟨by simp, fun i => ?_⟩, rfl, fun i _ => rfl⟩
    dsimp only
    rw [getD_set]
    have hh' : off < m.hard.length := by simpa using hh
    by_cases hi : off = i
    · subst hi; rw [if_pos ⟨rfl, hh'⟩, if_pos (by simp)]; simp
    · rw [if_neg (by tauto), if_neg (by simp; omega)]

/-! ### What a lane has collected -/

/-- The symbols that lane `k` has collected in `n` rows. -/
def trF [NeZero L] (message : List (FReg L)) (maps : List (LMap L)) (n : Nat) (k : Fin L) : List Fl :=
  (List.range n).map fun i => message.getD i (oneF L) (anc maps n i k)

theorem trF_snoc [NeZero L] {message : List (FReg L)} {maps : List (LMap L)} {n : Nat} {h : FReg L} {m : LMap L} (h1 : n < message.length) (h2 : n < maps.length) (k : Fin L) :
    trF (message.set n h) (maps.set n m) (n + 1) k = trF message maps n (src m k) ++ [h k] := by
  unfold trF
  rw [List.range_succ, List.map_append]
  congr 1
  · refine List.map_congr_left fun i hi => ?_
    have hi := List.mem_range.1 hi
    simp only [anc]
    rw [if_neg (by omega), getD_set, if_neg (by omega), getD_set, if_pos ⟨rfl, h2⟩]
    refine congrArg _ ?_
    refine anc_congr (maps := maps.set n m) (maps' := maps) n (fun j hj => ?_) _ _
    rw [getD_set, if_neg (by omega)]
  · simp only [List.map_cons, List.map_nil, anc, if_true]
    rw [getD_set, if_pos ⟨rfl, h1⟩]

theorem trF_shuf [NeZero L] {message : List (FReg L)} {maps : List (LMap L)} {n : Nat} {m : LMap L} (hm : ∀ k, m k < L) (h1 : n < message.length) (h2 : n < maps.length) (k : Fin L) :
    trF (message.set n (shuf (.fin 0) (message.getD n (oneF L)) m)) (maps.set n (shuf 0 (maps.getD n fun _ => 0) m)) (n + 1) k = trF message maps (n + 1) ⟨m k, hm k⟩ := by
  rw [trF_snoc h1 h2]
  have : trF message maps (n + 1) ⟨m k, hm k⟩ = trF message maps n (src (maps.getD n fun _ => 0) ⟨m k, hm k⟩) ++ [message.getD n (oneF L) ⟨m k, hm k⟩] := by
    have h := trF_snoc (message := message) (maps := maps) (h := message.getD n (oneF L)) (m := maps.getD n fun _ => 0) h1 h2 ⟨m k, hm k⟩
    rwa [← getElem_eq_getD h1 (oneF L), ← getElem_eq_getD h2 (fun _ => 0), List.set_getElem_self, List.set_getElem_self, getElem_eq_getD h1 (oneF L), getElem_eq_getD h2 (fun _ => 0)] at h
  rw [this]
  congr 1
  · congr 1
    unfold src shuf
    simp only [hm k, dite_true]
  · simp only [shuf, hm k, dite_true]

/-- The last loop: afterwards lane `k` of the message is what the lane has collected. -/
theorem backLoopF_ok [NeZero L] {message : List (FReg L)} {maps : List (LMap L)} {n : Nat} (h0 : 0 < n) (h1 : n ≤ message.length) (h2 : n ≤ maps.length)
    (hv : ∀ i, i < n → ∀ k, maps.getD i (fun _ => 0) k < L) :
    ∃ out, FlList.backLoop message maps n = some out ∧ out.length = message.length ∧ (∀ i, n ≤ i → out.getD i (oneF L) = message.getD i (oneF L)) ∧
      ∀ k, (out.map fun r => r k).take n = trF message maps n k := by
  have key : Ok (FlList.backLoop message maps n) (fun out => out.length = message.length ∧ (∀ i, n ≤ i → out.getD i (oneF L) = message.getD i (oneF L)) ∧
      ∀ i, i < n → ∀ k, out.getD i (oneF L) k = message.getD i (oneF L) (anc maps n i k)) := by
    unfold FlList.backLoop
    have e : rdZ maps ((n : Int) - 1) = some (maps.getD (n - 1) fun _ => 0) := by
      unfold rdZ
      rw [if_neg (by omega), show ((n : Int) - 1).toNat = n - 1 by omega, List.getElem?_eq_getElem (by omega), getElem_eq_getD _ (fun _ => 0)]
    rw [e, sb]
    refine Ok.bind' (forDown_inv (fun j (s : List (FReg L) × LMap L) => s.1.length = message.length ∧ (∀ i, n ≤ i → s.1.getD i (oneF L) = message.getD i (oneF L)) ∧
      (∀ i, j ≤ i → i < n → ∀ k, s.1.getD i (oneF L) k = message.getD i (oneF L) (anc maps n i k)) ∧ (∀ i, i < j → s.1.getD i (oneF L) = message.getD i (oneF L)) ∧
      ∃ hs : ∀ k, s.2 k < L, 0 < j → ∀ k, anc maps n (j - 1) k = ⟨s.2 k, hs k⟩) (n - 1) _ ⟨rfl, fun _ _ => rfl, ?_, fun _ _ => rfl, ?_⟩ ?_) ?_
    · intro i hi1 hi2 k
      rw [show i = n - 1 by omega]
      obtain ⟨n, rfl⟩ : ∃ n', n = n' + 1 := ⟨n - 1, by omega⟩
      simp only [anc, Nat.add_sub_cancel, if_true]
    · refine ⟨fun k => hv _ (by omega) k, fun hj k => ?_⟩
      rw [anc_step _ _ _ _ (by omega), show n - 1 - 1 + 1 = n - 1 by omega, src_of (hv _ (by omega))]
      obtain ⟨n, rfl⟩ : ∃ n', n = n' + 1 := ⟨n - 1, by omega⟩
      simp only [anc, Nat.add_sub_cancel, if_true]
    · rintro j ⟨msg, acc⟩ hj ⟨s1, s2, s3, s4, hs, s5⟩
      dsimp only at s1 s2 s3 s4 hs s5 ⊢
      rw [zero_add, rd_of_lt (by omega), sb, wr_of_lt (by omega), sb, rd_of_lt (by omega), sb, getElem_eq_getD _ (oneF L), getElem_eq_getD _ (fun _ => 0)]
      have s5 := s5 (by omega)
      rw [Nat.add_sub_cancel] at s5
      refine Ok.some ⟨by rw [List.length_set, s1], fun i hi => ?_, fun i hi1 hi2 k => ?_, fun i hi => ?_, fun k => ?_, fun h k => ?_⟩
      · dsimp only
        rw [getD_set, if_neg (by omega), s2 i hi]
      · dsimp only
        rw [getD_set]
        by_cases h : j = i
        · subst h
          rw [if_pos ⟨rfl, by omega⟩, s5 k, s4 j (by omega)]
          simp [shuf, hs k]
        · rw [if_neg (by tauto), s3 i (by omega) hi2]
      · dsimp only
        rw [getD_set, if_neg (by omega), s4 i (by omega)]
      · dsimp only
        simp only [shuf, hs k, dite_true]
        exact hv _ (by omega) _
      · dsimp only
        rw [anc_step _ _ _ _ (by omega), show j - 1 + 1 = j by omega, s5 k, src_of (hv _ (by omega))]
        apply Fin.ext
        simp only [shuf, hs k, dite_true]
    · rintro ⟨msg, acc⟩ ⟨s1, s2, s3, -, -⟩
      exact Ok.some ⟨s1, s2, fun i hi k => s3 i (by omega) hi k⟩
  obtain ⟨out, e, o1, o2, o3⟩ := key
  refine ⟨out, e, o1, o2, fun k => ?_⟩
  refine ext_getD .nan (by simp [trF, o1, h1]) fun i hi => ?_
  have hi : i < n := by simp at hi; omega
  rw [getD_take_lt hi, trF, getD_range_map _ _ hi, ← o3 i hi, getD_map' _ _ (oneF L) Fl.nan (by omega)]

/-! ### The loops around the recursion -/

theorem ofInt_int {F : Rounding} {i : Int} (h : F.rep i) (hh : |(i : ℚ)| < F.huge) : FlList.ofInt F i = .fin i := Fl.ofQ_rep h hh

theorem metric0F_ok {F : Rounding} (h6 : F.rep 1000000) (hh : 1000000 < F.huge) {m : List Fl} (hL : 0 < L) (hm : m.length = L) :
    FlList.metric0 F L m = some (.fin 0 :: List.replicate (L - 1) (.fin 1000000)) := by
  have e0 : FlList.ofInt F 0 = .fin 0 := ofInt_int (i := 0) (by exact_mod_cast F.zero) (by have := F.one_lt; simp; linarith)
  have e1 : FlList.ofInt F 1000000 = .fin 1000000 := ofInt_int (i := 1000000) (by exact_mod_cast h6) (by rw [abs_of_nonneg (by norm_num)]; exact_mod_cast hh)
  have key : Ok (FlList.metric0 F L m) (fun m' => m'.length = L ∧ m'.getD 0 .nan = .fin 0 ∧ ∀ k, 0 < k → k < L → m'.getD k .nan = .fin 1000000) := by
    unfold FlList.metric0
    rw [wr_of_lt (by omega), sb, e0, e1]
    refine forUp_inv (fun j (a : List Fl) => a.length = L ∧ a.getD 0 .nan = .fin 0 ∧ ∀ k, 0 < k → k < j → a.getD k .nan = .fin 1000000) (by omega)
      ⟨by simp [hm], by rw [getD_set, if_pos ⟨rfl, by omega⟩], fun k _ _ => by omega⟩ ?_
    rintro j a hj0 hj ⟨a1, a2, a3⟩
    rw [wr_of_lt (by omega)]
    refine Ok.some ⟨by simp [a1], by rw [getD_set, if_neg (by omega), a2], fun k h1 h2 => ?_⟩
    rw [getD_set]
    by_cases h : j = k
    · rw [if_pos ⟨h, by omega⟩]
    · rw [if_neg (by tauto)]; exact a3 k h1 (by omega)
  obtain ⟨m', e, h1, h2, h3⟩ := key
  rw [e]
  congr 1
  refine ext_getD .nan (by simp; omega) fun i hi => ?_
  cases i with
  | zero => rw [h2]; rfl
  | succ i =>
    rw [h3 _ (by omega) (by omega), List.getD_cons_succ, getD_replicate' _ _ _ (by omega)]

theorem dupLoopF_ok {level : Nat} {codeword : List Fl} {soft : List (FReg L)} (hs : 2 * 2 ^ level ≤ soft.length) (hc : 2 ^ level ≤ codeword.length) :
    Ok (FlList.dupLoop level codeword soft) (fun a => a.length = soft.length ∧ Has (oneF L) a (2 ^ level) ((codeword.take (2 ^ level)).map fun v (_ : Fin L) => v)) := by
  have hl : ((codeword.take (2 ^ level)).map fun v (_ : Fin L) => v).length = 2 ^ level := by simp [hc]
  unfold FlList.dupLoop
  refine Ok.mono (fill_upd (d := oneF L) (o := 2 ^ level) hl (by omega) fun i a' hi _ => ?_) ?_
  · rw [rd_of_lt (by omega), sb, getD_map' _ _ Fl.nan (oneF L) (by simp; omega), getD_take_lt hi, getElem_eq_getD _ Fl.nan]
  · rintro a ⟨a1, a2⟩
    refine ⟨a1, by rw [hl]; omega, fun i hi => ?_⟩
    rw [hl] at hi
    rw [a2, if_pos (by rw [hl]; omega), Nat.add_sub_cancel_left]

/-- How often the sequence `m` changes up to position `i`. -/
def changesOf {P : Type} [DecidableEq P] (m : Nat → P) : Nat → Nat
  | 0 => 0
  | i + 1 => changesOf m i + if m i ≠ m (i + 1) then 1 else 0

theorem rankLoopF_ok {m : List (WithTop ℚ)} {rank : List Nat} (hm : m.length = L) (hr : L ≤ rank.length) :
    ∃ r, FlList.rankLoop L (m.map metFl) rank = some r ∧ r.length = rank.length ∧ (∀ i, i < L → r.getD i 0 = changesOf (fun j => m.getD j 0) i) ∧
      ∀ i, L ≤ i → r.getD i 0 = rank.getD i 0 := by
  have key : Ok (FlList.rankLoop L (m.map metFl) rank) (fun r => r.length = rank.length ∧ (∀ i, i < L → r.getD i 0 = changesOf (fun j => m.getD j 0) i) ∧
      ∀ i, L ≤ i → r.getD i 0 = rank.getD i 0) := by
    unfold FlList.rankLoop
    refine Ok.bind' (forUp_inv (fun j (s : List Nat × Nat) => s.1.length = rank.length ∧ (∀ i, i < j → s.1.getD i 0 = changesOf (fun j => m.getD j 0) i) ∧
      (∀ i, L ≤ i → s.1.getD i 0 = rank.getD i 0) ∧ s.2 = changesOf (fun j => m.getD j 0) (j - 1)) (Nat.zero_le _)
      ⟨rfl, fun i hi => by omega, fun _ _ => rfl, rfl⟩ ?_) ?_
    · rintro j ⟨a, r⟩ _ hj ⟨a1, a2, a3, a4⟩
      dsimp only at a1 a2 a3 a4 ⊢
      have e : (if 0 < j then do
          let a ← rd (m.map metFl) (j - 1)
          let b ← rd (m.map metFl) j
          return if FlList.ne a b then r + 1 else r
        else some r) = some (changesOf (fun j => m.getD j 0) j) := by
        cases j with
        | zero => rw [if_neg (by omega), a4]
        | succ j =>
          rw [if_pos (by omega), Nat.add_sub_cancel, rd_of_lt (by rw [List.length_map]; omega), sb, rd_of_lt (by rw [List.length_map]; omega), sb, List.getElem_map, List.getElem_map,
            getElem_eq_getD _ 0, getElem_eq_getD _ 0, a4, Nat.add_sub_cancel, metFl_ne]
          show some _ = some _
          congr 1
          rw [changesOf]
          by_cases hne : m.getD j 0 = m.getD (j + 1) 0
          · rw [if_neg (by simpa using hne), if_neg (by simpa using hne)]; rfl
          · rw [if_pos (by simpa using hne), if_pos hne]
      have h0 : (if 0 < j then do
          let a ← rd (m.map metFl) (j - 1)
          let b ← rd (m.map metFl) j
          return if FlList.ne a b then r + 1 else r
        else some r) >>= (fun r => do
          let rank ← wr a j r
          return (rank, r)) = (do
          let rank ← wr a j (changesOf (fun j => m.getD j 0) j)
          return (rank, changesOf (fun j => m.getD j 0) j)) := by rw [e, sb]
      refine cast (congrArg (fun o => Ok o _) h0.symm) ?_
      rw [wr_of_lt (by omega), sb]
      refine Ok.some ⟨by simp [a1], fun i hi => ?_, fun i hi => ?_, rfl⟩
      · dsimp only
        rw [getD_set]
        by_cases h : j = i
        · rw [if_pos ⟨h, by omega⟩, h]
        · rw [if_neg (by tauto)]; exact a2 i (by omega)
      · dsimp only
        rw [getD_set, if_neg (by omega), a3 i hi]
    · rintro ⟨a, r⟩ ⟨a1, a2, a3, -⟩
      exact Ok.some ⟨a1, a2, a3⟩
  obtain ⟨r, e, h⟩ := key
  exact ⟨r, e, h⟩

theorem rankOptF_ok {m : List (WithTop ℚ)} {rank : Option (List Nat)} (hm : m.length = L) (hr : ∀ r, rank = some r → L ≤ r.length) :
    ∃ rank', FlList.rankOpt L (m.map metFl) rank = some rank' ∧ (rank = none → rank' = none) ∧ ∀ r0, rank = some r0 → ∃ r', rank' = some r' ∧ r'.length = r0.length ∧
      (∀ i, i < L → r'.getD i 0 = changesOf (fun j => m.getD j 0) i) ∧ ∀ i, L ≤ i → r'.getD i 0 = r0.getD i 0 := by
  cases rank with
  | none => exact ⟨none, rfl, fun _ => rfl, fun r0 h => by cases h⟩
  | some r0 =>
    obtain ⟨r', e', b1, b2, b3⟩ := rankLoopF_ok (L := L) (m := m) (rank := r0) hm (hr _ rfl)
    refine ⟨some r', ?_, (fun h => by cases h), fun r1 h => ?_⟩
    · unfold FlList.rankOpt; dsimp only; rw [e']; rfl
    · cases h
      exact ⟨r', rfl, b1, b2, b3⟩

end Verif.Polar
