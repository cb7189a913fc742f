import Verif.Polar.ListTop
import Verif.Polar.Schedule
/- The nodes of the decoder of polar_parity_aided.hh. -/
namespace Verif.Polar
open PolarHelper (I8 prodV maddV qmulV)
open Verif.RS (sb)
variable {L : Nat}

/-- The node functions on lists. -/
def parN (L stride : Nat) : Nodes (Reg L) (LMap L) (PX L) where
  r0 M x s := do
    let m ← chargeAll (2 ^ M) s x.metric
    return ({ x with metric := m }, List.replicate (2 ^ M) (phV L).one, idMap L)
  r1 M x s := match M, s with
    | 0, [v] => do
      let r ← parFork stride x v
      return (r.1, [r.2.1], r.2.2)
    | _, _ => none

theorem parAgree (stride : Nat) (d : Reg L) : Agree d (parWalk L stride) (parN L stride) where
  len0 := by
    intro M x s r hs h
    obtain ⟨m, _, h⟩ := bind_some h
    cases h; simp
  len1 := by
    intro M x s r hs h
    simp only [parN] at h
    split at h
    · obtain ⟨m, _, h⟩ := bind_some h
      cases h; rfl
    · cases h
  eff0 := by
    intro M off m s r hM hs hH hh h
    obtain ⟨mm, hmm, h⟩ := bind_some h
    cases h
    show Ok (parRate0 M off m) _
    unfold parRate0
    refine Ok.bind' (fill_upd (d := d) (l := List.replicate (2 ^ M) (phV L).one) (by simp) hh fun i a' hi _ => ?_) fun a' ha => ?_
    · rw [getD_replicate' _ _ _ hi]
    · rw [chargeLoop_eq d hs hH, hmm, sb]
      exact Ok.some ⟨rfl, rfl, ha, rfl, fun i _ => rfl⟩
  eff1 := by
    intro M off m s r hM _ hs hH hh h
    cases M with
    | succ M => cases h
    | zero =>
    obtain ⟨v, rfl⟩ : ∃ v, s = [v] := List.length_eq_one_iff.1 hs
    obtain ⟨q, hq, h⟩ := bind_some h
    cases h
    obtain ⟨h1, h2⟩ := hH
    have hv : m.soft.getD 1 d = v := h2 0 (by simp)
    show Ok (parRate1 stride 0 off m) _
    unfold parRate1
    simp only [List.length_singleton, pow_zero] at h1
    rw [rd_of_lt (by omega), sb, getElem_eq_getD _ d, hv, hq, sb, wr_of_lt (by simpa using hh), sb]
    refine Ok.some ⟨rfl, rfl, ⟨by simp, fun i => ?_⟩, rfl, fun i _ => rfl⟩
    dsimp only
    rw [getD_set]
    have hh' : off < m.hard.length := by simpa using hh
    by_cases hi : off = i
    · subst hi; rw [if_pos ⟨rfl, hh'⟩, if_pos (by simp)]; simp
    · rw [if_neg (by tauto), if_neg (by simp; omega)]

/-- The symbol a parity position must have. -/
def sg (q : Int) : Int := if q < 0 then -1 else 1

theorem sg_sym {q : Int} (h : Sym q) : sg q = q := by rcases h with rfl | rfl <;> rfl

theorem forbid_ok {par : Reg L} {f : List Int} (hf : f.length = 2 * L) :
    ∃ f', forbid par f = some f' ∧ f'.length = 2 * L ∧ ∀ (k : Fin L) b, Sym b → f'.getD (cont k b) 0 = if b = sg (par k) then f.getD (cont k b) 0 else 1000000 := by
  have key : Ok (forbid par f) (fun f' => f'.length = 2 * L ∧ ∀ k : Fin L,
      f'.getD (2 * k) 0 = (if par k < 0 then 1000000 else f.getD (2 * k) 0) ∧
      f'.getD (2 * k + 1) 0 = (if par k < 0 then f.getD (2 * k + 1) 0 else 1000000)) := by
    unfold forbid
    refine Ok.mono (forUp_inv (fun j (a : List Int) => a.length = 2 * L ∧ ∀ k : Fin L,
      a.getD (2 * k) 0 = (if k.val < j ∧ par k < 0 then 1000000 else f.getD (2 * k) 0) ∧
      a.getD (2 * k + 1) 0 = (if k.val < j ∧ ¬ par k < 0 then 1000000 else f.getD (2 * k + 1) 0))
      (Nat.zero_le _) ⟨hf, fun k => by rw [if_neg (by omega), if_neg (by omega)]; exact ⟨rfl, rfl⟩⟩ ?_) ?_
    · rintro j a _ hj ⟨a1, a2⟩
      rw [lane_of par hj, sb]
      by_cases hs : par ⟨j, hj⟩ < 0
      · rw [if_pos hs, wr_of_lt (by omega)]
        refine Ok.some ⟨by rw [List.length_set, a1], fun k => ?_⟩
        simp only [getD_set]
        by_cases hk : k.val = j
        · subst hk
          rw [if_pos (show 2 * k.val = 2 * k.val ∧ 2 * k.val < a.length by omega), if_neg (show ¬ (2 * k.val = 2 * k.val + 1 ∧ 2 * k.val < a.length) by omega),
            if_pos ⟨by omega, hs⟩, (a2 k).2, if_neg (by omega), if_neg (fun h => h.2 hs)]
          exact ⟨rfl, rfl⟩
        · rw [if_neg (show ¬ (2 * j = 2 * k.val ∧ 2 * j < a.length) by omega), if_neg (show ¬ (2 * j = 2 * k.val + 1 ∧ 2 * j < a.length) by omega)]
          simp only [show k.val < j + 1 ↔ k.val < j by omega]
          exact a2 k
      · rw [if_neg hs, wr_of_lt (by omega)]
        refine Ok.some ⟨by rw [List.length_set, a1], fun k => ?_⟩
        simp only [getD_set]
        by_cases hk : k.val = j
        · subst hk
          rw [if_neg (show ¬ (2 * k.val + 1 = 2 * k.val ∧ 2 * k.val + 1 < a.length) by omega), if_pos (show 2 * k.val + 1 = 2 * k.val + 1 ∧ 2 * k.val + 1 < a.length by omega),
            if_neg (fun h => hs h.2), (a2 k).1, if_neg (by omega), if_pos ⟨by omega, hs⟩]
          exact ⟨rfl, rfl⟩
        · rw [if_neg (show ¬ (2 * j + 1 = 2 * k.val ∧ 2 * j + 1 < a.length) by omega), if_neg (show ¬ (2 * j + 1 = 2 * k.val + 1 ∧ 2 * j + 1 < a.length) by omega)]
          simp only [show k.val < j + 1 ↔ k.val < j by omega]
          exact a2 k
    · rintro a ⟨a1, a2⟩
      refine ⟨a1, fun k => ?_⟩
      obtain ⟨h1, h2⟩ := a2 k
      rw [h1, h2]
      have := k.isLt
      by_cases h : par k < 0
      · rw [if_pos ⟨this, h⟩, if_pos h, if_neg (fun q => q.2 h), if_pos h]; exact ⟨rfl, rfl⟩
      · rw [if_neg (fun q => h q.2), if_neg h, if_pos ⟨this, h⟩, if_neg h]; exact ⟨rfl, rfl⟩
  obtain ⟨f', e, h1, h2⟩ := key
  refine ⟨f', e, h1, fun k b hb => ?_⟩
  obtain ⟨h3, h4⟩ := h2 k
  unfold sg
  rcases hb with rfl | rfl
  · rw [cont_one, h3]
    by_cases h : par k < 0
    · rw [if_pos h, if_pos h, if_neg (by decide)]
    · rw [if_neg h, if_neg h, if_pos rfl]
  · rw [cont_neg, h4]
    by_cases h : par k < 0
    · rw [if_pos h, if_pos h, if_pos rfl]
    · rw [if_neg h, if_neg h, if_neg (by decide)]

/-- Shuffling the last row along with its map only renames the lanes. -/
theorem tr_shuf [NeZero L] {message : List (Reg L)} {maps : List (LMap L)} {n : Nat} {m : LMap L} (hm : ∀ k, m k < L) (h1 : n < message.length) (h2 : n < maps.length) (k : Fin L) :
    tr (message.set n (shuf 0 (message.getD n 0) m)) (maps.set n (shuf 0 (maps.getD n fun _ => 0) m)) (n + 1) k = tr message maps (n + 1) ⟨m k, hm k⟩ := by
  rw [tr_snoc h1 h2]
  have : tr message maps (n + 1) ⟨m k, hm k⟩ = tr message maps n (src (maps.getD n fun _ => 0) ⟨m k, hm k⟩) ++ [message.getD n 0 ⟨m k, hm k⟩] := by
    have h := tr_snoc (message := message) (maps := maps) (h := message.getD n 0) (m := maps.getD n fun _ => 0) h1 h2 ⟨m k, hm k⟩
    rwa [← getElem_eq_getD h1 0, ← getElem_eq_getD h2 (fun _ => 0), List.set_getElem_self, List.set_getElem_self, getElem_eq_getD h1 0, getElem_eq_getD h2 (fun _ => 0)] at h
  rw [this]
  congr 1
  · congr 1
    unfold src shuf
    simp only [hm k, dite_true]
  · simp only [shuf, hm k, dite_true]

/-- The message symbols among the next `n` symbols. -/
def need (stride : Nat) : Nat → Nat → Nat
  | _, 0 => 0
  | c, n + 1 => if c ≠ 0 then 1 + need stride (c - 1) n else need stride stride n

theorem need_eq (first stride : Nat) : ∀ n r, dataBelow first stride r + need stride (cAt first stride r) n = dataBelow first stride (r + n) := by
  intro n
  induction n with
  | zero => intro r; rfl
  | succ n ih =>
    intro r
    have := ih (r + 1)
    rw [dataBelow_succ, cAt_succ, show r + 1 + n = r + (n + 1) by omega] at this
    rw [need]
    split <;> rename_i h <;> simp only [h, if_true, if_false, ne_eq, not_true, not_false_iff] at this <;> omega

/-- A lane collects its message symbols and the parity since the last parity symbol. -/
def parLf (L stride : Nat) [NeZero L] (msg0 : List (Reg L)) (cap : Nat) : Lf L (PX L) (Nat × Nat) (List Int × Int) where
  ctl x := (x.index, x.count)
  tr x k := (tr x.message x.maps x.index k, x.parity k)
  met x k := x.metric.getD k 0
  step c := if c.2 ≠ 0 then (c.1 + 1, c.2 - 1) else (c.1, stride)
  upd c p b := if c.2 ≠ 0 then (p.1 ++ [b], qmulV p.2 b) else (p.1, 1)
  new c p μ s b := if c.2 ≠ 0 ∨ b = sg p.2 then μ + pen s b else 1000000
  good c p b := c.2 ≠ 0 ∨ b = sg p.2
  Inv n B x := 1000000 ≤ B ∧ Met L B x.metric ∧ x.message.length = msg0.length ∧ (∀ i, x.index ≤ i → x.message.getD i 0 = msg0.getD i 0) ∧ x.maps.length = cap ∧
    x.index + need stride x.count n ≤ msg0.length ∧ x.index + need stride x.count n ≤ cap ∧ (∀ i, i < x.index → ∀ k, x.maps.getD i (fun _ => 0) k < L) ∧
    (1 ≤ x.index ∨ 1 ≤ x.count)

theorem rdZ_pred {α : Type} {l : List α} {n : Nat} (d : α) (h0 : 1 ≤ n) (h : n ≤ l.length) : rdZ l ((n : Int) - 1) = some (l.getD (n - 1) d) := by
  unfold rdZ
  rw [if_neg (by omega), show ((n : Int) - 1).toNat = n - 1 by omega, List.getElem?_eq_getElem (by omega), getElem_eq_getD _ d]

theorem wrZ_pred {α : Type} {l : List α} {n : Nat} {v : α} (h0 : 1 ≤ n) (h : n ≤ l.length) : wrZ l ((n : Int) - 1) v = some (l.set (n - 1) v) := by
  unfold wrZ
  rw [if_neg (by omega), show ((n : Int) - 1).toNat = n - 1 by omega, wr_of_lt (by omega)]

theorem parLfOk [NeZero L] (stride : Nat) (hL : L ≤ 256) (msg0 : List (Reg L)) (cap : Nat) : LfOk (parLf L stride msg0 cap) (parWalk L stride) (parN L stride) where
  prod := rfl
  madd := rfl
  qmul := rfl
  vshuf := rfl
  comp := rfl
  sc1 := rfl
  r0 := by
    rintro M x s n B hM hs h8 ⟨i0, i1, i2⟩ hB
    obtain ⟨m', e, h1, h2⟩ := chargeAll_ok (n := 2 ^ M) hs h8 i1 (by push_cast; exact hB)
    refine ⟨{ x with metric := m' }, ?_, ⟨by have : (0 : Int) < 2 ^ M := by positivity
                                             omega, by push_cast at h1; exact h1, i2⟩, rfl, rfl, h2⟩
    show (chargeAll (2 ^ M) s x.metric >>= fun m => _) = _
    rw [e, sb, idMap_eq hL]
    rfl
  r1 := by
    rintro x v n B h8 ⟨i0, i1, i2, i3, i4, i5, i6, i7, i8⟩ hB
    have hL0 : 0 < L := Nat.pos_of_ne_zero (NeZero.ne L)
    obtain ⟨f0, ef0, g1, g2⟩ := fork_ok h8 i1 hB
    obtain ⟨f, ef, f1, f2⟩ : ∃ f, (if x.count = 0 then forbid x.parity f0 else some f0) = some f ∧ f.length = 2 * L ∧ ∀ (k : Fin L) b, Sym b →
        f.getD (cont k b) 0 = if x.count ≠ 0 ∨ b = sg (x.parity k) then x.metric.getD k 0 + pen (v k) b else 1000000 := by
      by_cases hc : x.count = 0
      · obtain ⟨f, e, h1, h2⟩ := forbid_ok (par := x.parity) g1
        refine ⟨f, by rw [if_pos hc, e], h1, fun k b hb => ?_⟩
        rw [h2 k b hb, g2 k b hb]
        simp [hc]
      · refine ⟨f0, by rw [if_neg hc], g1, fun k b hb => ?_⟩
        rw [g2 k b hb, if_pos (Or.inl hc)]
    obtain ⟨m', map, hrd, ep, p1, p2, p3, p4, p5, p6, p7, p8⟩ := prune_ok hL0 hL f1 i1.1
    have hm' : ∀ k : Fin L, m'.getD k 0 = if x.count ≠ 0 ∨ hrd k = sg (x.parity ⟨map k, p2 k⟩) then x.metric.getD (map k) 0 + pen (v ⟨map k, p2 k⟩) (hrd k) else 1000000 := fun k => by
      rw [p4 k]; exact f2 ⟨map k, p2 k⟩ _ (p3 k)
    have hkeep : List.ofFn (fun k : Fin L => (src map k, hrd k, m'.getD k 0)) = keep L ((parLf L stride msg0 cap).conts x v) := by
      rw [p8]
      unfold Lf.conts
      congr 2
      funext j
      rw [f2 j 1 (Or.inl rfl), f2 j (-1) (Or.inr rfl)]
      rfl
    have hMet : Met L (B + 128) m' := by
      refine ⟨p1, fun k hk => ?_⟩
      have := hm' ⟨k, hk⟩
      dsimp only at this ⊢
      rw [this]
      have := i1.2 (map ⟨k, hk⟩) (p2 _)
      have := pen_nonneg (v ⟨map ⟨k, hk⟩, p2 ⟨k, hk⟩⟩) (hrd ⟨k, hk⟩)
      have := pen_le (h8 ⟨map ⟨k, hk⟩, p2 ⟨k, hk⟩⟩) (p3 ⟨k, hk⟩)
      split <;> omega
    by_cases hc : x.count = 0
    · have hi : 1 ≤ x.index := by omega
      rw [hc] at i5 i6
      simp only [need, ne_eq, not_true, if_false] at i5 i6
      refine ⟨⟨m', x.message.set (x.index - 1) (shuf 0 (x.message.getD (x.index - 1) 0) map), x.maps.set (x.index - 1) (shuf 0 (x.maps.getD (x.index - 1) fun _ => 0) map),
        x.index, (phV L).one, stride⟩, hrd, map, ?_, ?_, ?_, p3, p2, ?_, hm', p5, p6, ?_, hkeep⟩
      · show (parFork stride x v >>= fun r => _) = _
        unfold parFork
        rw [ef0, sb, ef, sb, ep, sb]
        dsimp only
        rw [if_neg (by simp [hc]), rdZ_pred 0 hi (by omega), sb, wrZ_pred hi (by omega), sb, rdZ_pred (fun _ => 0) hi (by omega), sb, wrZ_pred hi (by omega), sb, if_pos hc]
        rfl
      · refine ⟨by omega, hMet, by rw [List.length_set, i2], fun i hi' => ?_, by rw [List.length_set, i4], i5, i6, fun i hi' k => ?_, Or.inl hi⟩
        · dsimp only at hi' ⊢
          rw [getD_set, if_neg (by omega), i3 i hi']
        · dsimp only at hi' ⊢
          rw [getD_set]
          by_cases h : x.index - 1 = i
          · rw [if_pos ⟨h, by omega⟩]
            simp only [shuf, p2 k, dite_true]
            exact i7 _ (by omega) _
          · rw [if_neg (by tauto)]; exact i7 i hi' k
      · simp [parLf, hc]
      · intro k
        simp only [parLf, hc, ne_eq, not_true, if_false]
        refine Prod.ext ?_ rfl
        dsimp only
        have := tr_shuf (message := x.message) (maps := x.maps) (n := x.index - 1) p2 (by omega) (by omega) k
        rwa [show x.index - 1 + 1 = x.index by omega] at this
      · intro j b hb hno k
        have := p7 j b hb hno k
        rw [f2 j b hb] at this
        exact this
    · have hc' : x.count ≠ 0 := hc
      simp only [need, if_pos hc'] at i5 i6
      refine ⟨⟨m', x.message.set x.index hrd, x.maps.set x.index map, x.index + 1, (phV L).qmul (shuf 0 x.parity map) hrd, x.count - 1⟩, hrd, map, ?_, ?_, ?_, p3, p2, ?_, hm', p5, p6, ?_, hkeep⟩
      · show (parFork stride x v >>= fun r => _) = _
        unfold parFork
        rw [ef0, sb, ef, sb, ep, sb]
        dsimp only
        rw [if_pos hc', wr_of_lt (by omega), sb, wr_of_lt (by omega), sb, if_neg hc]
        rfl
      · refine ⟨by omega, hMet, by rw [List.length_set, i2], fun i hi' => ?_, by rw [List.length_set, i4], by dsimp only; omega, by dsimp only; omega, fun i hi' k => ?_, Or.inl (by dsimp only; omega)⟩
        · dsimp only at hi' ⊢
          rw [getD_set, if_neg (by omega), i3 i (by omega)]
        · dsimp only at hi' ⊢
          rw [getD_set]
          by_cases h : x.index = i
          · rw [if_pos ⟨h, by omega⟩]; exact p2 k
          · rw [if_neg (by tauto)]; exact i7 i (by omega) k
      · simp [parLf, hc]
      · intro k
        simp only [parLf, if_pos hc']
        refine Prod.ext ?_ ?_
        · dsimp only
          rw [tr_snoc (by omega) (by omega), src_of p2]
        · show qmulV (shuf 0 x.parity map k) (hrd k) = _
          simp only [shuf, p2 k, dite_true]
      · intro j b hb hno k
        have := p7 j b hb hno k
        rw [f2 j b hb] at this
        exact this
  new_pos c p μ s b _ _ h := by
    simp only [parLf]
    have := pen_nonneg s b
    split <;> omega
  new_good c p s b hg h := by
    simp only [parLf] at hg ⊢
    rw [if_pos hg, pen_sign h]; rfl
  new_bad c p s b b' hb hb' hne _ h := by
    simp only [parLf]
    have := pen_wrong hb hb' hne h
    split <;> omega

end Verif.Polar
