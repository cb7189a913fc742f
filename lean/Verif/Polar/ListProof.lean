import Verif.Polar.Fork
/- The nodes of the list decoder, and its last loop. -/
namespace Verif.Polar
open PolarHelper (I8 prodV maddV qmulV)
open Verif.RS (sb)
variable {L : Nat}

theorem forN_congr {σ : Type} {f g : Nat → σ → Option σ} : ∀ (n i : Nat) (s : σ), (∀ j s, i ≤ j → j < i + n → f j s = g j s) → forN n i s f = forN n i s g := by
  intro n
  induction n with
  | zero => intro i s _; rfl
  | succ n ih =>
    intro i s h
    simp only [forN]
    rw [h i s (by omega) (by omega)]
    congr 1
    funext s'
    exact ih _ _ fun j t h1 h2 => h j t (by omega) (by omega)

theorem forUp_congr {σ : Type} {f g : Nat → σ → Option σ} {lo hi : Nat} {s : σ} (h : ∀ j s, lo ≤ j → j < hi → f j s = g j s) : forUp lo hi s f = forUp lo hi s g :=
  forN_congr _ _ _ fun j t h1 h2 => h j t h1 (by omega)

/-- The loop over the soft values of a frozen node. -/
def chargeAll (n : Nat) (s : List (Reg L)) (m : List Int) : Option (List Int) := forUp 0 n m fun i m => do
  let v ← rd s i
  charge v m

theorem negs_take_succ (s : List Int) (j : Nat) (h : j < s.length) : negs (s.take (j + 1)) = negs (s.take j) + neg (s.getD j 0) := by
  unfold negs
  rw [List.take_add_one, List.getElem?_eq_getElem h, Option.toList_some, List.map_append, List.sum_append, ← getElem_eq_getD h]
  simp

theorem chargeAll_ok {n : Nat} {s : List (Reg L)} {m : List Int} {B : Int} (hs : s.length = n) (h8 : ∀ a ∈ s, ∀ k, I8 (a k)) (hm : Met L B m)
    (hB : B + 128 * n < 2 ^ 31) :
    ∃ m', chargeAll n s m = some m' ∧ Met L (B + 128 * n) m' ∧ ∀ k : Fin L, m'.getD k 0 = m.getD k 0 + negs (ln k s) := by
  have key : Ok (chargeAll n s m) (fun m' => Met L (B + 128 * n) m' ∧ ∀ k : Fin L, m'.getD k 0 = m.getD k 0 + negs ((ln k s).take n)) := by
    unfold chargeAll
    refine forUp_inv (fun j (a : List Int) => Met L (B + 128 * j) a ∧ ∀ k : Fin L, a.getD k 0 = m.getD k 0 + negs ((ln k s).take j))
      (Nat.zero_le _) ⟨by simpa using hm, fun k => by simp [negs]⟩ ?_
    rintro j a _ hj ⟨a1, a2⟩
    rw [rd_of_lt (by omega), sb]
    obtain ⟨m', e, h1, h2⟩ := charge_ok (fun k => h8 _ (List.getElem_mem (by omega : j < s.length)) k) a1 (by omega)
    rw [e]
    refine Ok.some ⟨by push_cast; rw [mul_add, ← add_assoc]; simpa using h1, fun k => ?_⟩
    rw [h2, a2, negs_take_succ _ _ (by simp [ln]; omega), add_assoc]
    congr 2
    rw [← getElem_eq_getD (by simp [ln]; omega)]
    simp [ln]
  obtain ⟨m', e, h1, h2⟩ := key
  refine ⟨m', e, h1, fun k => ?_⟩
  rw [h2, List.take_of_length_le (by simp [ln]; omega)]

/-- The node functions on lists. -/
def listN (L : Nat) : Nodes (Reg L) (LMap L) (LX L) where
  r0 M x s := do
    let m ← chargeAll (2 ^ M) s x.metric
    return ({ x with metric := m }, List.replicate (2 ^ M) (phV L).one, idMap L)
  r1 M x s := match M, s with
    | 0, [v] => do
      let r ← listFork x v
      return (r.1, [r.2.1], r.2.2)
    | _, _ => none

theorem chargeLoop_eq {M : Nat} {soft s : List (Reg L)} {m : List Int} (d : Reg L) (hs : s.length = 2 ^ M) (hH : Has d soft (2 ^ M) s) :
    (forUp 0 (2 ^ M) m fun i m => do
      let v ← rd soft (i + 2 ^ M)
      charge v m) = chargeAll (2 ^ M) s m := by
  obtain ⟨h1, h2⟩ := hH
  refine forUp_congr fun j t _ hj => ?_
  rw [rd_of_lt (by omega), rd_of_lt (by omega), getElem_eq_getD _ d, getElem_eq_getD _ d, add_comm, h2 j (by omega)]

theorem listAgree (d : Reg L) : Agree d (listWalk L) (listN L) where
  len0 := by
    intro M x s r hs h
    obtain ⟨m, _, h⟩ := bind_some h
    cases h; simp
  len1 := by
    intro M x s r hs h
    simp only [listN] at h
    split at h
    · obtain ⟨m, _, h⟩ := bind_some h
      cases h; rfl
    · cases h
  eff0 := by
    intro M off m s r hM hs hH hh h
    obtain ⟨mm, hmm, h⟩ := bind_some h
    cases h
    show Ok (listRate0 M off m) _
    unfold listRate0
    refine Ok.bind' (fill_upd (d := d) (l := List.replicate (2 ^ M) (phV L).one) (by simp) hh fun i a' hi _ => ?_) fun a' ha => ?_
    · rw [getD_replicate' _ _ _ hi]
    · rw [chargeLoop_eq d hs hH, hmm, sb]
      exact Ok.some ⟨rfl, rfl, ha, rfl, fun i _ => rfl⟩
  eff1 := by
    intro M off m s r hM _ hs hH hh h
    cases M with
    | succ M => cases h
    | zero =>
    obtain ⟨v, rfl⟩ : ∃ v, s = [v] := List.length_eq_one_iff.1 hs
    obtain ⟨q, hq, h⟩ := bind_some h
    cases h
    obtain ⟨h1, h2⟩ := hH
    have hv : m.soft.getD 1 d = v := h2 0 (by simp)
    show Ok (listRate1 0 off m) _
    unfold listRate1
    simp only [List.length_singleton, pow_zero] at h1
    rw [rd_of_lt (by omega), sb, getElem_eq_getD _ d, hv, hq, sb, wr_of_lt (by simpa using hh), sb]
    refine Ok.some ⟨rfl, rfl, ⟨by simp, fun i => ?_⟩, rfl, fun i _ => rfl⟩
    dsimp only
    rw [getD_set]
    have hh' : off < m.hard.length := by simpa using hh
    by_cases hi : off = i
    · subst hi; rw [if_pos ⟨rfl, hh'⟩, if_pos (by simp)]; simp
    · rw [if_neg (by tauto), if_neg (by simp; omega)]

/-! ### What a lane has collected -/

/-- The lane of row `i` that the lane `k` of `n` rows has come from. -/
def anc [NeZero L] (maps : List (LMap L)) : Nat → Nat → Fin L → Fin L
  | 0, _, k => k
  | n + 1, i, k => if i = n then k else anc maps n i (src (maps.getD n fun _ => 0) k)

def tr [NeZero L] (message : List (Reg L)) (maps : List (LMap L)) (n : Nat) (k : Fin L) : List Int :=
  (List.range n).map fun i => message.getD i 0 (anc maps n i k)

theorem anc_congr [NeZero L] {maps maps' : List (LMap L)} : ∀ n, (∀ i, i < n → maps.getD i (fun _ => 0) = maps'.getD i fun _ => 0) → ∀ i k, anc maps n i k = anc maps' n i k := by
  intro n
  induction n with
  | zero => intro _ i k; rfl
  | succ n ih =>
    intro h i k
    simp only [anc]
    rw [h n (by omega), ih (fun i hi => h i (by omega))]

theorem anc_step [NeZero L] (maps : List (LMap L)) : ∀ n i k, i + 1 < n → anc maps n i k = src (maps.getD (i + 1) fun _ => 0) (anc maps n (i + 1) k) := by
  intro n
  induction n with
  | zero => intro i k h; omega
  | succ n ih =>
    intro i k h
    simp only [anc]
    rw [if_neg (by omega)]
    by_cases hi : i + 1 = n
    · rw [if_pos hi, hi]
      subst hi
      simp only [anc, if_true]
    · rw [if_neg hi]
      exact ih _ _ (by omega)

theorem tr_snoc [NeZero L] {message : List (Reg L)} {maps : List (LMap L)} {n : Nat} {h : Reg L} {m : LMap L} (h1 : n < message.length) (h2 : n < maps.length) (k : Fin L) :
    tr (message.set n h) (maps.set n m) (n + 1) k = tr message maps n (src m k) ++ [h k] := by
  unfold tr
  rw [List.range_succ, List.map_append]
  congr 1
  · refine List.map_congr_left fun i hi => ?_
    have hi := List.mem_range.1 hi
    simp only [anc]
    rw [if_neg (by omega), getD_set, if_neg (by omega), getD_set, if_pos ⟨rfl, h2⟩]
    refine congrArg _ ?_
    refine anc_congr (maps := maps.set n m) (maps' := maps) n (fun j hj => ?_) _ _
    rw [getD_set, if_neg (by omega)]
  · simp only [List.map_cons, List.map_nil, anc, if_true]
    rw [getD_set, if_pos ⟨rfl, h1⟩]

/-- The last loop: afterwards lane `k` of the message is what the lane has collected. -/
theorem backLoop_ok [NeZero L] {message : List (Reg L)} {maps : List (LMap L)} {n : Nat} (h0 : 0 < n) (h1 : n ≤ message.length) (h2 : n ≤ maps.length)
    (hv : ∀ i, i < n → ∀ k, maps.getD i (fun _ => 0) k < L) :
    ∃ out, backLoop message maps n = some out ∧ out.length = message.length ∧ (∀ i, n ≤ i → out.getD i 0 = message.getD i 0) ∧
      ∀ k, (ln k out).take n = tr message maps n k := by
  have key : Ok (backLoop message maps n) (fun out => out.length = message.length ∧ (∀ i, n ≤ i → out.getD i 0 = message.getD i 0) ∧
      ∀ i, i < n → ∀ k, out.getD i 0 k = message.getD i 0 (anc maps n i k)) := by
    unfold backLoop
    have e : rdZ maps ((n : Int) - 1) = some (maps.getD (n - 1) fun _ => 0) := by
      unfold rdZ
      rw [if_neg (by omega), show ((n : Int) - 1).toNat = n - 1 by omega, List.getElem?_eq_getElem (by omega), getElem_eq_getD _ (fun _ => 0)]
    rw [e, sb]
    refine Ok.bind' (forDown_inv (fun j (s : List (Reg L) × LMap L) => s.1.length = message.length ∧ (∀ i, n ≤ i → s.1.getD i 0 = message.getD i 0) ∧
      (∀ i, j ≤ i → i < n → ∀ k, s.1.getD i 0 k = message.getD i 0 (anc maps n i k)) ∧ (∀ i, i < j → s.1.getD i 0 = message.getD i 0) ∧
      ∃ hs : ∀ k, s.2 k < L, 0 < j → ∀ k, anc maps n (j - 1) k = ⟨s.2 k, hs k⟩) (n - 1) _ ⟨rfl, fun _ _ => rfl, ?_, fun _ _ => rfl, ?_⟩ ?_) ?_
    · intro i hi1 hi2 k
      rw [show i = n - 1 by omega]
      obtain ⟨n, rfl⟩ : ∃ n', n = n' + 1 := ⟨n - 1, by omega⟩
      simp only [anc, Nat.add_sub_cancel, if_true]
    · refine ⟨fun k => hv _ (by omega) k, fun hj k => ?_⟩
      rw [anc_step _ _ _ _ (by omega), show n - 1 - 1 + 1 = n - 1 by omega, src_of (hv _ (by omega))]
      obtain ⟨n, rfl⟩ : ∃ n', n = n' + 1 := ⟨n - 1, by omega⟩
      simp only [anc, Nat.add_sub_cancel, if_true]
    · rintro j ⟨msg, acc⟩ hj ⟨s1, s2, s3, s4, hs, s5⟩
      dsimp only at s1 s2 s3 s4 hs s5 ⊢
      rw [zero_add, rd_of_lt (by omega), sb, wr_of_lt (by omega), sb, rd_of_lt (by omega), sb, getElem_eq_getD _ 0, getElem_eq_getD _ (fun _ => 0)]
      have s5 := s5 (by omega)
      rw [Nat.add_sub_cancel] at s5
      refine Ok.some ⟨by rw [List.length_set, s1], fun i hi => ?_, fun i hi1 hi2 k => ?_, fun i hi => ?_, fun k => ?_, fun h k => ?_⟩
      · dsimp only
        rw [getD_set, if_neg (by omega), s2 i hi]
      · dsimp only
        rw [getD_set]
        by_cases h : j = i
        · subst h
          rw [if_pos ⟨rfl, by omega⟩, s5 k, s4 j (by omega)]
          simp [shuf, hs k]
        · rw [if_neg (by tauto), s3 i (by omega) hi2]
      · dsimp only
        rw [getD_set, if_neg (by omega), s4 i (by omega)]
      · dsimp only
        simp only [shuf, hs k, dite_true]
        exact hv _ (by omega) _
      · dsimp only
        rw [anc_step _ _ _ _ (by omega), show j - 1 + 1 = j by omega, s5 k, src_of (hv _ (by omega))]
        apply Fin.ext
        simp only [shuf, hs k, dite_true]
    · rintro ⟨msg, acc⟩ ⟨s1, s2, s3, -, -⟩
      exact Ok.some ⟨s1, s2, fun i hi k => s3 i (by omega) hi k⟩
  obtain ⟨out, e, o1, o2, o3⟩ := key
  refine ⟨out, e, o1, o2, fun k => ?_⟩
  refine ext_getD 0 (by simp [ln, tr, o1, h1]) fun i hi => ?_
  have hi : i < n := by simp [ln] at hi; omega
  rw [getD_take_lt hi, tr, getD_range_map _ _ hi, ← o3 i hi, ln, getD_map' _ _ 0 0 (by omega)]

/-! ### The list decoder -/

/-- A lane collects its decisions, and each adds its penalty. -/
def listLf (L : Nat) [NeZero L] (msg0 : List (Reg L)) (cap : Nat) : Lf L (LX L) Nat (List Int) where
  ctl x := x.count
  tr x k := tr x.message x.maps x.count k
  met x k := x.metric.getD k 0
  step c := c + 1
  upd _ p b := p ++ [b]
  new _ _ μ s b := μ + pen s b
  good _ _ _ := True
  Inv n B x := Met L B x.metric ∧ x.message.length = msg0.length ∧ (∀ i, x.count ≤ i → x.message.getD i 0 = msg0.getD i 0) ∧ x.maps.length = cap ∧
    x.count + n ≤ msg0.length ∧ x.count + n ≤ cap ∧ ∀ i, i < x.count → ∀ k, x.maps.getD i (fun _ => 0) k < L

theorem pen_nonneg (s b : Int) : 0 ≤ pen s b := by unfold pen; omega

theorem pen_le {s b : Int} (hs : I8 s) (hb : Sym b) : pen s b ≤ 128 := by
  unfold pen I8 at *
  rcases hb with rfl | rfl <;> omega

theorem pen_sign {s b : Int} (hs : SignOf s b) : pen s b = 0 := by
  unfold pen SignOf at *
  rcases hs.2 with ⟨rfl, h⟩ | ⟨rfl, h⟩ <;> omega

theorem pen_wrong {s b b' : Int} (hb : Sym b) (hb' : Sym b') (hne : b' ≠ b) (hs : SignOf s b) : 1 ≤ pen s b' := by
  unfold pen SignOf at *
  rcases hb with rfl | rfl <;> rcases hb' with rfl | rfl <;> omega

theorem idMap_eq (h : L ≤ 256) : idMap L = fun k => k.val := by
  funext k
  unfold idMap
  exact Nat.mod_eq_of_lt (by omega)

theorem listLfOk [NeZero L] (hL : L ≤ 256) (msg0 : List (Reg L)) (cap : Nat) : LfOk (listLf L msg0 cap) (listWalk L) (listN L) where
  prod := rfl
  madd := rfl
  qmul := rfl
  vshuf := rfl
  comp := rfl
  sc1 := rfl
  r0 := by
    rintro M x s n B hM hs h8 ⟨i1, i2⟩ hB
    obtain ⟨m', e, h1, h2⟩ := chargeAll_ok (n := 2 ^ M) hs h8 i1 (by push_cast; exact hB)
    refine ⟨{ x with metric := m' }, ?_, ⟨by push_cast at h1; exact h1, i2⟩, rfl, rfl, h2⟩
    show (chargeAll (2 ^ M) s x.metric >>= fun m => _) = _
    rw [e, sb, idMap_eq hL]
    rfl
  r1 := by
    rintro x v n B h8 ⟨i1, i2, i3, i4, i5, i6, i7⟩ hB
    have hL0 : 0 < L := Nat.pos_of_ne_zero (NeZero.ne L)
    obtain ⟨f, ef, f1, f2⟩ := fork_ok h8 i1 hB
    obtain ⟨m', map, hrd, ep, p1, p2, p3, p4, p5, p6, p7, p8⟩ := prune_ok hL0 hL f1 i1.1
    have hm' : ∀ k : Fin L, m'.getD k 0 = x.metric.getD (map k) 0 + pen (v ⟨map k, p2 k⟩) (hrd k) := fun k => by
      rw [p4 k]; exact f2 ⟨map k, p2 k⟩ _ (p3 k)
    refine ⟨⟨m', x.message.set x.count hrd, x.maps.set x.count map, x.count + 1⟩, hrd, map, ?_, ?_, rfl, p3, p2, ?_, hm', p5, p6, ?_, ?_⟩
    · show (listFork x v >>= fun r => _) = _
      unfold listFork
      rw [ef, sb, ep, sb]
      dsimp only
      rw [wr_of_lt (by omega), sb, wr_of_lt (by omega), sb]
      rfl
    · refine ⟨⟨p1, fun k hk => ?_⟩, by rw [List.length_set, i2], fun i hi => ?_, by rw [List.length_set, i4], by dsimp only; omega, by dsimp only; omega, fun i hi k => ?_⟩
      · have := hm' ⟨k, hk⟩
        dsimp only at this ⊢
        rw [this]
        have := i1.2 (map ⟨k, hk⟩) (p2 _)
        have := pen_nonneg (v ⟨map ⟨k, hk⟩, p2 ⟨k, hk⟩⟩) (hrd ⟨k, hk⟩)
        have := pen_le (h8 ⟨map ⟨k, hk⟩, p2 ⟨k, hk⟩⟩) (p3 ⟨k, hk⟩)
        omega
      · dsimp only at hi ⊢
        rw [getD_set, if_neg (by omega), i3 i (by omega)]
      · dsimp only at hi ⊢
        rw [getD_set]
        by_cases h : x.count = i
        · rw [if_pos ⟨h, by omega⟩]; exact p2 k
        · rw [if_neg (by tauto)]; exact i7 i (by omega) k
    · intro k
      show tr (x.message.set x.count hrd) (x.maps.set x.count map) (x.count + 1) k = _
      rw [tr_snoc (by omega) (by omega), src_of p2]
      rfl
    · intro j b hb hno k
      show m'.getD k 0 ≤ x.metric.getD j 0 + pen (v j) b
      rw [← f2 j b hb]
      exact p7 j b hb hno k
    · rw [show (fun k => (src map k, hrd k, (listLf L msg0 cap).met ⟨m', x.message.set x.count hrd, x.maps.set x.count map, x.count + 1⟩ k)) =
        fun k : Fin L => (src map k, hrd k, m'.getD k 0) from rfl, p8]
      unfold Lf.conts
      congr 2
      funext j
      rw [f2 j 1 (Or.inl rfl), f2 j (-1) (Or.inr rfl)]
      rfl
  new_pos c p μ s b _ _ h := by
    show 1 ≤ μ + pen s b
    have := pen_nonneg s b
    omega
  new_good c p s b _ h := by
    show 0 + pen s b = 0
    rw [pen_sign h]; rfl
  new_bad c p s b b' hb hb' hne _ h := by
    show 1 ≤ 0 + pen s b'
    rw [zero_add]; exact pen_wrong hb hb' hne h

end Verif.Polar
