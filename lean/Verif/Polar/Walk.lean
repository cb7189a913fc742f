import Verif.Polar.Transform
/- The recursion on arrays computes the recursion on lists. -/
namespace Verif.Polar
open Verif.RS (sb)
variable {τ μ X : Type}

/-- The node functions and the recursion on lists: a node gets its soft values and returns its hard
values. -/
structure Nodes (τ μ X : Type) where
  r0 : Nat → X → List τ → Option (X × List τ × μ)
  r1 : Nat → X → List τ → Option (X × List τ × μ)

def childF (W : Walk τ μ X) (N : Nodes τ μ X) (rec : Nat → List Bool → X → List τ → Option (X × List τ × μ))
    (M : Nat) (f : List Bool) (x : X) (s : List τ) : Option (X × List τ × μ) :=
  if M ≤ 5 ∧ f.all (fun b => b) = true then N.r0 M x s
  else if (M = 0 ∨ (M ≤ 5 ∧ W.sc1 = true)) ∧ f.all (fun b => !b) = true then N.r1 M x s
  else rec M f x s

def zip3 (g : τ → τ → τ → τ) (a b c : List τ) : List τ := List.zipWith (fun p z => g p.1 p.2 z) (List.zip a b) c

/-- The recursion on lists. -/
def treeF (W : Walk τ μ X) (N : Nodes τ μ X) : Nat → List Bool → X → List τ → Option (X × List τ × μ)
  | 0, _, _, _ => none
  | M + 1, f, x, s => do
    let l ← childF W N (fun _ => treeF W N M) M (f.take (2 ^ M)) x (List.zipWith W.prod (s.take (2 ^ M)) (s.drop (2 ^ M)))
    let r ← childF W N (fun _ => treeF W N M) M (f.drop (2 ^ M)) l.1
      (zip3 W.madd l.2.1 ((s.take (2 ^ M)).map (W.vshuf · l.2.2)) ((s.drop (2 ^ M)).map (W.vshuf · l.2.2)))
    return (r.1, List.zipWith W.qmul (l.2.1.map (W.vshuf · r.2.2)) r.2.1 ++ r.2.1, W.comp l.2.2 r.2.2)

/-- `a` contains `l` from position `o`. -/
def Has (d : τ) (a : List τ) (o : Nat) (l : List τ) : Prop :=
  o + l.length ≤ a.length ∧ ∀ i, i < l.length → a.getD (o + i) d = l.getD i d

/-- `a'` is `a` with `l` written at position `o`. -/
def Upd (d : τ) (a a' : List τ) (o : Nat) (l : List τ) : Prop :=
  a'.length = a.length ∧ ∀ i, a'.getD i d = if o ≤ i ∧ i < o + l.length then l.getD (i - o) d else a.getD i d

/-- What a node does to the memory. -/
def Eff (d : τ) (M off : Nat) (s : Mem τ X) (r : X × List τ × μ) (t : Mem τ X × μ) : Prop :=
  t.1.x = r.1 ∧ t.2 = r.2.2 ∧ Upd d s.hard t.1.hard off r.2.1 ∧ t.1.soft.length = s.soft.length ∧
    ∀ i, 2 ^ M ≤ i → t.1.soft.getD i d = s.soft.getD i d

/-- The node functions on arrays do what those on lists say. -/
structure Agree (d : τ) (W : Walk τ μ X) (N : Nodes τ μ X) : Prop where
  len0 : ∀ M x s r, s.length = 2 ^ M → N.r0 M x s = some r → r.2.1.length = 2 ^ M
  len1 : ∀ M x s r, s.length = 2 ^ M → N.r1 M x s = some r → r.2.1.length = 2 ^ M
  eff0 : ∀ M off (m : Mem τ X) s r, M ≤ 5 → s.length = 2 ^ M → Has d m.soft (2 ^ M) s → off + 2 ^ M ≤ m.hard.length →
    N.r0 M m.x s = some r → Ok (W.rate0 M off m) (Eff d M off m r)
  eff1 : ∀ M off (m : Mem τ X) s r, M ≤ 5 → (M = 0 ∨ W.sc1 = true) → s.length = 2 ^ M → Has d m.soft (2 ^ M) s →
    off + 2 ^ M ≤ m.hard.length → N.r1 M m.x s = some r → Ok (W.rate1 M off m) (Eff d M off m r)

theorem bind_some {α β : Type} {o : Option α} {f : α → Option β} {b : β} (h : (o >>= f) = some b) : ∃ a, o = some a ∧ f a = some b := by
  cases o with
  | none => cases h
  | some a => exact ⟨a, rfl, h⟩

theorem zip3_length (g : τ → τ → τ → τ) (a b c : List τ) : (zip3 g a b c).length = min (min a.length b.length) c.length := by
  simp [zip3]

theorem childF_len {d : τ} {W : Walk τ μ X} {N : Nodes τ μ X} (hA : Agree d W N) {rec : Nat → List Bool → X → List τ → Option (X × List τ × μ)} {M : Nat}
    (hrec : ∀ f x s r, s.length = 2 ^ M → rec M f x s = some r → r.2.1.length = 2 ^ M)
    {f : List Bool} {x : X} {s : List τ} {r : X × List τ × μ} (hs : s.length = 2 ^ M) (h : childF W N rec M f x s = some r) :
    r.2.1.length = 2 ^ M := by
  unfold childF at h
  split at h
  · exact hA.len0 _ _ _ _ hs h
  · split at h
    · exact hA.len1 _ _ _ _ hs h
    · exact hrec _ _ _ _ hs h

theorem treeF_len {d : τ} {W : Walk τ μ X} {N : Nodes τ μ X} (hA : Agree d W N) : ∀ (M : Nat) (f : List Bool) (x : X) (s : List τ) (r : X × List τ × μ),
    s.length = 2 ^ M → treeF W N M f x s = some r → r.2.1.length = 2 ^ M := by
  intro M
  induction M with
  | zero => intro f x s r _ h; cases h
  | succ M ih =>
    intro f x s r hs h
    have e : 2 ^ (M + 1) = 2 ^ M + 2 ^ M := by rw [pow_succ]; ring
    rw [treeF] at h
    obtain ⟨l, h1, h⟩ := bind_some h
    obtain ⟨t, h2, h⟩ := bind_some h
    have hl := childF_len hA (fun f x s r => ih f x s r) (by simp [hs, e]) h1
    have ht := childF_len hA (fun f x s r => ih f x s r) (by simp [zip3_length, hs, e, hl]) h2
    cases h
    simp [hl, ht, e]

/-- The step shared by all levels: a node from its two children. -/
theorem node_ok {d : τ} {W : Walk τ μ X} {N : Nodes τ μ X} (hA : Agree d W N) {M off : Nat} {f : List Bool} {m : Mem τ X} {s : List τ}
    {r : X × List τ × μ} (hs : s.length = 2 ^ (M + 1)) (hH : Has d m.soft (2 ^ (M + 1)) s) (hh : off + 2 ^ (M + 1) ≤ m.hard.length)
    (hr : treeF W N (M + 1) f m.x s = some r)
    (cl cr : Mem τ X → Option (Mem τ X × μ))
    (hcl : ∀ (m' : Mem τ X) (s' : List τ) r', s'.length = 2 ^ M → Has d m'.soft (2 ^ M) s' → off + 2 ^ M ≤ m'.hard.length →
      childF W N (fun _ => treeF W N M) M (f.take (2 ^ M)) m'.x s' = some r' → Ok (cl m') (Eff d M off m' r'))
    (hcr : ∀ (m' : Mem τ X) (s' : List τ) r', s'.length = 2 ^ M → Has d m'.soft (2 ^ M) s' → off + 2 ^ M + 2 ^ M ≤ m'.hard.length →
      childF W N (fun _ => treeF W N M) M (f.drop (2 ^ M)) m'.x s' = some r' → Ok (cr m') (Eff d M (off + 2 ^ M) m' r')) :
    Ok (do
      let s ← fLoop W M m
      let l ← cl s
      let s ← gLoop W M off l.2 l.1
      let r ← cr s
      let s ← cLoop W M off r.2 r.1
      return (s, W.comp l.2 r.2)) (Eff d (M + 1) off m r) := by
  have e : 2 ^ (M + 1) = 2 ^ M + 2 ^ M := by rw [pow_succ]; ring
  have h0 : 0 < 2 ^ M := by positivity
  rw [treeF] at hr
  obtain ⟨l, h1, hr⟩ := bind_some hr
  obtain ⟨t, h2, hr⟩ := bind_some hr
  cases hr
  obtain ⟨hH1, hH2⟩ := hH
  rw [hs] at hH1 hH2
  have hlen1 : (List.zipWith W.prod (s.take (2 ^ M)) (s.drop (2 ^ M))).length = 2 ^ M := by simp [hs, e]
  have hl := childF_len hA (treeF_len hA M) hlen1 h1
  have hlen2 : (zip3 W.madd l.2.1 ((s.take (2 ^ M)).map (W.vshuf · l.2.2)) ((s.drop (2 ^ M)).map (W.vshuf · l.2.2))).length = 2 ^ M := by
    simp [zip3_length, hs, e, hl]
  have ht := childF_len hA (treeF_len hA M) hlen2 h2
  -- the first loop
  have hF : Ok (fLoop W M m) (fun s' => s'.x = m.x ∧ s'.hard = m.hard ∧
      Upd d m.soft s'.soft (2 ^ M) (List.zipWith W.prod (s.take (2 ^ M)) (s.drop (2 ^ M)))) := by
    unfold fLoop
    refine Ok.bind' (forUp_inv (fun j (a : List τ) => a.length = m.soft.length ∧ ∀ i, a.getD i d = if 2 ^ M ≤ i ∧ i < 2 ^ M + j
      then (List.zipWith W.prod (s.take (2 ^ M)) (s.drop (2 ^ M))).getD (i - 2 ^ M) d else m.soft.getD i d) (Nat.zero_le _)
      ⟨rfl, fun i => by rw [if_neg (by omega)]⟩ ?_) ?_
    · rintro j a _ hj ⟨a1, a2⟩
      rw [rd_of_lt (by omega), sb, getElem_eq_getD _ d, rd_of_lt (by omega), sb, getElem_eq_getD _ d, wr_of_lt (by omega)]
      have ea : a.getD (j + 2 ^ (M + 1)) d = s.getD j d := by
        rw [a2, if_neg (by omega), add_comm, hH2 j (by omega)]
      have eb : a.getD (j + 2 ^ M + 2 ^ (M + 1)) d = s.getD (2 ^ M + j) d := by
        rw [a2, if_neg (by omega), add_comm, add_comm j, hH2 (2 ^ M + j) (by omega)]
      rw [ea, eb]
      refine Ok.some ⟨by rw [List.length_set, a1], fun i => ?_⟩
      rw [getD_set]
      by_cases h3 : j + 2 ^ M = i
      · subst h3
        rw [if_pos ⟨rfl, by omega⟩, if_pos (by omega), Nat.add_sub_cancel, ← getElem_eq_getD (by omega), ← getElem_eq_getD (by omega),
          ← getElem_eq_getD (by omega)]
        simp
      · rw [if_neg (by tauto), a2]
        by_cases h4 : 2 ^ M ≤ i ∧ i < 2 ^ M + j
        · rw [if_pos h4, if_pos (by omega)]
        · rw [if_neg h4, if_neg (by omega)]
    · rintro a ⟨a1, a2⟩
      refine Ok.some ⟨rfl, rfl, a1, fun i => ?_⟩
      rw [a2, hlen1]
  refine Ok.bind' hF ?_
  rintro ⟨x1, hd1, sf1⟩ ⟨hx1, hh1, u1, u2⟩
  dsimp only at hx1 hh1 u1 u2
  subst hx1 hh1
  rw [hlen1] at u2
  -- the left child
  refine Ok.bind' (hcl _ _ l hlen1 ⟨by dsimp only; omega, fun i hi => ?_⟩ (by dsimp only; omega) h1) ?_
  · dsimp only
    rw [u2, if_pos (by omega), Nat.add_sub_cancel_left]
  rintro ⟨⟨x2, hd2, sf2⟩, lm⟩ ⟨hx2, hm2, ⟨v1, v2⟩, v3, v4⟩
  dsimp only at hx2 hm2 v1 v2 v3 v4 ⊢
  subst hx2 hm2
  rw [hl] at v2
  have hsf2 : ∀ i, 2 ^ (M + 1) ≤ i → sf2.getD i d = m.soft.getD i d := by
    intro i hi
    rw [v4 i (by omega), u2, if_neg (by omega)]
  -- the second loop
  have hG : Ok (gLoop W M off l.2.2 ⟨l.1, hd2, sf2⟩) (fun s' => s'.x = l.1 ∧ s'.hard = hd2 ∧
      Upd d sf2 s'.soft (2 ^ M) (zip3 W.madd l.2.1 ((s.take (2 ^ M)).map (W.vshuf · l.2.2)) ((s.drop (2 ^ M)).map (W.vshuf · l.2.2)))) := by
    unfold gLoop
    dsimp only
    refine Ok.bind' (forUp_inv (fun j (a : List τ) => a.length = sf2.length ∧ ∀ i, a.getD i d = if 2 ^ M ≤ i ∧ i < 2 ^ M + j
      then (zip3 W.madd l.2.1 ((s.take (2 ^ M)).map (W.vshuf · l.2.2)) ((s.drop (2 ^ M)).map (W.vshuf · l.2.2))).getD (i - 2 ^ M) d
      else sf2.getD i d) (Nat.zero_le _)
      ⟨rfl, fun i => by rw [if_neg (by omega)]⟩ ?_) ?_
    · rintro j a _ hj ⟨a1, a2⟩
      rw [rd_of_lt (by omega), sb, getElem_eq_getD _ d, rd_of_lt (by omega), sb, getElem_eq_getD _ d, rd_of_lt (by omega), sb,
        getElem_eq_getD _ d, wr_of_lt (by omega)]
      have ec : hd2.getD (off + j) d = l.2.1.getD j d := by
        rw [v2, if_pos (by omega), Nat.add_sub_cancel_left]
      have ea : a.getD (j + 2 ^ (M + 1)) d = s.getD j d := by
        rw [a2, if_neg (by omega), hsf2 _ (by omega), add_comm, hH2 j (by omega)]
      have eb : a.getD (j + 2 ^ M + 2 ^ (M + 1)) d = s.getD (2 ^ M + j) d := by
        rw [a2, if_neg (by omega), hsf2 _ (by omega), add_comm, add_comm j, hH2 (2 ^ M + j) (by omega)]
      rw [ea, eb, ec]
      refine Ok.some ⟨by rw [List.length_set, a1], fun i => ?_⟩
      rw [getD_set]
      by_cases h3 : j + 2 ^ M = i
      · subst h3
        rw [if_pos ⟨rfl, by omega⟩, if_pos (by omega), Nat.add_sub_cancel, ← getElem_eq_getD (by omega), ← getElem_eq_getD (by omega),
          ← getElem_eq_getD (by omega), ← getElem_eq_getD (by omega)]
        simp [zip3]
      · rw [if_neg (by tauto), a2]
        by_cases h4 : 2 ^ M ≤ i ∧ i < 2 ^ M + j
        · rw [if_pos h4, if_pos (by omega)]
        · rw [if_neg h4, if_neg (by omega)]
    · rintro a ⟨a1, a2⟩
      refine Ok.some ⟨rfl, rfl, a1, fun i => ?_⟩
      rw [a2, hlen2]
  refine Ok.bind' hG ?_
  rintro ⟨x3, hd3, sf3⟩ ⟨hx3, hh3, w1, w2⟩
  dsimp only at hx3 hh3 w1 w2
  subst hx3 hh3
  rw [hlen2] at w2
  -- the right child
  refine Ok.bind' (hcr _ _ t hlen2 ⟨by dsimp only; omega, fun i hi => ?_⟩ (by dsimp only; omega) h2) ?_
  · dsimp only
    rw [w2, if_pos (by omega), Nat.add_sub_cancel_left]
  rintro ⟨⟨x4, hd4, sf4⟩, rm⟩ ⟨hx4, hm4, ⟨y1, y2⟩, y3, y4⟩
  dsimp only at hx4 hm4 y1 y2 y3 y4 ⊢
  subst hx4 hm4
  rw [ht] at y2
  -- the third loop
  have hC : Ok (cLoop W M off t.2.2 ⟨t.1, hd4, sf4⟩) (fun s' => s'.x = t.1 ∧ s'.soft = sf4 ∧
      Upd d hd4 s'.hard off (List.zipWith W.qmul (l.2.1.map (W.vshuf · t.2.2)) t.2.1)) := by
    unfold cLoop
    dsimp only
    have hlen3 : (List.zipWith W.qmul (l.2.1.map (W.vshuf · t.2.2)) t.2.1).length = 2 ^ M := by simp [hl, ht]
    refine Ok.bind' (forUp_inv (fun j (a : List τ) => a.length = hd4.length ∧ ∀ i, a.getD i d = if off ≤ i ∧ i < off + j
      then (List.zipWith W.qmul (l.2.1.map (W.vshuf · t.2.2)) t.2.1).getD (i - off) d
      else hd4.getD i d) (Nat.zero_le _)
      ⟨rfl, fun i => by rw [if_neg (by omega)]⟩ ?_) ?_
    · rintro j a _ hj ⟨a1, a2⟩
      rw [rd_of_lt (by omega), sb, getElem_eq_getD _ d, rd_of_lt (by omega), sb, getElem_eq_getD _ d, wr_of_lt (by omega)]
      have ea : a.getD (off + j) d = l.2.1.getD j d := by
        rw [a2, if_neg (by omega), y2, if_neg (by omega), v2, if_pos (by omega), Nat.add_sub_cancel_left]
      have eb : a.getD (off + (j + 2 ^ M)) d = t.2.1.getD j d := by
        rw [a2, if_neg (by omega), y2, if_pos (by omega)]
        congr 1; omega
      rw [ea, eb]
      refine Ok.some ⟨by rw [List.length_set, a1], fun i => ?_⟩
      rw [getD_set]
      by_cases h3 : off + j = i
      · subst h3
        rw [if_pos ⟨rfl, by omega⟩, if_pos (by omega), Nat.add_sub_cancel_left, ← getElem_eq_getD (by omega), ← getElem_eq_getD (by omega),
          ← getElem_eq_getD (by omega)]
        simp
      · rw [if_neg (by tauto), a2]
        by_cases h4 : off ≤ i ∧ i < off + j
        · rw [if_pos h4, if_pos (by omega)]
        · rw [if_neg h4, if_neg (by omega)]
    · rintro a ⟨a1, a2⟩
      refine Ok.some ⟨rfl, rfl, a1, fun i => ?_⟩
      rw [a2, hlen3]
  refine Ok.bind' hC ?_
  rintro ⟨x5, hd5, sf5⟩ ⟨hx5, hs5, z1, z2⟩
  dsimp only at hx5 hs5 z1 z2
  subst hx5 hs5
  have hlen3 : (List.zipWith W.qmul (l.2.1.map (W.vshuf · t.2.2)) t.2.1).length = 2 ^ M := by simp [hl, ht]
  rw [hlen3] at z2
  refine Ok.some ⟨rfl, rfl, ⟨by dsimp only; omega, fun i => ?_⟩, by dsimp only; omega, fun i hi => ?_⟩
  · dsimp only
    rw [z2, y2, v2, List.length_append, hlen3, ht]
    by_cases i1 : off ≤ i ∧ i < off + 2 ^ M
    · rw [if_pos i1, if_pos (by omega), List.getD_append _ _ _ _ (by rw [hlen3]; omega)]
    · rw [if_neg i1]
      by_cases i2 : off + 2 ^ M ≤ i ∧ i < off + 2 ^ M + 2 ^ M
      · rw [if_pos i2, if_pos (by omega), List.getD_append_right _ _ _ _ (by rw [hlen3]; omega), hlen3]
        congr 1; omega
      · rw [if_neg i2, if_neg (by omega), if_neg (by omega)]
  · dsimp only
    rw [y4 i (by omega), w2, if_neg (by omega), hsf2 i (by omega)]

/-! ### The words -/

/-- The low `n` bits of a word. -/
def bits (w n : Nat) : List Bool := (List.range n).map w.testBit

theorem bits_length (w n : Nat) : (bits w n).length = n := by simp [bits]

theorem bits_take (w n : Nat) : (bits w (n + n)).take n = bits (w &&& (2 ^ n - 1)) n := by
  unfold bits
  rw [List.range_add, List.map_append, List.take_left' (by simp)]
  refine List.map_congr_left fun i hi => ?_
  rw [Nat.and_two_pow_sub_one_eq_mod, Nat.testBit_mod_two_pow]
  simp [List.mem_range.1 hi]

theorem bits_drop (w n : Nat) : (bits w (n + n)).drop n = bits (w >>> n) n := by
  unfold bits
  rw [List.range_add, List.map_append, List.drop_left' (by simp), List.map_map]
  refine List.map_congr_left fun i hi => ?_
  simp [Nat.testBit_shiftRight]

theorem bits_all_true {w n : Nat} (hw : w < 2 ^ n) : (bits w n).all (fun b => b) = true ↔ w = 2 ^ n - 1 := by
  unfold bits
  rw [List.all_map, List.all_eq_true]
  constructor
  · intro h
    apply Nat.eq_of_testBit_eq
    intro i
    rw [Nat.testBit_two_pow_sub_one]
    by_cases hi : i < n
    · simpa [hi] using h i (List.mem_range.2 hi)
    · rw [Nat.testBit_eq_false_of_lt (lt_of_lt_of_le hw (Nat.pow_le_pow_right (by omega) (by omega)))]
      simp [hi]
  · rintro rfl i hi
    simp [Nat.testBit_two_pow_sub_one, List.mem_range.1 hi]

theorem bits_all_false {w n : Nat} (hw : w < 2 ^ n) : (bits w n).all (fun b => !b) = true ↔ w = 0 := by
  unfold bits
  rw [List.all_map, List.all_eq_true]
  constructor
  · intro h
    apply Nat.eq_of_testBit_eq
    intro i
    rw [Nat.zero_testBit]
    by_cases hi : i < n
    · simpa using h i (List.mem_range.2 hi)
    · exact Nat.testBit_eq_false_of_lt (lt_of_lt_of_le hw (Nat.pow_le_pow_right (by omega) (by omega)))
  · rintro rfl i hi
    simp

theorem childSel_ok {d : τ} {W : Walk τ μ X} {N : Nodes τ μ X} (hA : Agree d W N) {M off w : Nat} (hM : 1 ≤ M) (hM' : M ≤ 5) (hw : w < 2 ^ 2 ^ M)
    {all0 all1 : Prop} [Decidable all0] [Decidable all1] (h0 : all0 ↔ w = 2 ^ 2 ^ M - 1) (h1 : all1 ↔ w = 0)
    {rec : Mem τ X → Option (Mem τ X × μ)} {recF : Nat → List Bool → X → List τ → Option (X × List τ × μ)} {m : Mem τ X} {s : List τ}
    {r : X × List τ × μ} (hs : s.length = 2 ^ M) (hH : Has d m.soft (2 ^ M) s) (hh : off + 2 ^ M ≤ m.hard.length)
    (hrec : recF M (bits w (2 ^ M)) m.x s = some r → Ok (rec m) (Eff d M off m r))
    (hr : childF W N recF M (bits w (2 ^ M)) m.x s = some r) : Ok (childSel W all0 all1 M off rec m) (Eff d M off m r) := by
  unfold childF at hr
  unfold childSel
  simp only [bits_all_true hw, bits_all_false hw, ← h0, ← h1] at hr
  by_cases c0 : all0
  · rw [if_pos ⟨hM', c0⟩] at hr
    rw [if_pos c0]
    exact hA.eff0 _ _ _ _ _ hM' hs hH hh hr
  · rw [if_neg (by tauto)] at hr
    rw [if_neg c0]
    by_cases c1 : W.sc1 = true ∧ all1
    · rw [if_pos ⟨Or.inr ⟨hM', c1.1⟩, c1.2⟩] at hr
      rw [if_pos c1]
      exact hA.eff1 _ _ _ _ _ hM' (Or.inr c1.1) hs hH hh hr
    · have hne : ¬ M = 0 := by omega
      rw [if_neg (by tauto)] at hr
      rw [if_neg c1]
      exact hrec hr

theorem treeW_ok {d : τ} {W : Walk τ μ X} {N : Nodes τ μ X} (hA : Agree d W N) : ∀ (M off w : Nat) (m : Mem τ X) (s : List τ) (r : X × List τ × μ),
    1 ≤ M → M ≤ 5 → w < 2 ^ 2 ^ M → s.length = 2 ^ M → Has d m.soft (2 ^ M) s → off + 2 ^ M ≤ m.hard.length →
    treeF W N M (bits w (2 ^ M)) m.x s = some r → Ok (treeW W M off w m) (Eff d M off m r) := by
  intro M
  induction M with
  | zero => intro off w m s r h; omega
  | succ M ih =>
    intro off w m s r _ hM hw hs hH hh hr
    have e : 2 ^ (M + 1) = 2 ^ M + 2 ^ M := by rw [pow_succ]; ring
    have hwl : w &&& (2 ^ 2 ^ M - 1) < 2 ^ 2 ^ M := by
      rw [Nat.and_two_pow_sub_one_eq_mod]; exact Nat.mod_lt _ (by positivity)
    have hwh : w >>> 2 ^ M < 2 ^ 2 ^ M := by
      rw [Nat.shiftRight_eq_div_pow, Nat.div_lt_iff_lt_mul (by positivity), ← pow_add, ← e]; exact hw
    have bt : (bits w (2 ^ (M + 1))).take (2 ^ M) = bits (w &&& (2 ^ 2 ^ M - 1)) (2 ^ M) := by rw [e, bits_take]
    have bd : (bits w (2 ^ (M + 1))).drop (2 ^ M) = bits (w >>> 2 ^ M) (2 ^ M) := by rw [e, bits_drop]
    cases M with
    | zero =>
      refine node_ok hA hs hH hh hr (fun s => if w &&& 1 ≠ 0 then W.rate0 0 off s else W.rate1 0 off s)
        (fun s => if w >>> 1 ≠ 0 then W.rate0 0 (off + 1) s else W.rate1 0 (off + 1) s) ?_ ?_
      · intro m' s' r' hs' hH' hh' hr'
        rw [bt] at hr'
        unfold childF at hr'
        have q1 := bits_all_true hwl
        have q2 := bits_all_false hwl
        have c0 : (2 ^ 2 ^ 0 - 1 : Nat) = 1 := rfl
        have c1 : (2 ^ 2 ^ 0 : Nat) = 2 := rfl
        have c2 : (2 ^ 0 : Nat) = 1 := rfl
        rw [c1] at hwl
        simp only [c0, c2, pow_one, Nat.reduceSub] at q1 q2 hwl hr' ⊢
        by_cases h : w &&& 1 = 0
        · rw [if_neg (by rw [q1]; omega), if_pos ⟨by simp, q2.2 h⟩] at hr'
          rw [if_neg (by simpa using h)]
          exact hA.eff1 _ _ _ _ _ (by omega) (Or.inl rfl) hs' hH' hh' hr'
        · rw [if_pos ⟨by omega, q1.2 (by omega)⟩] at hr'
          rw [if_pos h]
          exact hA.eff0 _ _ _ _ _ (by omega) hs' hH' hh' hr'
      · intro m' s' r' hs' hH' hh' hr'
        rw [bd] at hr'
        unfold childF at hr'
        have q1 := bits_all_true hwh
        have q2 := bits_all_false hwh
        have c0 : (2 ^ 2 ^ 0 - 1 : Nat) = 1 := rfl
        have c1 : (2 ^ 2 ^ 0 : Nat) = 2 := rfl
        have c2 : (2 ^ 0 : Nat) = 1 := rfl
        rw [c1] at hwh
        simp only [c0, c2, pow_one, Nat.reduceSub] at q1 q2 hwh hr' ⊢
        by_cases h : w >>> 1 = 0
        · rw [if_neg (by rw [q1]; omega), if_pos ⟨by simp, q2.2 h⟩] at hr'
          rw [if_neg (by simpa using h)]
          exact hA.eff1 _ _ _ _ _ (by omega) (Or.inl rfl) hs' hH' hh' hr'
        · rw [if_pos ⟨by omega, q1.2 (by omega)⟩] at hr'
          rw [if_pos h]
          exact hA.eff0 _ _ _ _ _ (by omega) hs' hH' hh' hr'
    | succ M =>
      refine node_ok hA hs hH hh hr (fun s => childSel W (w &&& (2 ^ 2 ^ (M + 1) - 1) = 2 ^ 2 ^ (M + 1) - 1) (w &&& (2 ^ 2 ^ (M + 1) - 1) = 0)
          (M + 1) off (treeW W (M + 1) off (w &&& (2 ^ 2 ^ (M + 1) - 1))) s)
        (fun s => childSel W (w >>> 2 ^ (M + 1) = 2 ^ 2 ^ (M + 1) - 1) (w >>> 2 ^ (M + 1) = 0)
          (M + 1) (off + 2 ^ (M + 1)) (treeW W (M + 1) (off + 2 ^ (M + 1)) (w >>> 2 ^ (M + 1))) s) ?_ ?_
      · intro m' s' r' hs' hH' hh' hr'
        rw [bt] at hr'
        exact childSel_ok hA (by omega) (by omega) hwl Iff.rfl Iff.rfl hs' hH' hh'
          (fun h => ih _ _ _ _ _ (by omega) (by omega) hwl hs' hH' hh' h) hr'
      · intro m' s' r' hs' hH' hh' hr'
        rw [bd] at hr'
        exact childSel_ok hA (by omega) (by omega) hwh Iff.rfl Iff.rfl hs' hH' hh'
          (fun h => ih _ _ _ _ _ (by omega) (by omega) hwh hs' hH' hh' h) hr'

/-- `n` bits of the array of words from word `fo`. -/
def fbits (frozen : List Nat) (fo n : Nat) : List Bool := (List.range n).map fun i => fbit frozen (32 * fo + i)

theorem fbits_take (frozen : List Nat) (fo n : Nat) : (fbits frozen fo (n + n)).take n = fbits frozen fo n := by
  unfold fbits
  rw [List.range_add, List.map_append, List.take_left' (by simp)]

theorem fbits_drop (frozen : List Nat) (fo n : Nat) : (fbits frozen fo (32 * n + 32 * n)).drop (32 * n) = fbits frozen (fo + n) (32 * n) := by
  unfold fbits
  rw [List.range_add, List.map_append, List.drop_left' (by simp), List.map_map]
  refine List.map_congr_left fun i hi => ?_
  simp only [Function.comp]
  congr 1; ring

theorem fbits_word (frozen : List Nat) (fo : Nat) : fbits frozen fo 32 = bits (frozen.getD fo 0) 32 := by
  unfold fbits bits fbit
  refine List.map_congr_left fun i hi => ?_
  have := List.mem_range.1 hi
  rw [show (32 * fo + i) / 32 = fo by omega, show (32 * fo + i) % 32 = i by omega]

theorem treeP_ok {d : τ} {W : Walk τ μ X} {N : Nodes τ μ X} (hA : Agree d W N) {frozen : List Nat} (hw : ∀ w ∈ frozen, w < 2 ^ 32) :
    ∀ (k off fo : Nat) (m : Mem τ X) (s : List τ) (r : X × List τ × μ), fo + 2 ^ (k + 1) ≤ frozen.length →
    s.length = 2 ^ (k + 6) → Has d m.soft (2 ^ (k + 6)) s → off + 2 ^ (k + 6) ≤ m.hard.length →
    treeF W N (k + 6) (fbits frozen fo (2 ^ (k + 6))) m.x s = some r → Ok (treeP W frozen k off fo m) (Eff d (k + 6) off m r) := by
  have hget : ∀ i, i < frozen.length → frozen.getD i 0 < 2 ^ 32 := by
    intro i hi
    rw [← getElem_eq_getD hi]; exact hw _ (List.getElem_mem hi)
  intro k
  induction k with
  | zero =>
    intro off fo m s r hf hs hH hh hr
    have h5 : (2 : Nat) ^ (5 + 1) = 2 ^ 5 + 2 ^ 5 := by norm_num
    have bt : (fbits frozen fo (2 ^ (5 + 1))).take (2 ^ 5) = bits (frozen.getD fo 0) (2 ^ 5) := by
      rw [h5, fbits_take]; exact fbits_word _ _
    have bd : (fbits frozen fo (2 ^ (5 + 1))).drop (2 ^ 5) = bits (frozen.getD (fo + 1) 0) (2 ^ 5) := by
      rw [h5]; exact (fbits_drop frozen fo 1).trans (fbits_word _ _)
    have h0 := hget fo (by omega)
    have h1 := hget (fo + 1) (by omega)
    unfold treeP
    have := node_ok (M := 5) (f := fbits frozen fo (2 ^ (5 + 1))) hA hs hH hh hr
      (fun s => childSel W (frozen.getD fo 0 = 0xffffffff) (frozen.getD fo 0 = 0) 5 off (treeW W 5 off (frozen.getD fo 0)) s)
      (fun s => childSel W (frozen.getD (fo + 1) 0 = 0xffffffff) (frozen.getD (fo + 1) 0 = 0) 5 (off + 2 ^ 5)
        (treeW W 5 (off + 2 ^ 5) (frozen.getD (fo + 1) 0)) s) ?_ ?_
    · rw [rd_of_lt (by omega), rd_of_lt (by omega), getElem_eq_getD _ 0, getElem_eq_getD _ 0]
      exact this
    · intro m' s' r' hs' hH' hh' hr'
      rw [bt] at hr'
      exact childSel_ok hA (by omega) (by omega) h0 Iff.rfl Iff.rfl hs' hH' hh'
        (fun h => treeW_ok hA _ _ _ _ _ _ (by omega) (by omega) h0 hs' hH' hh' h) hr'
    · intro m' s' r' hs' hH' hh' hr'
      rw [bd] at hr'
      exact childSel_ok hA (by omega) (by omega) h1 Iff.rfl Iff.rfl hs' hH' hh'
        (fun h => treeW_ok hA _ _ _ _ _ _ (by omega) (by omega) h1 hs' hH' hh' h) hr'
  | succ k ih =>
    intro off fo m s r hf hs hH hh hr
    have e : (2 : Nat) ^ (k + 6 + 1) = 2 ^ (k + 6) + 2 ^ (k + 6) := by rw [pow_succ]; ring
    have e32 : (2 : Nat) ^ (k + 6) = 32 * 2 ^ (k + 1) := by rw [show k + 6 = k + 1 + 5 by omega, pow_add]; ring
    have hdiv : (2 : Nat) ^ (k + 6) / 32 = 2 ^ (k + 1) := by omega
    have ek : (2 : Nat) ^ (k + 1 + 1) = 2 ^ (k + 1) + 2 ^ (k + 1) := by rw [pow_succ]; ring
    have bt : (fbits frozen fo (2 ^ (k + 6 + 1))).take (2 ^ (k + 6)) = fbits frozen fo (2 ^ (k + 6)) := by rw [e, fbits_take]
    have bd : (fbits frozen fo (2 ^ (k + 6 + 1))).drop (2 ^ (k + 6)) = fbits frozen (fo + 2 ^ (k + 6) / 32) (2 ^ (k + 6)) := by
      rw [hdiv, e, e32, fbits_drop]
    unfold treeP
    have hchild : ∀ f x (s : List τ), childF W N (fun _ => treeF W N (k + 6)) (k + 6) f x s = treeF W N (k + 6) f x s := by
      intro f x s
      unfold childF
      rw [if_neg (by omega), if_neg (by omega)]
    refine node_ok (M := k + 6) hA hs hH hh hr (treeP W frozen k off fo) (treeP W frozen k (off + 2 ^ (k + 6)) (fo + 2 ^ (k + 6) / 32)) ?_ ?_
    · intro m' s' r' hs' hH' hh' hr'
      rw [bt, hchild] at hr'
      exact ih _ _ _ _ _ (by omega) hs' hH' hh' hr'
    · intro m' s' r' hs' hH' hh' hr'
      rw [bd, hchild] at hr'
      exact ih _ _ _ _ _ (by omega) hs' hH' hh' hr'

theorem treeTop_ok {d : τ} {W : Walk τ μ X} {N : Nodes τ μ X} (hA : Agree d W N) {frozen : List Nat} (hw : ∀ w ∈ frozen, w < 2 ^ 32)
    {max level : Nat} (h5 : 5 ≤ level) (hmax : level ≤ max) (hf : 2 ^ level ≤ 32 * frozen.length) {m : Mem τ X} {s : List τ} {r : X × List τ × μ}
    (hs : s.length = 2 ^ level) (hH : Has d m.soft (2 ^ level) s) (hh : 2 ^ level ≤ m.hard.length)
    (hr : treeF W N level (fbits frozen 0 (2 ^ level)) m.x s = some r) :
    Ok (treeTop W max frozen level m) (Eff d level 0 m r) := by
  unfold treeTop
  refine Ok.bind' (P := fun _ => True) (Ok.assertUB ⟨h5, hmax⟩ trivial) fun _ _ => ?_
  by_cases h : level = 5
  · subst h
    rw [if_pos rfl, rd_of_lt (by omega), sb, getElem_eq_getD _ 0]
    rw [show fbits frozen 0 (2 ^ 5) = bits (frozen.getD 0 0) (2 ^ 5) from fbits_word _ _] at hr
    refine treeW_ok hA 5 0 _ m s r (by omega) (by omega) ?_ hs hH (by omega) hr
    rw [← getElem_eq_getD (by omega)]; exact hw _ (List.getElem_mem _)
  · rw [if_neg h]
    obtain ⟨k, rfl⟩ : ∃ k, level = k + 6 := ⟨level - 6, by omega⟩
    rw [Nat.add_sub_cancel]
    have e32 : (2 : Nat) ^ (k + 6) = 32 * 2 ^ (k + 1) := by rw [show k + 6 = k + 1 + 5 by omega, pow_add]; ring
    exact treeP_ok hA hw k 0 0 m s r (by omega) hs hH (by omega) hr

end Verif.Polar
