import Verif.Polar.ParProof
/- What a path of the parity-aided decoder is, in terms of messages with parity symbols. -/
namespace Verif.Polar
open PolarHelper (I8 prodV maddV qmulV)
open Verif.RS (sb)
variable {L : Nat} {X C Q : Type}

/-- What a path collects, from its decisions alone. -/
def Lf.pathI (A : Lf L X C Q) : C → Q → List Int → Q
  | _, p, [] => p
  | c, p, v :: w => A.pathI (A.step c) (A.upd c p v) w

def Lf.goodsI (A : Lf L X C Q) : C → Q → List Int → Prop
  | _, _, [] => True
  | c, p, v :: w => A.good c p v ∧ A.goodsI (A.step c) (A.upd c p v) w

theorem path_info (A : Lf L X C Q) : ∀ (f : List Bool) (c : C) (p : Q) (u : List Int), f.length = u.length → A.path f c p u = A.pathI c p (info f u) := by
  intro f
  induction f with
  | nil => intro c p u h; simp [Lf.path, Lf.pathI, info]
  | cons b f ih =>
    intro c p u h
    cases u with
    | nil => simp at h
    | cons a u =>
      have h' : f.length = u.length := by simpa using h
      cases b with
      | true => rw [Lf.path, ih _ _ _ h']; simp [info]
      | false =>
        rw [Lf.path, ih _ _ _ h', show info (false :: f) (a :: u) = a :: info f u by simp [info], Lf.pathI]

theorem goods_info (A : Lf L X C Q) : ∀ (f : List Bool) (c : C) (p : Q) (u : List Int), f.length = u.length → (A.goods f c p u ↔ A.goodsI c p (info f u)) := by
  intro f
  induction f with
  | nil => intro c p u h; simp [Lf.goods, Lf.goodsI, info]
  | cons b f ih =>
    intro c p u h
    cases u with
    | nil => simp at h
    | cons a u =>
      have h' : f.length = u.length := by simpa using h
      cases b with
      | true => rw [Lf.goods, ih _ _ _ h']; simp [info]
      | false =>
        rw [Lf.goods, ih _ _ _ h', show info (false :: f) (a :: u) = a :: info f u by simp [info], Lf.goodsI]

theorem step_iter [NeZero L] (first stride : Nat) (msg0 : List (Reg L)) (cap : Nat) : ∀ n r,
    (parLf L stride msg0 cap).step^[n] (dataBelow first stride r, cAt first stride r) = (dataBelow first stride (r + n), cAt first stride (r + n)) := by
  intro n
  induction n with
  | zero => intro r; rfl
  | succ n ih =>
    intro r
    rw [Function.iterate_succ_apply]
    have : (parLf L stride msg0 cap).step (dataBelow first stride r, cAt first stride r) = (dataBelow first stride (r + 1), cAt first stride (r + 1)) := by
      rw [dataBelow_succ, cAt_succ]
      show (if _ then _ else _) = _
      split <;> simp
    rw [this, ih, show r + 1 + n = r + (n + 1) by omega]

variable [NeZero L] (first stride : Nat) (msg0 : List (Reg L)) (cap : Nat)

theorem step_at (r : Nat) : (parLf L stride msg0 cap).step (dataBelow first stride r, cAt first stride r) = (dataBelow first stride (r + 1), cAt first stride (r + 1)) :=
  step_iter first stride msg0 cap 1 r

/-- The path of a message with its parity symbols. -/
theorem coded_path {m : List Int} (hm : ∀ x ∈ m, Sym x) : ∀ n r, dataBelow first stride (r + n) ≤ m.length →
    (parLf L stride msg0 cap).goodsI (dataBelow first stride r, cAt first stride r) (m.take (dataBelow first stride r), par first stride m r)
      ((List.range n).map fun i => coded first stride m (r + i)) ∧
    (parLf L stride msg0 cap).pathI (dataBelow first stride r, cAt first stride r) (m.take (dataBelow first stride r), par first stride m r)
      ((List.range n).map fun i => coded first stride m (r + i)) = (m.take (dataBelow first stride (r + n)), par first stride m (r + n)) := by
  intro n
  induction n with
  | zero => intro r _; exact ⟨trivial, rfl⟩
  | succ n ih =>
    intro r hl
    have hs : (List.range (n + 1)).map (fun i => coded first stride m (r + i)) = coded first stride m r :: (List.range n).map fun i => coded first stride m (r + 1 + i) := by
      rw [List.range_succ_eq_map, List.map_cons, List.map_map]
      congr 1
      refine List.map_congr_left fun i _ => ?_
      show coded first stride m (r + (i + 1)) = _
      congr 1; omega
    have hd : dataBelow first stride (r + 1) ≤ m.length := (dataBelow_mono _ _ (by omega)).trans hl
    have hu : (parLf L stride msg0 cap).upd (dataBelow first stride r, cAt first stride r) (m.take (dataBelow first stride r), par first stride m r) (coded first stride m r) =
        (m.take (dataBelow first stride (r + 1)), par first stride m (r + 1)) := by
      simp only [parLf]
      rw [dataBelow_succ] at hd
      rw [dataBelow_succ, par_succ, coded_eq]
      by_cases hc : cAt first stride r ≠ 0
      · simp only [if_pos hc] at hd ⊢
        rw [qmulV_sym (par_sym first stride hm r) (getD_Sym hm _), List.take_add_one, List.getElem?_eq_getElem (by omega), ← getElem_eq_getD (by omega)]
        rfl
      · simp only [if_neg hc]; rfl
    obtain ⟨h1, h2⟩ := ih (r + 1) (by rw [show r + 1 + n = r + (n + 1) by omega]; exact hl)
    rw [hs, Lf.goodsI, Lf.pathI, step_at, hu]
    refine ⟨⟨?_, h1⟩, by rw [h2, show r + 1 + n = r + (n + 1) by omega]⟩
    show cAt first stride r ≠ 0 ∨ coded first stride m r = sg (par first stride m r)
    rw [coded_eq, sg_sym (par_sym first stride hm r)]
    by_cases hc : cAt first stride r ≠ 0
    · exact Or.inl hc
    · right; rw [if_neg hc]

/-- How many message symbols a path collects. -/
theorem path_length : ∀ (w : List Int) (r : Nat) (p : List Int) (q : Int), p.length = dataBelow first stride r →
    ((parLf L stride msg0 cap).pathI (dataBelow first stride r, cAt first stride r) (p, q) w).1.length = dataBelow first stride (r + w.length) := by
  intro w
  induction w with
  | nil => intro r p q h; exact h
  | cons b w ih =>
    intro r p q h
    rw [Lf.pathI, step_at]
    have := dataBelow_succ first stride r
    rw [show r + (b :: w).length = r + 1 + w.length by simp; omega]
    simp only [parLf]
    by_cases hc : cAt first stride r ≠ 0
    · rw [if_pos hc]
      refine ih _ _ _ ?_
      rw [if_pos hc] at this
      simp [h, this]
    · rw [if_neg hc]
      refine ih _ _ _ ?_
      rw [if_neg hc] at this
      omega

theorem path_sym : ∀ (w : List Int) (c : Nat × Nat) (p : List Int) (q : Int), (∀ x ∈ w, Sym x) → (∀ x ∈ p, Sym x) →
    ∀ x ∈ ((parLf L stride msg0 cap).pathI c (p, q) w).1, Sym x := by
  intro w
  induction w with
  | nil => intro c p q _ h; exact h
  | cons b w ih =>
    intro c p q hw h
    rw [Lf.pathI]
    simp only [parLf]
    split
    · refine ih _ _ _ (fun x hx => hw x (by simp [hx])) ?_
      intro x hx
      rcases List.mem_append.1 hx with hx | hx
      · exact h x hx
      · rw [List.mem_singleton.1 hx]; exact hw b (by simp)
    · exact ih _ _ _ (fun x hx => hw x (by simp [hx])) h

theorem path_prefix : ∀ (w : List Int) (c : Nat × Nat) (p : List Int) (q : Int), p <+: ((parLf L stride msg0 cap).pathI c (p, q) w).1 := by
  intro w
  induction w with
  | nil => intro c p q; exact List.prefix_rfl
  | cons b w ih =>
    intro c p q
    rw [Lf.pathI]
    simp only [parLf]
    split
    · exact (List.prefix_append _ _).trans (ih _ _ _)
    · exact ih _ _ _

theorem par_congr {m m' : List Int} {r : Nat} (h : ∀ i, i < dataBelow first stride r → m.getD i 1 = m'.getD i 1) : par first stride m r = par first stride m' r := by
  unfold par
  have := since_le first stride r
  refine Finset.prod_congr rfl fun i hi => h _ ?_
  have := Finset.mem_range.1 hi
  omega

theorem prefix_getD {p m : List Int} (h : p <+: m) {i : Nat} (hi : i < p.length) : m.getD i 1 = p.getD i 1 := by
  obtain ⟨t, rfl⟩ := h
  rw [← getElem_eq_getD (by simp; omega), ← getElem_eq_getD hi, List.getElem_append_left hi]

/-- A path all of whose parity symbols are right is the message it has collected with its parity symbols. -/
theorem path_coded : ∀ (w : List Int) (r : Nat) (p : List Int), (∀ x ∈ w, Sym x) → (∀ x ∈ p, Sym x) → p.length = dataBelow first stride r →
    (parLf L stride msg0 cap).goodsI (dataBelow first stride r, cAt first stride r) (p, par first stride p r) w →
    w = (List.range w.length).map fun i => coded first stride ((parLf L stride msg0 cap).pathI (dataBelow first stride r, cAt first stride r) (p, par first stride p r) w).1 (r + i) := by
  intro w
  induction w with
  | nil => intro r p _ _ _ _; rfl
  | cons b w ih =>
    intro r p hw hp hl hg
    obtain ⟨g1, g2⟩ := hg
    rw [step_at] at g2
    have hs : ∀ m : List Int, (List.range (b :: w).length).map (fun i => coded first stride m (r + i)) = coded first stride m r :: (List.range w.length).map fun i => coded first stride m (r + 1 + i) := by
      intro m
      rw [List.length_cons, List.range_succ_eq_map, List.map_cons, List.map_map]
      congr 1
      refine List.map_congr_left fun i _ => ?_
      show coded first stride m (r + (i + 1)) = _
      congr 1; omega
    have hw' : ∀ x ∈ w, Sym x := fun x hx => hw x (by simp [hx])
    have hb : Sym b := hw b (by simp)
    have hds := dataBelow_succ first stride r
    rw [hs, Lf.pathI, step_at]
    by_cases hc : cAt first stride r ≠ 0
    · rw [if_pos hc] at hds
      have hpar : par first stride (p ++ [b]) (r + 1) = qmulV (par first stride p r) b := by
        rw [par_succ, if_pos hc, qmulV_sym (par_sym first stride hp r) hb, par_congr first stride (m' := p) (fun i hi => prefix_getD (List.prefix_append _ _) (by omega)), ← hl]
        congr 1
        rw [← getElem_eq_getD (by simp)]; simp
      have hu : (parLf L stride msg0 cap).upd (dataBelow first stride r, cAt first stride r) (p, par first stride p r) b = (p ++ [b], par first stride (p ++ [b]) (r + 1)) := by
        rw [hpar]; simp only [parLf]; rw [if_pos hc]
      rw [hu] at g2 ⊢
      have hp' : ∀ x ∈ p ++ [b], Sym x := by
        intro x hx
        rcases List.mem_append.1 hx with hx | hx
        · exact hp x hx
        · rw [List.mem_singleton.1 hx]; exact hb
      have := ih (r + 1) (p ++ [b]) hw' hp' (by simp [hl, hds]) g2
      rw [List.cons.injEq]
      refine ⟨?_, this⟩
      rw [coded_eq, if_pos hc, prefix_getD (path_prefix stride msg0 cap w _ (p ++ [b]) _) (by simp [hl]), ← hl, ← getElem_eq_getD (by simp)]
      simp
    · rw [if_neg hc] at hds
      have hu : (parLf L stride msg0 cap).upd (dataBelow first stride r, cAt first stride r) (p, par first stride p r) b = (p, par first stride p (r + 1)) := by
        rw [par_succ, if_neg hc]; simp only [parLf]; rw [if_neg hc]
      rw [hu] at g2 ⊢
      have := ih (r + 1) p hw' hp (by omega) g2
      rw [List.cons.injEq]
      refine ⟨?_, this⟩
      have g1' : b = sg (par first stride p r) := g1.resolve_left hc
      rw [coded_eq, if_neg hc, g1', sg_sym (par_sym first stride hp r)]
      exact par_congr first stride fun i hi => (prefix_getD (path_prefix stride msg0 cap w _ p _) (by omega)).symm

/-- A metric below 1000000 tells that no parity symbol is wrong. -/
theorem cost_low : ∀ (M : Nat) (f : List Bool) (c : Nat × Nat) (p : List Int × Int) (μ : Int) (s u : List Int), f.length = 2 ^ M → u.length = 2 ^ M →
    (parLf L stride msg0 cap).cost M f c p μ s u < 1000000 → μ < 1000000 ∧ (parLf L stride msg0 cap).goods f c p u := by
  have hall : ∀ (f : List Bool) (c : Nat × Nat) (p : List Int × Int) (u : List Int), f.all (fun b => b) = true → (parLf L stride msg0 cap).goods f c p u := by
    intro f
    induction f with
    | nil => intro c p u _; trivial
    | cons b f ih =>
      intro c p u h
      simp only [List.all_cons, Bool.and_eq_true] at h
      obtain ⟨rfl, h⟩ := h
      cases u with
      | nil => trivial
      | cons a u => exact ih c p u h
  intro M
  induction M with
  | zero =>
    intro f c p μ s u h1 h2 h
    obtain ⟨b, rfl⟩ := List.length_eq_one_iff.1 h1
    obtain ⟨v, rfl⟩ := List.length_eq_one_iff.1 h2
    rw [Lf.cost] at h
    cases b with
    | true =>
      rw [if_pos (by rfl)] at h
      have := negs_nonneg s
      exact ⟨by omega, hall _ _ _ _ rfl⟩
    | false =>
      rw [if_neg (by simp)] at h
      simp only [parLf, List.headD_cons] at h
      have := pen_nonneg (s.headD 0) v
      split at h
      · exact ⟨by omega, ‹_›, trivial⟩
      · omega
  | succ M ih =>
    intro f c p μ s u h1 h2 h
    have e := two_pow_succ' M
    rw [Lf.cost] at h
    by_cases hc : M + 1 ≤ 5 ∧ f.all (fun b => b) = true
    · rw [if_pos hc] at h
      have := negs_nonneg s
      exact ⟨by omega, hall _ _ _ _ hc.2⟩
    · rw [if_neg hc] at h
      obtain ⟨q1, q2⟩ := ih _ _ _ _ _ _ (by simp [h1, e]) (by simp [h2, e]) h
      obtain ⟨q3, q4⟩ := ih _ _ _ _ _ _ (by simp [h1, e]) (by simp [h2, e]) q1
      refine ⟨q3, ?_⟩
      rw [← List.take_append_drop (2 ^ M) f, ← List.take_append_drop (2 ^ M) u, goods_append _ _ _ _ _ _ _ (by simp [h1, h2])]
      exact ⟨q4, q2⟩

end Verif.Polar
