import Verif.Sort.Proof
namespace Verif.Sort
variable {α ι : Type} {lt : α → α → Bool}

/-- The order on (key, index) pairs that only looks at the key. -/
def ltP (lt : α → α → Bool) (x y : α × ι) : Bool := lt x.1 y.1

theorem ltP_weak (h : StrictWeak lt) : StrictWeak (ltP (ι := ι) lt) :=
  ⟨fun x y => h.asymm x.1 y.1, fun x y z => h.negtrans x.1 y.1 z.1⟩

theorem ins_map_fst (L : List (α × ι)) (t : α × ι) :
    (ins (ltP lt) L t).map (·.1) = ins lt (L.map (·.1)) t.1 := by
  induction L using List.reverseRecOn with
  | nil => rfl
  | append_singleton L y ih =>
    rw [ins_snoc, List.map_append, List.map_cons, List.map_nil, ins_snoc]
    unfold ltP at *
    split <;> simp [ih]

theorem isort_map_fst (L : List (α × ι)) : (isort (ltP lt) L).map (·.1) = isort lt (L.map (·.1)) := by
  induction L using List.reverseRecOn with
  | nil => rfl
  | append_singleton L y ih =>
    rw [isort_snoc, ins_map_fst, ih, List.map_append, List.map_cons, List.map_nil, isort_snoc]

theorem shiftLoop2_spec (t : α) (v : ι) (L : List (α × ι)) : ∀ (x : α) (q : ι) (restA : List α) (restP : List ι),
    ∃ p a j, shiftLoop2 lt t L.length (L.map (·.2) ++ q :: restP, L.map (·.1) ++ x :: restA) = some ((p, a), j) ∧
      wr a j t = some ((ins (ltP lt) L (t, v)).map (·.1) ++ restA) ∧
      wr p j v = some ((ins (ltP lt) L (t, v)).map (·.2) ++ restP) := by
  induction L using List.reverseRecOn with
  | nil =>
    intro x q restA restP
    exact ⟨_, _, 0, rfl, rfl, rfl⟩
  | append_singleton L y ih =>
    intro x q restA restP
    rw [List.length_append, List.length_singleton, shiftLoop2]
    have e : ∀ (β : Type) (g : α × ι → β) (z : β) (r : List β),
        (L ++ [y]).map g ++ z :: r = L.map g ++ g y :: z :: r := by intro β g z r; simp
    have e2 : ∀ (β : Type) (g : α × ι → β) (z : β) (r : List β),
        L.map g ++ g y :: z :: r = (L.map g ++ [g y]) ++ z :: r := by intro β g z r; simp
    rw [e, e, rd_app _ _ _ _ (by simp)]
    simp only [Option.bind_eq_bind, Option.bind_some, ins_snoc]
    by_cases hty : lt t y.1 = true
    · have hty' : ltP lt (t, v) y = true := hty
      rw [if_pos hty, if_pos hty', e2, wr_app _ _ _ _ _ (by simp), Option.bind_some,
        rd_app _ _ _ _ (by simp), Option.bind_some, e2, wr_app _ _ _ _ _ (by simp), Option.bind_some]
      obtain ⟨p, a, j, h1, h2, h3⟩ := ih y.1 y.2 (y.1 :: restA) (y.2 :: restP)
      refine ⟨p, a, j, ?_, ?_, ?_⟩
      · rw [← h1]; congr 1; simp
      · rw [h2]; simp
      · rw [h3]; simp
    · have hty' : ¬ ltP lt (t, v) y = true := hty
      rw [if_neg hty, if_neg hty']
      refine ⟨_, _, _, rfl, ?_, ?_⟩
      · rw [e2, wr_app _ _ _ _ _ (by simp)]; simp
      · rw [e2, wr_app _ _ _ _ _ (by simp)]; simp

/-- The (key, index) pairs of the input. -/
def pairs (idx : Nat → ι) (a : List α) : List (α × ι) := a.zip ((List.range a.length).map idx)

theorem zip_take {β : Type} (a : List α) (b : List β) (i : Nat) : (a.zip b).take i = (a.take i).zip (b.take i) := by
  induction a generalizing b i with
  | nil => simp
  | cons x a ih => cases b <;> cases i <;> simp [ih]

theorem pairs_take (idx : Nat → ι) (a : List α) (i : Nat) :
    pairs idx (a.take i) = (pairs idx a).take i := by
  unfold pairs
  rw [zip_take, ← List.map_take, List.take_range, List.length_take]

theorem pairs_length (idx : Nat → ι) (a : List α) : (pairs idx a).length = a.length := by
  simp [pairs]

theorem pairs_getElem (idx : Nat → ι) (a : List α) (i : Nat) (h : i < (pairs idx a).length) :
    (pairs idx a)[i] = (a[i]'(by rwa [pairs_length] at h), idx i) := by
  simp [pairs]

theorem pairs_fst (idx : Nat → ι) (a : List α) : (pairs idx a).map (·.1) = a := by
  unfold pairs
  exact List.map_fst_zip (by simp)

theorem insertionSortIdx_spec (idx : Nat → ι) (p : List ι) (a : List α)
    (hp : p.length = a.length) (ha : 0 < a.length) :
    insertionSortIdx lt idx p a a.length =
      some ((isort (ltP lt) (pairs idx a)).map (·.2), (isort (ltP lt) (pairs idx a)).map (·.1)) := by
  obtain ⟨q0, p, rfl⟩ : ∃ q p', p = q :: p' := by
    cases p with
    | nil => simp at hp; omega
    | cons q p => exact ⟨q, p, rfl⟩
  unfold insertionSortIdx
  rw [wr_of_lt (by simp), Option.bind_eq_bind, Option.bind_some, List.set_cons_zero]
  have main := forUp_inv (lo := 1) (hi := a.length) (s := (idx 0 :: p, a))
    (f := fun i (p, a) => do
      let t ← rd a i
      let ((p, a), j) ← shiftLoop2 lt t i (p, a)
      let a ← wr a j t
      let p ← wr p j (idx i)
      return (p, a))
    (fun i s => s.2 = (isort (ltP lt) (pairs idx (a.take i))).map (·.1) ++ a.drop i ∧
      ∃ r, s.1 = (isort (ltP lt) (pairs idx (a.take i))).map (·.2) ++ r ∧ r.length = a.length - i)
    (by omega) ⟨?_, p, ?_, by simp at hp; omega⟩ ?_
  · refine Ok.eq_some.1 (main.mono ?_)
    rintro ⟨p', a'⟩ ⟨h1, r, h2, h3⟩
    simp only [List.take_length, List.drop_length, List.append_nil] at h1 h2
    have : r = [] := List.length_eq_zero_iff.1 (by omega)
    subst this
    rw [List.append_nil] at h2
    exact Prod.ext h2 h1
  · obtain ⟨x, a, rfl⟩ : ∃ x a', a = x :: a' := by
      cases a with
      | nil => simp at ha
      | cons q p => exact ⟨q, p, rfl⟩
    simp [pairs, isort, ins_nil]
  · obtain ⟨x, a, rfl⟩ : ∃ x a', a = x :: a' := by
      cases a with
      | nil => simp at ha
      | cons q p => exact ⟨q, p, rfl⟩
    simp [pairs, isort, ins_nil]
  · rintro i ⟨p', a'⟩ hi hi2 ⟨h1, r, h2, h3⟩
    dsimp only at h1 h2 ⊢
    obtain ⟨q, r, rfl⟩ : ∃ q r', r = q :: r' := by
      cases r with
      | nil => simp at h3; omega
      | cons q p => exact ⟨q, p, rfl⟩
    rw [List.drop_eq_getElem_cons hi2] at h1
    have hL : (isort (ltP lt) (pairs idx (a.take i))).length = i := by
      rw [isort_length, pairs_length, List.length_take]; omega
    subst h1 h2
    rw [rd_app _ _ _ _ (by simp [hL])]
    obtain ⟨p2, a2, j, g1, g2, g3⟩ := shiftLoop2_spec (lt := lt) a[i] (idx i)
      (isort (ltP lt) (pairs idx (a.take i))) a[i] q (a.drop (i + 1)) r
    rw [hL] at g1
    simp only [Option.bind_eq_bind, Option.bind_some, g1, g2, g3]
    have e : ins (ltP lt) (isort (ltP lt) (pairs idx (a.take i))) (a[i], idx i) =
        isort (ltP lt) (pairs idx (a.take (i + 1))) := by
      rw [← isort_snoc]
      congr 1
      rw [pairs_take, pairs_take, ← List.take_append_getElem (by rw [pairs_length]; exact hi2), pairs_getElem]
    rw [e]
    exact Ok.pure ⟨rfl, r, rfl, by simp at h3; omega⟩

end Verif.Sort
