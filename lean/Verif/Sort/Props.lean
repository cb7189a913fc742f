import Verif.Sort.ProofIdx
/-
C15, C16, C17.  The specification (`StrictWeak`, `StableSort`) is in Spec.lean; by
`StableSort.unique` it determines the result completely.
-/
namespace Verif.Sort
variable {α ι : Type}

/-- Sub-array form: sorting `a[off .. off+n-1]` of any array succeeds, leaves everything outside
that range alone, and replaces the range by its stable sort. -/
theorem C15_insertion_sort (lt : α → α → Bool) (h : StrictWeak lt) (a : List α) (off n : Nat)
    (hn : off + n ≤ a.length) :
    ∃ b, insertionSort lt a off n = some b ∧ b.length = a.length ∧
      StableSort lt ((a.drop off).take n) ((b.drop off).take n) ∧
      b.take off = a.take off ∧ b.drop (off + n) = a.drop (off + n) := by
  have e : a = a.take off ++ (a.drop off).take n ++ a.drop (off + n) := by
    rw [List.append_assoc, ← List.drop_drop, List.take_append_drop, List.take_append_drop]
  have hl1 : (a.take off).length = off := by rw [List.length_take]; omega
  have hl2 : ((a.drop off).take n).length = n := by rw [List.length_take, List.length_drop]; omega
  have hs := insertionSort_spec (lt := lt) (a.take off) ((a.drop off).take n) (a.drop (off + n))
  have hl3 := isort_length (lt := lt) ((a.drop off).take n)
  rw [← e, hl1, hl2] at hs
  refine ⟨_, hs, ?_, ?_, ?_, ?_⟩
  · rw [List.length_append, List.length_append, hl1, hl3, hl2, List.length_drop]; omega
  · rw [List.append_assoc, List.drop_left' hl1, List.take_left' (hl3.trans hl2)]
    exact isort_spec h _
  · rw [List.append_assoc, List.take_left' hl1]
  · rw [List.drop_left' (by rw [List.length_append, hl1, hl3, hl2])]

/-- Whole-array form. -/
theorem C15_whole_array (lt : α → α → Bool) (h : StrictWeak lt) (a : List α) :
    ∃ b, insertionSort lt a 0 a.length = some b ∧ StableSort lt a b := by
  have := insertionSort_spec (lt := lt) [] a []
  simp only [List.nil_append, List.append_nil, List.length_nil] at this
  exact ⟨_, this, isort_spec h a⟩

/-- There is exactly one stable sort, so the above determines the result. -/
theorem C15_unique (lt : α → α → Bool) (h : StrictWeak lt) (a b c : List α)
    (hb : StableSort lt a b) (hc : StableSort lt a c) : b = c := hb.unique h hc

/-- `vsort` sorts the lanes. -/
theorem C15_vsort (lt : α → α → Bool) (h : StrictWeak lt) (a : List α) :
    ∃ b, vsort lt a.length a = some b ∧ StableSort lt a b := C15_whole_array lt h a

/-- A comparator with non-trivial equivalence classes meets the hypotheses. -/
example : StrictWeak (fun a b : Nat => decide (a / 2 < b / 2)) :=
  ⟨fun x y h => by simp at *; omega, fun x y z h => by simp at *; omega⟩

example : insertionSort (fun a b : Nat => decide (a / 2 < b / 2)) [5, 2, 3, 4, 1, 0] 0 6 =
    some [1, 0, 2, 3, 5, 4] := by decide

/-! ### C16 -/

theorem pairwise_map_idx {β : Type} (L : List β) (R : β → β → Prop) (h : L.Pairwise R) (i j : Nat)
    (hij : i < j) (hj : j < L.length) : R (L[i]'(by omega)) L[j] :=
  List.pairwise_iff_getElem.1 h i j (by omega) hj hij

/-- The index-tracking sort succeeds on every array of length `n ≥ 1` (with a `p` of that
length, whatever it contains); the keys come out as the stable sort; the indices are a
permutation `q` of `0..n-1` (converted to the index type) with `sorted[j] = original[q j]`; and
among equivalent keys the indices increase. -/
theorem C16_indices (lt : α → α → Bool) (h : StrictWeak lt) (idx : Nat → ι) (p : List ι) (a : List α)
    (hp : p.length = a.length) (ha : 0 < a.length) :
    ∃ (q : List Nat) (b : List α), insertionSortIdx lt idx p a a.length = some (q.map idx, b) ∧
      StableSort lt a b ∧ q.Perm (List.range a.length) ∧
      (∀ j (hj : j < q.length), b[j]? = a[q[j]]?) ∧
      (∀ i j (hj : j < q.length) (hij : i < j), (∀ x y, b[i]? = some x → b[j]? = some y → lt x y = false) →
        q[i] < q[j]) := by
  have hs := insertionSortIdx_spec (lt := lt) idx p a hp ha
  -- the same sort carrying the plain natural numbers
  have hsP := isort_spec (ltP_weak (ι := Nat) h) (pairs id a)
  let L := isort (ltP lt) (pairs id a)
  have hconv : ∀ l : List (α × Nat), isort (ltP lt) (l.map fun x => (x.1, idx x.2)) =
      (isort (ltP lt) l).map fun x => (x.1, idx x.2) := by
    have hins : ∀ (l : List (α × Nat)) t, ins (ltP lt) (l.map fun x => (x.1, idx x.2)) (t.1, idx t.2) =
        (ins (ltP lt) l t).map fun x => (x.1, idx x.2) := by
      intro l t
      induction l using List.reverseRecOn with
      | nil => rfl
      | append_singleton l y ih =>
        rw [List.map_append, List.map_cons, List.map_nil, ins_snoc, ins_snoc]
        unfold ltP at *
        split <;> simp [ih]
    intro l
    induction l using List.reverseRecOn with
    | nil => rfl
    | append_singleton l t ih =>
      rw [List.map_append, List.map_cons, List.map_nil, isort_snoc, ih, hins, ← isort_snoc]
  have hpairs : pairs idx a = (pairs id a).map fun x => (x.1, idx x.2) := by
    apply List.ext_getElem
    · simp [pairs]
    · intro i h1 h2
      simp [pairs_getElem]
  have hmem : ∀ x ∈ L, a[x.2]? = some x.1 := by
    intro x hx
    have : x ∈ pairs id a := hsP.perm.mem_iff.1 hx
    obtain ⟨i, hi, rfl⟩ := List.getElem_of_mem this
    rw [pairs_getElem]
    rw [pairs_length] at hi
    simp [hi]
  have hLl : L.length = a.length := by
    rw [hsP.perm.length_eq, pairs_length]
  refine ⟨L.map (·.2), L.map (·.1), ?_, ?_, ?_, ?_, ?_⟩
  · rw [hs, hpairs, hconv]; simp [L]
  · change StableSort lt a ((isort (ltP lt) (pairs id a)).map (·.1))
    rw [isort_map_fst, pairs_fst]; exact isort_spec h a
  · have := hsP.perm.map (·.2)
    refine this.trans (List.Perm.of_eq ?_)
    unfold pairs
    rw [List.map_snd_zip (by simp), List.map_id]
  · intro j hj
    simp only [List.length_map] at hj
    simp only [List.getElem_map]
    rw [hmem _ (List.getElem_mem hj)]
    simp [hj]
  · intro i j hj hij hxy
    simp only [List.length_map] at hj
    simp only [List.getElem_map]
    have hnl : lt (L[i]'(by omega)).1 L[j].1 = false := by
      apply hxy
      · simp [List.getElem?_eq_getElem (show i < L.length by omega)]
      · simp [List.getElem?_eq_getElem hj]
    have hsorted : lt L[j].1 (L[i]'(by omega)).1 = false :=
      pairwise_map_idx L _ hsP.sorted i j hij hj
    -- both lie in the equivalence class of L[i], where the order is the input order
    have hst := hsP.stable (L[i]'(by omega))
    have hinc : ((pairs id a).filter (equiv (ltP lt) (L[i]'(by omega)))).Pairwise fun x y => x.2 < y.2 := by
      apply List.Pairwise.filter
      rw [List.pairwise_iff_getElem]
      intro s t hs ht hst
      rw [pairs_getElem, pairs_getElem]
      exact hst
    rw [← hst] at hinc
    have : [L[i]'(by omega), L[j]].Sublist (L.filter (equiv (ltP lt) (L[i]'(by omega)))) := by
      have h1 : [L[i]'(by omega), L[j]].Sublist L := by
        have e : L = L.take j ++ L.drop j := (List.take_append_drop j L).symm
        have hi' : i < (L.take j).length := by rw [List.length_take]; omega
        have s1 : [L[i]'(by omega)].Sublist (L.take j) := by
          rw [List.singleton_sublist]
          have := List.getElem_mem hi'
          rwa [List.getElem_take] at this
        have s2 : [L[j]].Sublist (L.drop j) := by
          rw [List.drop_eq_getElem_cons hj]
          exact (List.nil_sublist _).cons₂ _
        have := s1.append s2
        rwa [List.take_append_drop] at this
      have h2 := h1.filter (equiv (ltP lt) (L[i]'(by omega)))
      rw [List.filter_cons_of_pos, List.filter_cons_of_pos, List.filter_nil] at h2
      · exact h2
      · simp [equiv, ltP, hnl, hsorted]
      · exact equiv_self (ltP_weak h) _
    have h3 := hinc.sublist this
    rw [List.pairwise_cons] at h3
    exact h3.1 _ (by simp)

/-- `vorder` on a register with at most `2^w` lanes, where `w` is the bit width of the index
lanes: the result holds the sorting permutation itself. -/
theorem C16_vorder (lt : α → α → Bool) (h : StrictWeak lt) (w : Nat) (p : List Nat) (a : List α)
    (hp : p.length = a.length) (ha : 0 < a.length) (hw : a.length ≤ 2 ^ w) :
    ∃ (q : List Nat) (b : List α), vorder lt w a.length p a = some q ∧ StableSort lt a b ∧
      q.Perm (List.range a.length) ∧ (∀ j (hj : j < q.length), b[j]? = a[q[j]]?) := by
  obtain ⟨q, b, h1, h2, h3, h4, _⟩ := C16_indices lt h (fun i => i % 2 ^ w) p a hp ha
  have hq : q.map (fun i => i % 2 ^ w) = q := by
    conv => rhs; rw [← List.map_id q]
    apply List.map_congr_left
    intro i hi
    have : i < a.length := List.mem_range.1 (h3.mem_iff.1 hi)
    exact Nat.mod_eq_of_lt (by omega)
  rw [hq] at h1
  refine ⟨q, b, ?_, h2, h3, h4⟩
  unfold vorder
  rw [h1]; rfl

example : insertionSortIdx (fun a b : Nat => decide (a < b)) id [7, 7, 7, 7] [3, 1, 3, 0] 4 =
    some ([3, 1, 0, 2], [0, 1, 3, 3]) := by decide

/-! ### C17 -/

/-- For every run length `M ≥ 1` and number `n` of elements, both at most 2^30, every previous content of the scratch
array (`tmp`, of size `MAX_N ≥ n`) and every array with at least `n` elements, `MergeSort` succeeds, replaces the
first `n` elements by their stable sort and leaves the others alone. -/
theorem C17_merge_sort (lt : α → α → Bool) (h : StrictWeak lt) (M : Nat) (hM : 1 ≤ M) (hM' : M ≤ 2 ^ 30) (tmp a : List α)
    (n : Nat) (hn' : n ≤ 2 ^ 30) (hn : n ≤ a.length) (hmax : n ≤ tmp.length) :
    ∃ b tmp', mergeSort lt M tmp a n = some (b, tmp') ∧ b.length = a.length ∧
      StableSort lt (a.take n) (b.take n) ∧ b.drop n = a.drop n := by
  have hl : (a.take n).length = n := by rw [List.length_take]; omega
  obtain ⟨t', ht⟩ := mergeSort_spec h M hM (a.take n) (a.drop n) (tmp.take n) (tmp.drop n)
    (by omega) hM' (by rw [List.length_take, List.length_take]; omega)
  rw [List.take_append_drop, List.take_append_drop, hl] at ht
  have hi := isort_length (lt := lt) (a.take n)
  refine ⟨_, t', ht, ?_, ?_, ?_⟩
  · rw [List.length_append, hi, hl, List.length_drop]; omega
  · rw [List.take_left' (hi.trans hl)]; exact isort_spec h _
  · rw [List.drop_left' (hi.trans hl)]

theorem whileF_inv {σ : Type} {c : σ → Bool} {g : σ → Option σ} (I : σ → Prop) (hI : ∀ s s', I s → c s = true → g s = some s' → I s') :
    ∀ (f : Nat) (s r : σ), I s → whileF f c g s = some r → I r ∧ c r = false := by
  intro f
  induction f with
  | zero => intro s r _ h; simp [whileF] at h
  | succ f ih =>
    intro s r hs h
    rw [whileF] at h
    by_cases hc : c s = true
    · rw [if_pos hc] at h
      cases hg : g s with
      | none => rw [hg] at h; simp at h
      | some s' => rw [hg] at h; exact ih s' r (hI s s' hs hc hg) h
    · rw [if_neg hc] at h
      cases h
      exact ⟨hs, by simpa using hc⟩

/-- The bound is needed: with a power of two as run length (the default is 32) and more than 2^30 elements the doubled run length overflows, whatever the arrays and the comparison. -/
theorem C17_overflow (lt : α → α → Bool) (k : Nat) (hk : k ≤ 30) (tmp a : List α) (n : Nat) (hn : 2 ^ 30 < n) : mergeSort lt (2 ^ k) tmp a n = none := by
  cases h : mergeSort lt (2 ^ k) tmp a n with
  | none => rfl
  | some r =>
    exfalso
    unfold mergeSort at h
    cases h1 : runsLoop lt n (2 ^ k) a with
    | none => rw [h1] at h; simp at h
    | some b =>
      rw [h1] at h
      simp only [Option.bind_eq_bind, Option.bind_some] at h
      rw [Option.bind_eq_some_iff] at h
      obtain ⟨s, hs, -⟩ := h
      obtain ⟨⟨j, hj, hj'⟩, hc⟩ := whileF_inv (fun s : Nat × List α × List α => ∃ j, j ≤ 30 ∧ s.1 = 2 ^ j) (by
        rintro ⟨l, b, t⟩ ⟨l', b', t'⟩ ⟨j, hj, rfl⟩ - hg
        dsimp only at hg ⊢
        rw [Option.bind_eq_some_iff] at hg
        obtain ⟨_, -, hg⟩ := hg
        rw [Option.bind_eq_some_iff] at hg
        obtain ⟨_, -, hg⟩ := hg
        rw [Option.bind_eq_some_iff] at hg
        obtain ⟨l2, hl, hg⟩ := hg
        simp only [Option.pure_def, Option.some.injEq, Prod.mk.injEq] at hg
        obtain ⟨rfl, -⟩ := hg
        unfold int31 assertUB at hl
        split at hl
        · rename_i hlt
          cases hl
          refine ⟨j + 1, ?_, by rw [Nat.pow_succ]⟩
          by_contra hc
          have : j = 30 := by omega
          subst this
          norm_num at hlt
        · cases hl) _ _ _ ⟨k, hk, rfl⟩ hs
      have : 2 ^ j ≤ 2 ^ 30 := Nat.pow_le_pow_right (by omega) hj
      simp only [decide_eq_false_iff_not, hj'] at hc
      omega

/-- It computes the same array as `insertion_sort`. -/
theorem C17_agrees_with_insertion_sort (lt : α → α → Bool) (h : StrictWeak lt) (M : Nat) (hM : 1 ≤ M) (hM' : M ≤ 2 ^ 30)
    (tmp a : List α) (ha : a.length ≤ 2 ^ 30) (hmax : a.length ≤ tmp.length) :
    (mergeSort lt M tmp a a.length).map (·.1) = insertionSort lt a 0 a.length := by
  obtain ⟨b, t', h1, h2, h3, _⟩ := C17_merge_sort lt h M hM hM' tmp a a.length ha (Nat.le_refl _) hmax
  obtain ⟨c, h4, h5⟩ := C15_whole_array lt h a
  rw [List.take_length, ← h2, List.take_length] at h3
  rw [h1, h4, Option.map_some, h3.unique h h5]

example : (mergeSort (fun a b : Nat => decide (a / 2 < b / 2)) 2 (List.replicate 9 0)
    [5, 2, 3, 4, 1, 0, 7] 7).map (·.1) = some [1, 0, 2, 3, 5, 4, 7] := by decide

end Verif.Sort
