import Verif.Sort.Model
/- The scratch array of the merge sort keeps its length. -/
namespace Verif.Sort
variable {α : Type}

theorem whileF_keep {σ : Type} {c : σ → Bool} {f : σ → Option σ} (I : σ → Prop) (h : ∀ s s', I s → f s = some s' → I s') :
    ∀ (k : Nat) (s s' : σ), I s → whileF k c f s = some s' → I s' := by
  intro k
  induction k with
  | zero => intro s s' _ h; simp [whileF] at h
  | succ k ih =>
    intro s s' hI hw
    unfold whileF at hw
    split at hw
    · rw [Option.bind_eq_some_iff] at hw
      obtain ⟨s1, h1, h2⟩ := hw
      exact ih s1 s' (h s s1 hI h1) h2
    · cases hw; exact hI

theorem wr_length {a b : List α} {i : Nat} {x : α} (h : wr a i x = some b) : b.length = a.length := by
  unfold wr at h
  split at h
  · cases h; exact List.length_set
  · cases h

theorem mergeLoop_length (lt : α → α → Bool) (a : List α) (right fin : Nat) :
    ∀ (cnt i j k : Nat) (tmp t : List α), mergeLoop lt a right fin cnt i j k tmp = some t → t.length = tmp.length := by
  intro cnt
  induction cnt with
  | zero => intro i j k tmp t h; unfold mergeLoop at h; cases h; rfl
  | succ cnt ih =>
    intro i j k tmp t h
    unfold mergeLoop at h
    simp only [Option.bind_eq_bind, Option.bind_eq_some_iff] at h
    obtain ⟨b, _, h⟩ := h
    split at h
    · simp only [Option.bind_eq_some_iff] at h
      obtain ⟨y, _, t', h1, h2⟩ := h
      rw [ih _ _ _ _ _ h2, wr_length h1]
    · simp only [Option.bind_eq_some_iff] at h
      obtain ⟨y, _, t', h1, h2⟩ := h
      rw [ih _ _ _ _ _ h2, wr_length h1]

theorem mergeSort_tmp {lt : α → α → Bool} {M n : Nat} {tmp a b t : List α} (h : mergeSort lt M tmp a n = some (b, t)) :
    t.length = tmp.length := by
  unfold mergeSort at h
  simp only [Option.bind_eq_bind, Option.bind_eq_some_iff] at h
  obtain ⟨a1, _, r, h1, h2⟩ := h
  simp only [Option.pure_def, Option.some.injEq] at h2
  have := whileF_keep (fun (s : Nat × List α × List α) => s.2.2.length = tmp.length) ?_ _ _ _ rfl h1
  · rw [h2] at this; exact this
  · rintro ⟨l, x, y⟩ s' hI hf
    simp only [Option.bind_eq_some_iff] at hf
    obtain ⟨y1, h3, x1, _, l2, _, h4⟩ := hf
    simp only [Option.pure_def, Option.some.injEq] at h4
    subst h4
    show y1.length = tmp.length
    rw [← hI]
    unfold passLoop at h3
    simp only [Option.bind_eq_bind, Option.bind_eq_some_iff] at h3
    obtain ⟨r', h5, h6⟩ := h3
    simp only [Option.pure_def, Option.some.injEq] at h6
    have := whileF_keep (fun (s : Nat × List α) => s.2.length = y.length) ?_ _ _ _ rfl h5
    · rw [h6] at this; exact this
    · rintro ⟨i, z⟩ s' hI hf
      simp only [Option.bind_eq_some_iff] at hf
      obtain ⟨_, _, _, _, fin, _, z1, h7, h8⟩ := hf
      simp only [Option.pure_def, Option.some.injEq] at h8
      subst h8
      show z1.length = y.length
      rw [← hI]
      unfold merge at h7
      exact mergeLoop_length _ _ _ _ _ _ _ _ _ _ h7

end Verif.Sort
