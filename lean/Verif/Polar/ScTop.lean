import Verif.Polar.ScExact
import Verif.Polar.PropsScl
/- From the nodes of the successive cancellation decoder to a call. -/
namespace Verif.Polar
variable {τ V : Type}

theorem decisions_length (A : Arith V) (M : Nat) (s : Nat → V) (fr : Nat → Prop) [DecidablePred fr] (n : Nat) : (decisions A M s fr n).length = n := by
  induction n with
  | zero => rfl
  | succ n ih => rw [decisions, List.length_append, ih]; rfl

theorem decisions_getD (A : Arith V) (M : Nat) (s : Nat → V) (fr : Nat → Prop) [DecidablePred fr] {i n : Nat} (h : i < n) :
    (decisions A M s fr n).getD i 1 = if fr i then 1 else A.sgn (softAt A M s ((decisions A M s fr i).getD · 1) M i 0) := by
  induction n with
  | zero => omega
  | succ n ih =>
    rw [decisions]
    by_cases hi : i < n
    · rw [List.getD_append _ _ _ _ (by rw [decisions_length]; exact hi), ih hi]
    · have : i = n := by omega
      subst this
      rw [List.getD_append_right _ _ _ _ (by rw [decisions_length]), decisions_length, Nat.sub_self]
      rfl

theorem decisions_pre (A : Arith V) (M : Nat) (s : Nat → V) (fr : Nat → Prop) [DecidablePred fr] {i m n : Nat} (h : i < m) (h' : i < n) :
    (decisions A M s fr n).getD i 1 = (decisions A M s fr m).getD i 1 := by
  rw [decisions_getD _ _ _ _ h, decisions_getD _ _ _ _ h']

theorem decides_of {A : Arith V} {R : Nat → V → Prop} (LA : A.Laws R) {M : Nat} {s : Nat → V} {fr : Nat → Prop} [DecidablePred fr] (h : Decided A M s fr) :
    Decides A M s fr ((decisions A M s fr (2 ^ M)).getD · 1) := by
  have e : ∀ i, i < 2 ^ M → softAt A M s ((decisions A M s fr (2 ^ M)).getD · 1) M i 0 = softAt A M s ((decisions A M s fr i).getD · 1) M i 0 := fun i hi =>
    softAt_congr A M s M i le_rfl (fun j hj => by
      rw [Nat.sub_self, pow_zero, Nat.mul_one] at hj
      exact decisions_pre A M s fr hj (hj.trans hi)) 0
  refine ⟨fun i hi hf => ?_, fun i hi hf => ?_, fun i hi hf => ?_, fun i => ?_⟩
  · rw [decisions_getD _ _ _ _ hi, if_pos hf]
  · rw [e i hi]; rw [decisions_getD _ _ _ _ hi, if_neg hf]
  · rw [e i hi]; exact h i hi hf
  · by_cases hi : i < 2 ^ M
    · rw [decisions_getD _ _ _ _ hi]
      split
      · exact Or.inl rfl
      · exact LA.sym (h i hi ‹_›)
    · rw [List.getD_eq_default _ _ (by rw [decisions_length]; omega)]
      exact Or.inl rfl

theorem sct_lane {H : PH τ} {A : Arith V} {R : Nat → V → Prop} {S : τ → V → Prop} {Hd : τ → Int → Prop} (LA : A.Laws R) {MAX_M : Nat} {soft hard codeword out : List τ} {frozen : List Nat} {level : Nat} (N : Lane H A level R S Hd)
    (hcall : Call MAX_M soft hard codeword frozen level) (s : Nat → V) (hR : ∀ j, j < 2 ^ level → R 0 (s j)) (hs : ∀ j, j < 2 ^ level → S (codeword.getD j H.one) (s j))
    (hd : Decided A level s (Frozen frozen)) (ho : freeBelow frozen (2 ^ level) ≤ out.length) {r : List τ}
    (hr : scDecode H MAX_M soft hard out codeword frozen level = some r) :
    List.Forall₂ Hd (r.take (freeBelow frozen (2 ^ level))) (freeSymbols (Frozen frozen) (decisions A level s (Frozen frozen) (2 ^ level))) := by
  obtain ⟨g1, g2, g3, g4, g5, g6, g7, g8⟩ := hcall
  have hcnt : cnt (fbits frozen 0 (2 ^ level)) = freeBelow frozen (2 ^ level) := by rw [← rank_eq]; exact filter_count _ _
  have hfl : (fbits frozen 0 (2 ^ level)).length = 2 ^ level := by simp [fbits]
  obtain ⟨l, hdv, e, h1, h2, -⟩ := (sc_exact LA N (decides_of LA hd) hR level 0 0 (by omega) (by norm_num) (fbits frozen 0 (2 ^ level)) ⟨out, 0⟩ (codeword.take (2 ^ level)) hfl
    (fun i hi => by rw [fbits_zero, getD_range_map _ _ hi, Nat.zero_mul, Nat.zero_add]; exact Iff.rfl) (by simp [g6])
    (fun i hi => by rw [getD_take_lt hi]; exact hs i hi) (by dsimp only; omega)).2 (by omega)
  rw [scDecode_tree H.one g2 (by omega) g3 g4 g5 g6 g7 g8 e] at hr
  cases hr
  have hl : l.length = freeBelow frozen (2 ^ level) := by rw [h1, hcnt]
  have : (put out 0 l).take (freeBelow frozen (2 ^ level)) = l := by simp [put, ← hl]
  dsimp only
  rw [this]
  simp only [Nat.zero_mul, Nat.zero_add] at h2
  have hw := decisions_length A level s (Frozen frozen) (2 ^ level)
  rw [← info_free (fun _ => Iff.rfl) (N := 2 ^ level) _ (by rw [hw]), hw, List.take_of_length_le (by omega)]
  convert h2 using 2
  exact ext_getD 1 (by simp [hw]) fun i hi => by rw [getD_range_map _ _ (by omega)]

theorem decided_of {A : Arith V} {M : Nat} {s : Nat → V} {u : Nat → Int} {fr : Nat → Prop} [DecidablePred fr]
    (h : ∀ i, i < 2 ^ M → if fr i then u i = 1 else u i = A.sgn (softAt A M s u M i 0) ∧ u i ≠ 0) :
    Decided A M s fr ∧ ∀ i, i < 2 ^ M → (decisions A M s fr (2 ^ M)).getD i 1 = u i := by
  have key : ∀ i, i < 2 ^ M → (if fr i then 1 else A.sgn (softAt A M s ((decisions A M s fr i).getD · 1) M i 0)) = u i ∧
      (¬ fr i → A.sgn (softAt A M s ((decisions A M s fr i).getD · 1) M i 0) ≠ 0) := by
    intro i
    induction i using Nat.strong_induction_on with
    | _ i ih =>
      intro hi
      have e : softAt A M s ((decisions A M s fr i).getD · 1) M i 0 = softAt A M s u M i 0 :=
        softAt_congr A M s M i le_rfl (fun j hj => by
          rw [Nat.sub_self, pow_zero, Nat.mul_one] at hj
          rw [decisions_getD _ _ _ _ hj]
          exact (ih j hj (hj.trans hi)).1) 0
      have := h i hi
      by_cases hf : fr i
      · rw [if_pos hf] at this ⊢
        exact ⟨this.symm, fun h => absurd hf h⟩
      · rw [if_neg hf] at this ⊢
        rw [e]
        refine ⟨this.1.symm, fun _ h0 => this.2 ?_⟩
        rw [this.1, h0]
  exact ⟨fun i hi => (key i hi).2, fun i hi => by rw [decisions_getD _ _ _ _ hi]; exact (key i hi).1⟩

end Verif.Polar
