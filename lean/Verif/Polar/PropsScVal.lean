import Verif.Polar.PropsSc
/- C37: which values the SC decoder writes. -/
namespace Verif.Polar
open Verif (Ok)

variable {τ : Type}

theorem T_all {q : τ → τ → τ} {Q : τ → Prop} (hq : ∀ a b, Q a → Q b → Q (q a b)) : ∀ (M : Nat) (l : List τ), (∀ x ∈ l, Q x) → ∀ x ∈ T q M l, Q x := by
  intro M
  induction M with
  | zero => intro l h; exact h
  | succ M ih =>
    intro l h x hx
    have h1 := ih (l.take (2 ^ M)) fun y hy => h y (List.mem_of_mem_take hy)
    have h2 := ih (l.drop (2 ^ M)) fun y hy => h y (List.mem_of_mem_drop hy)
    rcases List.mem_append.1 hx with hx | hx
    · obtain ⟨i, hi, rfl⟩ := List.getElem_of_mem hx
      rw [List.getElem_zipWith]
      exact hq _ _ (h1 _ (List.getElem_mem _)) (h2 _ (List.getElem_mem _))
    · exact h2 x hx

theorem sc_values_node (H : PH τ) (Q : τ → Prop) (M : Nat)
    (ih : ∀ (f : List Bool) (x : Msg τ) (s : List τ), f.length = 2 ^ M → s.length = 2 ^ M →
    x.p + (f.filter fun b => !b).length ≤ x.msg.length →
    Ok (childF (scWalk H) (scN H) (fun M => treeF (scWalk H) (scN H) M) M f x s)
      (fun r => r.1.p = x.p + (f.filter fun b => !b).length ∧ r.2.1.length = 2 ^ M ∧
        ∃ l, l.length = (f.filter fun b => !b).length ∧ r.1.msg = put x.msg x.p l ∧ ∀ y ∈ l, Q y))
    (f : List Bool) (x : Msg τ) (s : List τ) (hf : f.length = 2 ^ (M + 1)) (hs : s.length = 2 ^ (M + 1))
    (hp : x.p + (f.filter fun b => !b).length ≤ x.msg.length) :
    Ok (treeF (scWalk H) (scN H) (M + 1) f x s)
      (fun r => r.1.p = x.p + (f.filter fun b => !b).length ∧ r.2.1.length = 2 ^ (M + 1) ∧
        ∃ l, l.length = (f.filter fun b => !b).length ∧ r.1.msg = put x.msg x.p l ∧ ∀ y ∈ l, Q y) := by
  have e := two_pow_succ' M
  have hf1 : (f.take (2 ^ M)).length = 2 ^ M := by simp [hf, e]
  have hf2 : (f.drop (2 ^ M)).length = 2 ^ M := by simp [hf, e]
  have es1 : (s.take (2 ^ M)).length = 2 ^ M := by simp [hs, e]
  have es2 : (s.drop (2 ^ M)).length = 2 ^ M := by simp [hs, e]
  have hcount : (f.filter fun b => !b).length = ((f.take (2 ^ M)).filter fun b => !b).length + ((f.drop (2 ^ M)).filter fun b => !b).length := by
    rw [← List.length_append, ← List.filter_append, List.take_append_drop]
  rw [hcount] at hp ⊢
  rw [treeF]
  refine Ok.bind' (ih (f.take (2 ^ M)) x (List.zipWith H.prod (s.take (2 ^ M)) (s.drop (2 ^ M))) hf1 (by simp [es1, es2]) (by omega)) ?_
  rintro ⟨⟨ml, pl⟩, hl, ⟨⟩⟩ ⟨a1, a2, l1, a3, a4, a5⟩
  dsimp only at a1 a2 a4
  subst a1 a4
  refine Ok.bind' (ih (f.drop (2 ^ M)) _ _ hf2 ?_ ?_) ?_
  · rw [zip3_length, List.length_map, List.length_map, es1, es2, a2]; simp
  · dsimp only; rw [put_length (by omega)]; omega
  · rintro ⟨⟨ml', pl'⟩, hl', ⟨⟩⟩ ⟨b1, b2, l2, b3, b4, b5⟩
    dsimp only at b1 b2 b4
    refine Ok.some ⟨by dsimp only; omega, by simp [a2, b2, e], l1 ++ l2, by simp [a3, b3], ?_, ?_⟩
    · dsimp only
      rw [b4, ← a3, put_put (by omega)]
    · intro y hy
      rcases List.mem_append.1 hy with hy | hy
      · exact a5 y hy
      · exact b5 y hy

theorem sc_values (H : PH τ) (Q : τ → Prop) (hs1 : ∀ x, Q (H.signum x)) (hq : ∀ a b, Q a → Q b → Q (H.qmul a b)) :
    ∀ (M : Nat) (f : List Bool) (x : Msg τ) (s : List τ), f.length = 2 ^ M → s.length = 2 ^ M →
    x.p + (f.filter fun b => !b).length ≤ x.msg.length →
    Ok (childF (scWalk H) (scN H) (fun M => treeF (scWalk H) (scN H) M) M f x s)
      (fun r => r.1.p = x.p + (f.filter fun b => !b).length ∧ r.2.1.length = 2 ^ M ∧
        ∃ l, l.length = (f.filter fun b => !b).length ∧ r.1.msg = put x.msg x.p l ∧ ∀ y ∈ l, Q y) := by
  intro M
  induction M with
  | zero =>
    intro f x s hf hs hp
    obtain ⟨b, rfl⟩ : ∃ b, f = [b] := List.length_eq_one_iff.1 hf
    obtain ⟨w, rfl⟩ : ∃ w, s = [w] := List.length_eq_one_iff.1 hs
    unfold childF
    cases b with
    | true =>
      rw [if_pos (by simp)]
      exact Ok.some ⟨rfl, by simp, [], rfl, (put_nil _ _).symm, by simp⟩
    | false =>
      rw [if_neg (by simp), if_pos (by simp)]
      have hp' : x.p + 1 ≤ x.msg.length := hp
      simp only [scN]
      rw [if_pos (show x.p + 2 ^ 0 ≤ _ from hp')]
      exact Ok.some ⟨rfl, rfl, [H.signum w], rfl, rfl, by simpa using hs1 w⟩
  | succ M ih =>
    intro f x s hf hs hp
    have e := two_pow_succ' M
    unfold childF
    by_cases c0 : M + 1 ≤ 5 ∧ f.all (fun b => b) = true
    · have h0 : (f.filter fun b => !b) = [] := by
        rw [List.filter_eq_nil_iff]; intro b hb; simp [List.all_eq_true.1 c0.2 b hb]
      rw [if_pos c0, h0]
      exact Ok.some ⟨rfl, by simp, [], rfl, (put_nil _ _).symm, by simp⟩
    rw [if_neg c0]
    by_cases c1 : (M + 1 = 0 ∨ M + 1 ≤ 5 ∧ (scWalk H).sc1 = true) ∧ f.all (fun b => !b) = true
    · have h0 : (f.filter fun b => !b) = f := List.filter_eq_self.2 fun b hb => List.all_eq_true.1 c1.2 b hb
      rw [h0, hf] at hp ⊢
      rw [if_pos c1]
      simp only [scN]
      rw [if_pos hp]
      refine Ok.some ⟨rfl, by simp [hs], _, T_length _ _ _ (by simpa using hs), rfl, T_all hq _ _ ?_⟩
      intro y hy
      obtain ⟨z, -, rfl⟩ := List.mem_map.1 hy
      exact hs1 z
    rw [if_neg c1]
    exact sc_values_node H Q M ih f x s hf hs hp

/-- **C37** (the values written): whatever is received, the SC decoder for `int8_t` writes nothing but -1, 0 and 1, exactly one value for each position that is not frozen. -/
theorem C37_values (MAX_M : Nat) (soft hard codeword out : List Int) (frozen : List Nat) (level : Nat)
    (hcall : Call MAX_M soft hard codeword frozen level) (ho : freeBelow frozen (2 ^ level) ≤ out.length) :
    ∃ l, l.length = freeBelow frozen (2 ^ level) ∧ (∀ y ∈ l, y = -1 ∨ y = 0 ∨ y = 1) ∧
      scDecode ph8 MAX_M soft hard out codeword frozen level = some (l ++ out.drop (freeBelow frozen (2 ^ level))) := by
  obtain ⟨g1, g2, g3, g4, g5, g6, g7, g8⟩ := hcall
  rw [← rank_eq] at ho ⊢
  obtain ⟨k, rfl⟩ : ∃ k, level = k + 1 := ⟨level - 1, by omega⟩
  have hs1 : ∀ x, ph8.signum x = -1 ∨ ph8.signum x = 0 ∨ ph8.signum x = 1 := by
    intro x
    show PolarHelper.signum x = -1 ∨ PolarHelper.signum x = 0 ∨ PolarHelper.signum x = 1
    have h3 : PolarHelper.sgn x = -1 ∨ PolarHelper.sgn x = 0 ∨ PolarHelper.sgn x = 1 := by
      unfold PolarHelper.sgn
      split <;> split <;> simp
    unfold PolarHelper.signum
    rcases h3 with h | h | h <;> rw [h] <;> decide
  have hq : ∀ a b : Int, (a = -1 ∨ a = 0 ∨ a = 1) → (b = -1 ∨ b = 0 ∨ b = 1) → ph8.qmul a b = -1 ∨ ph8.qmul a b = 0 ∨ ph8.qmul a b = 1 := by
    rintro a b (rfl | rfl | rfl) (rfl | rfl | rfl) <;> decide
  obtain ⟨r, hr, _, _, l, hl, hput, hv⟩ := sc_values_node ph8 (fun y => y = -1 ∨ y = 0 ∨ y = 1) k (sc_values ph8 _ hs1 hq k) (fbits frozen 0 (2 ^ (k + 1))) ⟨out, 0⟩ (codeword.take (2 ^ (k + 1)))
    (by simp [fbits]) (by simp [g6]) (by rw [filter_count]; simpa using ho)
  rw [filter_count] at hl
  refine ⟨l, hl, hv, ?_⟩
  rw [scDecode_tree ph8.one g2 (by omega) g3 g4 g5 g6 g7 g8 hr, hput]
  simp [put, hl]

end Verif.Polar
