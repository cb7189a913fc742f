import Verif.Polar.PropsEnc
/- C36: exactly which frozen sets the systematic encoder works for. -/
namespace Verif.Polar
open Finset

/-- Between any two positions that are not frozen the number of frozen positions is even; a position is between `b` and `a` if its bits include those of `b` and
are included in those of `a`. -/
def Balanced (frozen : List Nat) (level : Nat) : Prop :=
  ∀ a b, a < 2 ^ level → b < 2 ^ level → ¬ Frozen frozen a → ¬ Frozen frozen b →
    Even ((range (2 ^ level)).filter fun k => Frozen frozen k ∧ k &&& b = b ∧ a &&& k = k).card

theorem Closed.balanced {frozen : List Nat} {level : Nat} (h : Closed frozen level) : Balanced frozen level := by
  intro a b _ hb _ hnb
  rw [filter_false_of_mem, card_empty]
  · exact Even.zero
  · rintro k hk ⟨h1, h2, -⟩
    exact h b k hb (mem_range.1 hk) hnb h2 h1

theorem prod_if_const (R : Finset Nat) (p : Nat → Prop) [DecidablePred p] (c : Int) : (∏ i ∈ R, if p i then c else 1) = c ^ (R.filter p).card := by
  rw [← prod_filter, prod_const]

/-- The product of the transformed symbols at the frozen positions above `j`. -/
theorem frozen_part (frozen : List Nat) (level j : Nat) (u : Nat → Int) :
    (∏ i ∈ (range (2 ^ level)).filter (fun i => Frozen frozen i ∧ i &&& j = j), polar level u i) =
      ∏ k ∈ range (2 ^ level), u k ^ ((range (2 ^ level)).filter fun i => Frozen frozen i ∧ i &&& j = j ∧ k &&& i = i).card := by
  rw [prod_filter]
  have e : ∀ i ∈ range (2 ^ level), (if Frozen frozen i ∧ i &&& j = j then polar level u i else 1) =
      ∏ k ∈ range (2 ^ level), if Frozen frozen i ∧ i &&& j = j ∧ k &&& i = i then u k else 1 := by
    intro i _
    split
    · rename_i h
      unfold polar
      rw [prod_filter]
      refine prod_congr rfl fun k _ => ?_
      simp only [h, true_and]
    · rename_i h
      symm
      exact prod_eq_one fun k _ => if_neg fun hh => h ⟨hh.1, hh.2.1⟩
  rw [prod_congr rfl e, prod_comm]
  refine prod_congr rfl fun k _ => prod_if_const _ _ _

/-- What the systematic encoder leaves at a position that is not frozen: the message symbol times the transformed symbols at the frozen positions above it. -/
theorem sys_free (codeword message : List Int) (frozen : List Nat) (level : Nat) (hl : 1 ≤ level)
    (hf : 2 ^ level ≤ 32 * frozen.length) (hm : freeBelow frozen (2 ^ level) ≤ message.length)
    (hc : 2 ^ level ≤ codeword.length) (hi : ∀ x ∈ message, x = 1 ∨ x = -1) :
    ∃ cw, sysEncode ph8 codeword message frozen level = some cw ∧ cw.length = codeword.length ∧
      (∀ j, j < 2 ^ level → ¬ Frozen frozen j → cw.getD j 0 * ∏ k ∈ range (2 ^ level), symbolAt frozen message k ^
        ((range (2 ^ level)).filter fun i => Frozen frozen i ∧ i &&& j = j ∧ k &&& i = i).card = symbolAt frozen message j) ∧
      (∀ i, 2 ^ level ≤ i → cw.getD i 0 = codeword.getD i 0) ∧ ∃ w : Nat → Int, (∀ i, Sym (w i)) ∧ (∀ i, Frozen frozen i → w i = 1) ∧
        ∀ j, j < 2 ^ level → cw.getD j 0 = polar level w j := by
  have hm' := hm
  rw [← rank_eq] at hm'
  obtain ⟨cw, e, h1, h2⟩ := sysEncode_ok (H := ph8) (message := message) (frozen := frozen) (k := level) (c := codeword) 0 hl hf hm' hc
  have hs := symbolAt_sym (frozen := frozen) hi
  let x1 : Nat → Int := P (· * ·) level (symbolAt frozen message)
  have hx1 : ∀ i, Sym (x1 i) := P_sym _ _ hs
  have e1 : P ph8.qmul level (complete ph8.one (fbit frozen) message) = x1 := by
    funext j; rw [complete_eq, P8_sym _ _ hs]
  let w : Nat → Int := mask 1 (fbit frozen) x1
  have hw : ∀ i, Sym (w i) := by
    intro i
    show Sym (ite _ _ _)
    split
    · exact Or.inl rfl
    · exact hx1 i
  have hcw : ∀ i, i < 2 ^ level → cw.getD i 0 = P (· * ·) level w i := by
    intro i hi
    rw [h2, if_pos hi, e1]
    exact P8_sym _ _ hw i
  refine ⟨cw, e, h1, fun j hj hn => ?_, fun i hi => by rw [h2, if_neg (by omega)], w, hw, fun i hfi => if_pos hfi, fun j hj => by rw [hcw j hj, P_prod level _ j hj]; rfl⟩
  rw [hcw j hj, P_prod level _ j hj, ← frozen_part]
  have hinv := P_invol level (symbolAt frozen message) (fun i => (hs i).sq) j hj
  rw [P_prod level _ j hj] at hinv
  rw [← hinv, ← prod_filter_mul_prod_filter_not ((range (2 ^ level)).filter fun i => i &&& j = j) (fun i => Frozen frozen i) (fun i => P (· * ·) level (symbolAt frozen message) i),
    ← prod_filter_mul_prod_filter_not ((range (2 ^ level)).filter fun i => i &&& j = j) (fun i => Frozen frozen i) w]
  have a1 : (∏ i ∈ ((range (2 ^ level)).filter fun i => i &&& j = j).filter (fun i => Frozen frozen i), w i) = 1 :=
    prod_eq_one fun i hi => if_pos (mem_filter.1 hi).2
  have a2 : (∏ i ∈ ((range (2 ^ level)).filter fun i => i &&& j = j).filter (fun i => ¬ Frozen frozen i), w i) =
      ∏ i ∈ ((range (2 ^ level)).filter fun i => i &&& j = j).filter (fun i => ¬ Frozen frozen i), P (· * ·) level (symbolAt frozen message) i :=
    prod_congr rfl fun i hi => if_neg (mem_filter.1 hi).2
  have a3 : (∏ i ∈ ((range (2 ^ level)).filter fun i => i &&& j = j).filter (fun i => Frozen frozen i), P (· * ·) level (symbolAt frozen message) i) =
      ∏ i ∈ (range (2 ^ level)).filter (fun i => Frozen frozen i ∧ i &&& j = j), polar level (symbolAt frozen message) i := by
    rw [filter_filter]
    refine prod_congr (filter_congr fun i _ => and_comm) fun i hi => ?_
    rw [P_prod level _ i (mem_range.1 (mem_filter.1 hi).1)]; rfl
  rw [a1, a2, a3, one_mul, mul_comm]

/-- **C36**, any frozen set: the systematic encoder stays inside its arrays, leaves the rest of the codeword array alone, and its output is
the codeword of some ±1 message under the non-systematic encoder with the same frozen set. -/
theorem C36_codeword (codeword message : List Int) (frozen : List Nat) (level : Nat) (hl : 1 ≤ level)
    (hf : 2 ^ level ≤ 32 * frozen.length) (hm : freeBelow frozen (2 ^ level) ≤ message.length)
    (hc : 2 ^ level ≤ codeword.length) (hi : ∀ x ∈ message, x = 1 ∨ x = -1) :
    ∃ cw, sysEncode ph8 codeword message frozen level = some cw ∧ cw.length = codeword.length ∧ (∀ i, 2 ^ level ≤ i → cw.getD i 0 = codeword.getD i 0) ∧
      ∃ m', m'.length = freeBelow frozen (2 ^ level) ∧ (∀ x ∈ m', x = 1 ∨ x = -1) ∧ encode ph8 codeword m' frozen level = some cw := by
  obtain ⟨cw, e, h1, -, h3, w, hw, hw1, h4⟩ := sys_free codeword message frozen level hl hf hm hc hi
  refine ⟨cw, e, h1, h3, ?_⟩
  let free : List Nat := (List.range (2 ^ level)).filter fun j => !fbit frozen j
  have hfl : free.length = freeBelow frozen (2 ^ level) := by rw [← rank_eq]; rfl
  have hpos : ∀ i, i < 2 ^ level → ¬ Frozen frozen i → free[freeBelow frozen i]? = some i := by
    intro i hil hn
    rw [← rank_eq]
    have e : List.range (2 ^ level) = List.range i ++ i :: (List.range (2 ^ level - i - 1)).map (fun x => i + 1 + x) := by
      conv_lhs => rw [show 2 ^ level = i + (1 + (2 ^ level - i - 1)) by omega]
      rw [List.range_add, List.range_add]
      simp [Function.comp_def, add_assoc]
    have hb : (!fbit frozen i) = true := by
      cases h : fbit frozen i
      · rfl
      · exact absurd h hn
    show (List.filter _ _)[_]? = _
    rw [e, List.filter_append, List.filter_cons_of_pos (p := fun j => !fbit frozen j) hb]
    unfold rank
    rw [List.getElem?_append_right (le_refl _), Nat.sub_self]; rfl
  have hm'l : (free.map w).length = freeBelow frozen (2 ^ level) := by rw [← hfl]; simp
  have hm's : ∀ x ∈ free.map w, x = 1 ∨ x = -1 := by
    intro x hx
    obtain ⟨j, _, rfl⟩ := List.mem_map.1 hx
    exact hw j
  obtain ⟨c', ec, ⟨l', w'⟩, _⟩ := C35_hard codeword (free.map w) frozen level hl hf (by omega) hc hm's
  refine ⟨free.map w, hm'l, hm's, ?_⟩
  rw [ec]
  congr 1
  refine ext_getD 0 (by omega) fun j _ => ?_
  rw [w']
  by_cases hj : j < 2 ^ level
  · rw [if_pos hj, h4 j hj]
    unfold polar
    refine prod_congr rfl fun i hi => ?_
    have hil : i < 2 ^ level := mem_range.1 (mem_filter.1 hi).1
    unfold symbolAt
    by_cases hn : Frozen frozen i
    · rw [if_pos hn, hw1 i hn]
    · rw [if_neg hn, List.getD_eq_getElem?_getD, List.getElem?_map, hpos i hil hn]
      rfl
  · rw [if_neg hj, h3 j (by omega)]

/-- **C36**, exactly: the systematic encoder puts every ±1 message, in order, at the positions that are not frozen if and only if the number of frozen
positions between any two positions that are not frozen is even. -/
theorem C36_iff (codeword : List Int) (frozen : List Nat) (level : Nat) (hl : 1 ≤ level) (hf : 2 ^ level ≤ 32 * frozen.length) (hc : 2 ^ level ≤ codeword.length) :
    (∀ message : List Int, message.length = freeBelow frozen (2 ^ level) → (∀ x ∈ message, x = 1 ∨ x = -1) →
      ∃ cw, sysEncode ph8 codeword message frozen level = some cw ∧
        ∀ i, i < 2 ^ level → ¬ Frozen frozen i → cw.getD i 0 = message.getD (freeBelow frozen i) 0) ↔ Balanced frozen level := by
  have hlow := fun i => free_lt (frozen := frozen) (i := i) (n := 2 ^ level)
  have hsym : ∀ (message : List Int) i, i < 2 ^ level → ¬ Frozen frozen i → message.length = freeBelow frozen (2 ^ level) → symbolAt frozen message i = message.getD (freeBelow frozen i) 0 := by
    intro message i hil hn hm
    unfold symbolAt
    rw [if_neg hn]
    have := hlow i hil hn
    rw [← getElem_eq_getD (by omega), ← getElem_eq_getD (by omega)]
  constructor
  · intro h a b ha hb hna hnb
    -- the message with -1 at position `a` only
    have hra := hlow a ha hna
    set m : List Int := (List.replicate (freeBelow frozen (2 ^ level)) 1).set (freeBelow frozen a) (-1) with hmdef
    have hml : m.length = freeBelow frozen (2 ^ level) := by simp [m]
    have hms : ∀ x ∈ m, x = 1 ∨ x = -1 := by
      intro x hx
      rcases List.mem_or_eq_of_mem_set hx with h1 | h1
      · exact Or.inl (List.eq_of_mem_replicate h1)
      · exact Or.inr h1
    obtain ⟨cw, e, hcw⟩ := h m hml hms
    obtain ⟨_, e', -, h2, -⟩ := sys_free codeword m frozen level hl hf (by omega) hc hms
    rw [e] at e'; cases e'
    have h3 := h2 b hb hnb
    rw [hcw b hb hnb, hsym m b hb hnb hml] at h3
    have hne : m.getD (freeBelow frozen b) 0 ≠ 0 := by
      rw [← hsym m b hb hnb hml]
      rcases symbolAt_sym (frozen := frozen) hms b with h | h <;> rw [h] <;> decide
    have h4 : ∏ k ∈ range (2 ^ level), symbolAt frozen m k ^ ((range (2 ^ level)).filter fun i => Frozen frozen i ∧ i &&& b = b ∧ k &&& i = i).card = 1 := by
      exact mul_left_cancel₀ hne (by rw [h3, mul_one])
    rw [prod_eq_single a] at h4
    · have : symbolAt frozen m a = -1 := by
        rw [hsym m a ha hna hml, List.getD_eq_getElem?_getD, hmdef, List.getElem?_set_self (by simpa using hra)]; rfl
      rw [this] at h4
      exact (neg_one_pow_eq_one_iff_even (by decide)).1 h4
    · intro k hk hka
      have hk := mem_range.1 hk
      have : symbolAt frozen m k = 1 := by
        by_cases hn : Frozen frozen k
        · unfold symbolAt; rw [if_pos hn]
        · rw [hsym m k hk hn hml, List.getD_eq_getElem?_getD, hmdef, List.getElem?_set_ne]
          · have := hlow k hk hn
            rw [List.getElem?_replicate, if_pos this]; rfl
          · intro heq
            have mono : ∀ i j, i < j → ¬ Frozen frozen i → freeBelow frozen i < freeBelow frozen j := by
              intro i j hij hni
              have := rank_mono (fbit frozen) (show i + 1 ≤ j by omega)
              rw [rank_succ, if_neg (show ¬ fbit frozen i = true from hni), rank_eq, rank_eq] at this
              omega
            rcases lt_trichotomy a k with h5 | h5 | h5
            · have := mono a k h5 hna; omega
            · exact hka h5.symm
            · have := mono k a h5 hn; omega
      rw [this, one_pow]
    · intro hna'
      exact absurd (mem_range.2 ha) hna'
  · intro h message hm hms
    obtain ⟨cw, e, -, h2, -⟩ := sys_free codeword message frozen level hl hf (by omega) hc hms
    refine ⟨cw, e, fun j hj hn => ?_⟩
    rw [← hsym message j hj hn hm, ← h2 j hj hn, prod_eq_one, mul_one]
    intro k hk
    by_cases hfk : Frozen frozen k
    · unfold symbolAt; rw [if_pos hfk, one_pow]
    · rcases symbolAt_sym (frozen := frozen) hms k with h5 | h5
      · rw [h5, one_pow]
      · rw [h5, (h k j (mem_range.1 hk) hj hfk hn).neg_one_pow]

/-- The information set {0, 3} is not closed (1 and 2 are frozen), but the encoder is systematic for it. -/
example : ¬ Closed [0b0110] 2 ∧ Balanced [0b0110] 2 := by
  refine ⟨fun h => h 0 1 (by decide) (by decide) (by decide) (by decide) (by decide), ?_⟩
  have : ∀ a < 4, ∀ b < 4, ¬ Frozen [0b0110] a → ¬ Frozen [0b0110] b → Even ((range (2 ^ 2)).filter fun k => Frozen [0b0110] k ∧ k &&& b = b ∧ a &&& k = k).card := by decide
  exact fun a b ha hb => this a ha b hb
/-- The information set {0, 1, 3} is not balanced: only 2 is frozen between 0 and 3 (C36_closure_needed shows a message that does not come out). -/
example : ¬ Balanced [0b0100] 2 := fun h => absurd (h 3 0 (by decide) (by decide) (by decide) (by decide)) (by decide)

end Verif.Polar
