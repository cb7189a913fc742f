import Verif.Polar.Algebra
/- C35, C36 (polar_encoder.hh). -/
namespace Verif.Polar
open Finset
open PolarHelper (t8 I8)

/-! ### Specification -/

/-- Position `i` is frozen: bit `i % 32` of word `i / 32`. -/
def Frozen (frozen : List Nat) (i : Nat) : Prop := (frozen.getD (i / 32) 0).testBit (i % 32) = true

instance (frozen : List Nat) (i : Nat) : Decidable (Frozen frozen i) := inferInstanceAs (Decidable (_ = true))

/-- The number of positions below `i` that are not frozen. -/
noncomputable def freeBelow (frozen : List Nat) (i : Nat) : Nat := ((range i).filter fun j => ¬ Frozen frozen j).card

/-- The symbol fed into the transform at position `i`: 1 at the frozen positions, the message symbols
in order at the others. -/
noncomputable def symbolAt (frozen : List Nat) (message : List Int) (i : Nat) : Int :=
  if Frozen frozen i then 1 else message.getD (freeBelow frozen i) 1

/-- The polar transform: the product over all positions whose bits include the bits of `j`. -/
noncomputable def polar (level : Nat) (u : Nat → Int) (j : Nat) : Int :=
  ∏ i ∈ (range (2 ^ level)).filter (fun i => i &&& j = j), u i

theorem rank_eq (frozen : List Nat) (i : Nat) : rank (fbit frozen) i = freeBelow frozen i := by
  induction i with
  | zero => rfl
  | succ i ih =>
    rw [rank_succ, ih]
    unfold freeBelow
    rw [range_add_one, filter_insert]
    have e : Frozen frozen i ↔ fbit frozen i = true := Iff.rfl
    by_cases h : fbit frozen i = true
    · rw [if_pos h, if_neg (by simp [e, h])]; rfl
    · rw [if_neg h, if_pos (by simp [e, h]), card_insert_of_notMem (by simp)]

theorem complete_eq (frozen : List Nat) (message : List Int) : complete ph8.one (fbit frozen) message = symbolAt frozen message := by
  funext i
  unfold complete symbolAt
  rw [rank_eq]; rfl

theorem getD_I8 {l : List Int} (h : ∀ x ∈ l, I8 x) (i : Nat) : I8 (l.getD i 1) := by
  by_cases hi : i < l.length
  · rw [← getElem_eq_getD hi]; exact h _ (List.getElem_mem hi)
  · rw [List.getD_eq_default _ _ (by omega)]; exact ⟨by omega, by omega⟩

theorem getD_Sym {l : List Int} (h : ∀ x ∈ l, x = 1 ∨ x = -1) (i : Nat) : Sym (l.getD i 1) := by
  by_cases hi : i < l.length
  · rw [← getElem_eq_getD hi]; exact h _ (List.getElem_mem hi)
  · rw [List.getD_eq_default _ _ (by omega)]; exact Or.inl rfl

theorem symbolAt_sym {frozen : List Nat} {message : List Int} (h : ∀ x ∈ message, x = 1 ∨ x = -1) (i : Nat) :
    Sym (symbolAt frozen message i) := by
  unfold symbolAt
  split
  · exact Or.inl rfl
  · exact getD_Sym h _

/-- The call writes the first `2 ^ level` cells of `codeword` with the values `f` and nothing else. -/
def Writes (codeword cw : List Int) (level : Nat) (f : Nat → Int) : Prop :=
  cw.length = codeword.length ∧ ∀ i, cw.getD i 0 = if i < 2 ^ level then f i else codeword.getD i 0

/-! ### C35 -/

/-- The encoder, for every level from 1, frozen set and message of `int8_t` values: no access outside
the arrays when the message holds a symbol for every position that is not frozen; the codeword is the
polar transform of the frozen-completed message, reduced to `int8_t`. -/
theorem C35_encode (codeword message : List Int) (frozen : List Nat) (level : Nat) (hl : 1 ≤ level)
    (hf : 2 ^ level ≤ 32 * frozen.length) (hm : freeBelow frozen (2 ^ level) ≤ message.length)
    (hc : 2 ^ level ≤ codeword.length) (hi : ∀ x ∈ message, I8 x) :
    ∃ cw, encode ph8 codeword message frozen level = some cw ∧
      Writes codeword cw level fun j => t8 (polar level (symbolAt frozen message) j) := by
  rw [← rank_eq] at hm
  obtain ⟨cw, e, h1, h2⟩ := encode_ok (H := ph8) (message := message) (frozen := frozen) (k := level) (c := codeword) 0 hl hf hm hc
  refine ⟨cw, e, h1, fun j => ?_⟩
  rw [h2]
  by_cases hj : j < 2 ^ level
  · rw [if_pos hj, if_pos hj, complete_eq, P8_eq, P_prod level _ j hj]
    · rfl
    · intro i
      unfold symbolAt
      split
      · exact ⟨by omega, by omega⟩
      · exact getD_I8 hi _
  · rw [if_neg hj, if_neg hj]

/-- For messages of ±1 symbols there is nothing to reduce, and the codeword symbols are ±1. -/
theorem C35_hard (codeword message : List Int) (frozen : List Nat) (level : Nat) (hl : 1 ≤ level)
    (hf : 2 ^ level ≤ 32 * frozen.length) (hm : freeBelow frozen (2 ^ level) ≤ message.length)
    (hc : 2 ^ level ≤ codeword.length) (hi : ∀ x ∈ message, x = 1 ∨ x = -1) :
    ∃ cw, encode ph8 codeword message frozen level = some cw ∧
      Writes codeword cw level (polar level (symbolAt frozen message)) ∧
      ∀ j, j < 2 ^ level → cw.getD j 0 = 1 ∨ cw.getD j 0 = -1 := by
  rw [← rank_eq] at hm
  obtain ⟨cw, e, h1, h2⟩ := encode_ok (H := ph8) (message := message) (frozen := frozen) (k := level) (c := codeword) 0 hl hf hm hc
  have hs := symbolAt_sym (frozen := frozen) hi
  have hv : ∀ j, j < 2 ^ level → cw.getD j 0 = polar level (symbolAt frozen message) j ∧ Sym (cw.getD j 0) := by
    intro j hj
    rw [h2, if_pos hj, complete_eq, P8_sym _ _ hs]
    exact ⟨P_prod level _ j hj, P_sym _ _ hs _⟩
  refine ⟨cw, e, ⟨h1, fun j => ?_⟩, fun j hj => (hv j hj).2⟩
  by_cases hj : j < 2 ^ level
  · rw [if_pos hj, (hv j hj).1]
  · rw [if_neg hj, h2, if_neg hj]

theorem zeros_free (n : Nat) (i : Nat) : ¬ Frozen (List.replicate n 0) i := by
  unfold Frozen
  have : (List.replicate n 0).getD (i / 32) 0 = 0 := by
    by_cases h : i / 32 < n <;> simp [List.getD_eq_getElem?_getD, h]
  rw [this]; simp

theorem zeros_below (n i : Nat) : freeBelow (List.replicate n 0) i = i := by
  unfold freeBelow
  rw [filter_true_of_mem fun j _ => zeros_free n j, card_range]

/-- The transform is an involution on ±1 symbols: encoding the codeword again, with nothing frozen,
gives the frozen-completed message. -/
theorem C35_involution (codeword message : List Int) (frozen : List Nat) (level : Nat) (hl : 1 ≤ level)
    (hf : 2 ^ level ≤ 32 * frozen.length) (hm : freeBelow frozen (2 ^ level) ≤ message.length)
    (hc : 2 ^ level = codeword.length) (hi : ∀ x ∈ message, x = 1 ∨ x = -1) :
    ∃ cw cw', encode ph8 codeword message frozen level = some cw ∧
      encode ph8 codeword cw (List.replicate frozen.length 0) level = some cw' ∧
      Writes codeword cw' level (symbolAt frozen message) := by
  obtain ⟨cw, e, ⟨h1, h2⟩, h3⟩ := C35_hard codeword message frozen level hl hf hm (by omega) hi
  have hi' : ∀ x ∈ cw, x = 1 ∨ x = -1 := by
    intro x hx
    obtain ⟨j, hj, rfl⟩ := List.getElem_of_mem hx
    rw [getElem_eq_getD hj 0]
    exact h3 j (by omega)
  obtain ⟨cw', e', ⟨h1', h2'⟩, _⟩ := C35_hard codeword cw (List.replicate frozen.length 0) level hl (by simpa using hf)
    (by rw [zeros_below]; omega) (by omega) hi'
  refine ⟨cw, cw', e, e', h1', fun j => ?_⟩
  rw [h2']
  by_cases hj : j < 2 ^ level
  · rw [if_pos hj, if_pos hj]
    have hs := symbolAt_sym (frozen := frozen) hi
    have := P_invol level (symbolAt frozen message) (fun i => (hs i).sq) j hj
    rw [P_prod level _ j hj] at this
    rw [← this]
    unfold polar
    refine prod_congr rfl fun i hi => ?_
    have hil : i < 2 ^ level := mem_range.1 (mem_filter.1 hi).1
    unfold symbolAt
    rw [if_neg (zeros_free _ i), zeros_below, P_prod level _ i hil]
    have := h2 i
    rw [if_pos hil] at this
    rw [← getElem_eq_getD (by omega) 1, getElem_eq_getD _ 0, this]; rfl
  · rw [if_neg hj, if_neg hj]

/-- The encoder is a group homomorphism on ±1 messages. -/
theorem C35_homomorphism (codeword m1 m2 : List Int) (frozen : List Nat) (level : Nat) (hl : 1 ≤ level)
    (hf : 2 ^ level ≤ 32 * frozen.length) (hm : freeBelow frozen (2 ^ level) ≤ m1.length) (hmm : m2.length = m1.length)
    (hc : 2 ^ level ≤ codeword.length) (h1 : ∀ x ∈ m1, x = 1 ∨ x = -1) (h2 : ∀ x ∈ m2, x = 1 ∨ x = -1) :
    ∃ c1 c2 c3, encode ph8 codeword m1 frozen level = some c1 ∧ encode ph8 codeword m2 frozen level = some c2 ∧
      encode ph8 codeword (List.zipWith (· * ·) m1 m2) frozen level = some c3 ∧
      ∀ j, j < 2 ^ level → c3.getD j 0 = c1.getD j 0 * c2.getD j 0 := by
  have h3 : ∀ x ∈ List.zipWith (· * ·) m1 m2, x = 1 ∨ x = -1 := by
    intro x hx
    obtain ⟨j, hj, rfl⟩ := List.getElem_of_mem hx
    rw [List.getElem_zipWith]
    exact Sym.mul (h1 _ (List.getElem_mem _)) (h2 _ (List.getElem_mem _))
  have hz : (List.zipWith (· * ·) m1 m2).length = m1.length := by simp [hmm]
  obtain ⟨c1, e1, ⟨_, w1⟩, _⟩ := C35_hard codeword m1 frozen level hl hf hm hc h1
  obtain ⟨c2, e2, ⟨_, w2⟩, _⟩ := C35_hard codeword m2 frozen level hl hf (by omega) hc h2
  obtain ⟨c3, e3, ⟨_, w3⟩, _⟩ := C35_hard codeword _ frozen level hl hf (by rw [hz]; exact hm) hc h3
  refine ⟨c1, c2, c3, e1, e2, e3, fun j hj => ?_⟩
  rw [w1, w2, w3, if_pos hj, if_pos hj, if_pos hj]
  unfold polar
  rw [← prod_mul_distrib]
  refine prod_congr rfl fun i hi => ?_
  unfold symbolAt
  split
  · rfl
  · by_cases hr : freeBelow frozen i < m1.length
    · rw [← getElem_eq_getD (by omega), ← getElem_eq_getD (by omega), ← getElem_eq_getD (by omega), List.getElem_zipWith]
    · rw [List.getD_eq_default _ _ (by omega), List.getD_eq_default _ _ (by omega), List.getD_eq_default _ _ (by omega)]; rfl

theorem free_lt {frozen : List Nat} {i n : Nat} (hi : i < n) (hn : ¬ Frozen frozen i) : freeBelow frozen i < freeBelow frozen n := by
  have := rank_mono (fbit frozen) (show i + 1 ≤ n by omega)
  rw [rank_succ, rank_eq, rank_eq, if_neg (show ¬ fbit frozen i = true from hn)] at this
  omega

theorem free_surj (frozen : List Nat) : ∀ (n r : Nat), r < freeBelow frozen n → ∃ i, i < n ∧ ¬ Frozen frozen i ∧ freeBelow frozen i = r := by
  intro n
  induction n with
  | zero => intro r hr; simp [freeBelow] at hr
  | succ n ih =>
    intro r hr
    by_cases h : r < freeBelow frozen n
    · obtain ⟨i, h1, h2⟩ := ih r h; exact ⟨i, by omega, h2⟩
    · rw [← rank_eq, rank_succ, rank_eq] at hr
      by_cases hn : fbit frozen n = true
      · rw [if_pos hn] at hr; omega
      · rw [if_neg hn] at hr; exact ⟨n, by omega, hn, by omega⟩

/-- The encoder consumes exactly the message symbols with index below the number `K` of positions that are
not frozen: what follows them has no influence, and each of them matters — two ±1 messages have the same
codeword only if their first `K` symbols agree. -/
theorem C35_consumed (codeword m1 m2 : List Int) (frozen : List Nat) (level : Nat) (hl : 1 ≤ level)
    (hf : 2 ^ level ≤ 32 * frozen.length) (hm1 : freeBelow frozen (2 ^ level) ≤ m1.length)
    (hm2 : freeBelow frozen (2 ^ level) ≤ m2.length) (hc : 2 ^ level ≤ codeword.length)
    (h1 : ∀ x ∈ m1, x = 1 ∨ x = -1) (h2 : ∀ x ∈ m2, x = 1 ∨ x = -1) :
    encode ph8 codeword m1 frozen level = encode ph8 codeword m2 frozen level ↔
      m1.take (freeBelow frozen (2 ^ level)) = m2.take (freeBelow frozen (2 ^ level)) := by
  obtain ⟨c1, e1, ⟨l1, w1⟩, _⟩ := C35_hard codeword m1 frozen level hl hf hm1 hc h1
  obtain ⟨c2, e2, ⟨l2, w2⟩, _⟩ := C35_hard codeword m2 frozen level hl hf hm2 hc h2
  rw [e1, e2]
  have hlow := fun i => free_lt (frozen := frozen) (i := i) (n := 2 ^ level)
  constructor
  · intro h
    obtain rfl : c1 = c2 := Option.some.inj h
    have hp : ∀ j, j < 2 ^ level → symbolAt frozen m1 j = symbolAt frozen m2 j := by
      intro j hj
      have hs1 := symbolAt_sym (frozen := frozen) h1
      have hs2 := symbolAt_sym (frozen := frozen) h2
      rw [← P_invol level (symbolAt frozen m1) (fun i => (hs1 i).sq) j hj,
        ← P_invol level (symbolAt frozen m2) (fun i => (hs2 i).sq) j hj]
      refine P_congr' (fun i hi => ?_) hj
      rw [P_prod level _ i hi, P_prod level _ i hi]
      have := w1 i
      rw [w2 i, if_pos hi, if_pos hi] at this
      exact this.symm
    refine ext_getD 1 (by simp [hm1, hm2]) fun r hr => ?_
    have hr' : r < freeBelow frozen (2 ^ level) := by simp at hr; exact hr.1
    obtain ⟨i, hi, hn, e⟩ := free_surj frozen _ r hr'
    have := hp i hi
    unfold symbolAt at this
    rw [if_neg hn, if_neg hn, e] at this
    simpa [List.getD_eq_getElem?_getD, List.getElem?_take, hr'] using this
  · intro h
    congr 1
    refine ext_getD 0 (by omega) fun j _ => ?_
    rw [w1, w2]
    split
    · unfold polar
      refine prod_congr rfl fun i hi => ?_
      have hil : i < 2 ^ level := mem_range.1 (mem_filter.1 hi).1
      unfold symbolAt
      by_cases hn : Frozen frozen i
      · rw [if_pos hn, if_pos hn]
      · rw [if_neg hn, if_neg hn]
        have := congrArg (fun l => l.getD (freeBelow frozen i) 1) h
        simpa [List.getD_eq_getElem?_getD, List.getElem?_take, hlow i hil hn] using this
    · rfl

/-- Level 3 with positions 0, 1, 2 and 4 frozen. -/
example : encode ph8 (List.replicate 8 0) [-1, 1, 1, -1] [0b00010111] 3 = some [1, 1, 1, 1, -1, -1, -1, -1] := by decide +kernel

theorem bind_none_of {α β : Type} (o : Option α) (f : α → Option β) (h : ∀ a, f a = none) : (o >>= f) = none := by
  cases o with
  | none => rfl
  | some a => exact h a

/-- Level 0 is not usable: whatever the message and the frozen word, the encoder writes a second symbol
after a codeword of length 1. -/
theorem C35_level_zero (x : Int) (message : List Int) (frozen : List Nat) : encode ph8 [x] message frozen 0 = none := by
  have h : encFirst ph8 message frozen (2 ^ 0) [x] = none := by
    unfold encFirst
    have : (forUp 0 ((2 ^ 0 + 1) / 2) ([x], 0) fun h (s : List Int × Nat) => do
        let b0 ← getBit frozen (2 * h)
        let m0 ← nextSym ph8 b0 message s.2
        let b1 ← getBit frozen (2 * h + 1)
        let m1 ← nextSym ph8 b1 message m0.2
        let c ← wr s.1 (2 * h) (ph8.qmul m0.1 m1.1)
        let c ← wr c (2 * h + 1) m1.1
        return (c, m1.2)) = none := by
      show Option.bind _ _ = none
      rw [show ∀ (y : Option (List Int × Nat)) g, y = none → Option.bind y g = (none : Option (List Int × Nat)) from
        fun y g hy => by rw [hy]; rfl]
      exact bind_none_of _ _ fun _ => bind_none_of _ _ fun _ => bind_none_of _ _ fun _ => bind_none_of _ _ fun _ => rfl
    rw [this]; rfl
  unfold encode
  rw [h]; rfl

/-! ### C36 -/

/-- The information set is closed under bit inclusion. -/
def Closed (frozen : List Nat) (level : Nat) : Prop :=
  ∀ i j, i < 2 ^ level → j < 2 ^ level → ¬ Frozen frozen i → j &&& i = i → ¬ Frozen frozen j

/-- If the information set is closed under bit inclusion then the systematic encoder puts the message
symbols, in order, at the positions that are not frozen; and its output is the codeword of some ±1 message
under the non-systematic encoder with the same frozen set. -/
theorem C36_systematic (codeword message : List Int) (frozen : List Nat) (level : Nat) (hl : 1 ≤ level)
    (hf : 2 ^ level ≤ 32 * frozen.length) (hm : freeBelow frozen (2 ^ level) ≤ message.length)
    (hc : 2 ^ level ≤ codeword.length) (hi : ∀ x ∈ message, x = 1 ∨ x = -1) (hcl : Closed frozen level) :
    ∃ cw, sysEncode ph8 codeword message frozen level = some cw ∧ cw.length = codeword.length ∧
      (∀ i, i < 2 ^ level → ¬ Frozen frozen i → cw.getD i 0 = message.getD (freeBelow frozen i) 0) ∧
      (∀ i, 2 ^ level ≤ i → cw.getD i 0 = codeword.getD i 0) ∧
      ∃ m', m'.length = freeBelow frozen (2 ^ level) ∧ (∀ x ∈ m', x = 1 ∨ x = -1) ∧
        encode ph8 codeword m' frozen level = some cw := by
  have hm' := hm
  rw [← rank_eq] at hm'
  obtain ⟨cw, e, h1, h2⟩ := sysEncode_ok (H := ph8) (message := message) (frozen := frozen) (k := level) (c := codeword) 0 hl hf hm' hc
  have hs := symbolAt_sym (frozen := frozen) hi
  -- the first transform
  let x1 : Nat → Int := P (· * ·) level (symbolAt frozen message)
  have hx1 : ∀ i, Sym (x1 i) := P_sym _ _ hs
  have e1 : P ph8.qmul level (complete ph8.one (fbit frozen) message) = x1 := by
    funext j; rw [complete_eq, P8_sym _ _ hs]
  let w : Nat → Int := mask 1 (fbit frozen) x1
  have hw : ∀ i, Sym (w i) := by
    intro i
    show Sym (ite _ _ _)
    split
    · exact Or.inl rfl
    · exact hx1 i
  have hcw : ∀ i, i < 2 ^ level → cw.getD i 0 = P (· * ·) level w i := by
    intro i hi
    rw [h2, if_pos hi, e1]
    exact P8_sym _ _ hw i
  have hlow := fun i => free_lt (frozen := frozen) (i := i) (n := 2 ^ level)
  refine ⟨cw, e, h1, fun i hil hn => ?_, fun i hi => ?_, ?_⟩
  · rw [hcw i hil, P_prod level _ i hil]
    have hprod : (∏ j ∈ (range (2 ^ level)).filter (fun j => j &&& i = i), w j) =
        ∏ j ∈ (range (2 ^ level)).filter (fun j => j &&& i = i), x1 j := by
      refine prod_congr rfl fun j hj => ?_
      obtain ⟨hj1, hj2⟩ := mem_filter.1 hj
      have := hcl i j hil (mem_range.1 hj1) hn hj2
      show ite _ _ _ = _
      exact if_neg this
    rw [hprod, ← P_prod level _ i hil, P_invol level _ (fun i => (hs i).sq) i hil]
    unfold symbolAt
    rw [if_neg hn]
    have := hlow i hil hn
    rw [← getElem_eq_getD (by omega), ← getElem_eq_getD (by omega)]
  · rw [h2, if_neg (by omega)]
  · -- the message of the non-systematic encoder: the second transform's input at the free positions
    let free : List Nat := (List.range (2 ^ level)).filter fun j => !fbit frozen j
    have hfl : free.length = freeBelow frozen (2 ^ level) := by rw [← rank_eq]; rfl
    have hpos : ∀ i, i < 2 ^ level → ¬ Frozen frozen i → free[freeBelow frozen i]? = some i := by
      intro i hil hn
      rw [← rank_eq]
      have e : List.range (2 ^ level) = List.range i ++ i :: (List.range (2 ^ level - i - 1)).map (fun x => i + 1 + x) := by
        conv_lhs => rw [show 2 ^ level = i + (1 + (2 ^ level - i - 1)) by omega]
        rw [List.range_add, List.range_add]
        simp [Function.comp_def, add_assoc]
      have hb : (!fbit frozen i) = true := by
        cases h : fbit frozen i
        · rfl
        · exact absurd h hn
      show (List.filter _ _)[_]? = _
      rw [e, List.filter_append, List.filter_cons_of_pos (p := fun j => !fbit frozen j) hb]
      unfold rank
      rw [List.getElem?_append_right (le_refl _), Nat.sub_self]; rfl
    let m' : List Int := free.map w
    have hm'l : m'.length = freeBelow frozen (2 ^ level) := by rw [← hfl]; simp [m']
    have hm's : ∀ x ∈ m', x = 1 ∨ x = -1 := by
      intro x hx
      obtain ⟨j, _, rfl⟩ := List.mem_map.1 hx
      exact hw j
    obtain ⟨c', ec, ⟨l', w'⟩, _⟩ := C35_hard codeword m' frozen level hl hf (by omega) hc hm's
    refine ⟨m', hm'l, hm's, ?_⟩
    rw [ec]
    congr 1
    refine ext_getD 0 (by omega) fun j _ => ?_
    rw [w']
    by_cases hj : j < 2 ^ level
    · rw [if_pos hj, hcw j hj, P_prod level _ j hj]
      unfold polar
      refine prod_congr rfl fun i hi => ?_
      have hil : i < 2 ^ level := mem_range.1 (mem_filter.1 hi).1
      show _ = ite _ _ _
      unfold symbolAt
      by_cases hn : Frozen frozen i
      · rw [if_pos hn, if_pos (show fbit frozen i = true from hn)]
      · rw [if_neg hn]
        show (free.map w).getD _ _ = _
        rw [List.getD_eq_getElem?_getD, List.getElem?_map, hpos i hil hn]
        rfl
    · rw [if_neg hj, h2, if_neg hj]

/-- The information set {3, 5, 6, 7} is closed under bit inclusion. -/
example : Closed [0b00010111] 3 := by
  have : ∀ i < 8, ∀ j < 8, ¬ Frozen [0b00010111] i → j &&& i = i → ¬ Frozen [0b00010111] j := by decide
  exact fun i j hi hj => this i hi j hj
example : sysEncode ph8 (List.replicate 8 0) [-1, 1, 1, -1] [0b00010111] 3 = some [-1, 1, 1, -1, -1, 1, 1, -1] := by
  decide +kernel

/-- The closure is needed: with the information set {0, 1, 3} (only 2 frozen) the message (1, 1, -1) comes
out with -1 at position 0. -/
theorem C36_closure_needed : ¬ Closed [0b0100] 2 ∧
    ∃ cw, sysEncode ph8 [0, 0, 0, 0] [1, 1, -1] [0b0100] 2 = some cw ∧ cw.getD 0 0 = -1 := by
  refine ⟨fun h => h 0 2 (by decide) (by decide) (by decide) (by decide) (by decide), _, rfl, ?_⟩
  decide +kernel

end Verif.Polar
