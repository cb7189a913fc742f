import Verif.Polar.PropsEnc
/- Where the parity symbols go (specification), and the encoder of polar_parity_aided.hh. -/
namespace Verif.Polar
open PolarHelper (I8)
open Verif.RS (sb)
open Finset

/-! ### Specification -/

/-- Of the symbols at the positions that are not frozen, number `first` and every `stride + 1`-st after it is a parity symbol. -/
def isParity (first stride r : Nat) : Prop := first ≤ r ∧ (r - first) % (stride + 1) = 0

instance (first stride r : Nat) : Decidable (isParity first stride r) := inferInstanceAs (Decidable (_ ∧ _))

/-- The number of message symbols among the first `r` symbols. -/
def dataBelow (first stride r : Nat) : Nat := ((range r).filter fun j => ¬ isParity first stride j).card

/-- How many message symbols the parity symbol number `r` covers. -/
def span (first stride r : Nat) : Nat := if r = first then first else stride

/-- Symbol number `r`: a parity symbol is the product of the message symbols since the last parity symbol. -/
def coded (first stride : Nat) (message : List Int) (r : Nat) : Int :=
  if isParity first stride r then ∏ i ∈ range (span first stride r), message.getD (dataBelow first stride r - span first stride r + i) 1
  else message.getD (dataBelow first stride r) 1

/-- The message with the parity symbols inserted, `n` symbols. -/
def withParity (first stride : Nat) (message : List Int) (n : Nat) : List Int := (List.range n).map (coded first stride message)

/-! ### The schedule as a running count -/

variable (first stride : Nat)

/-- The count before symbol number `r`. -/
def cAt (r : Nat) : Nat := if r ≤ first then first - r else stride - (r - first - 1) % (stride + 1)

/-- The number of symbols since the last parity symbol. -/
def since (r : Nat) : Nat := if r ≤ first then r else (r - first - 1) % (stride + 1)

theorem mod_succ_eq (a S : Nat) (hS : 0 < S) : (a + 1) % S = if a % S + 1 = S then 0 else a % S + 1 := by
  have h := Nat.mod_lt a hS
  rw [Nat.add_mod]
  by_cases h1 : S = 1
  · subst h1; simp [Nat.mod_one]
  · rw [Nat.mod_eq_of_lt (show 1 < S by omega)]
    split
    · rename_i h2; rw [h2, Nat.mod_self]
    · exact Nat.mod_eq_of_lt (by omega)

theorem isParity_iff (r : Nat) : isParity first stride r ↔ cAt first stride r = 0 := by
  unfold isParity cAt
  by_cases h : r ≤ first
  · rw [if_pos h]
    constructor
    · rintro ⟨h1, _⟩; omega
    · intro h1
      have : r = first := by omega
      subst this
      simp
  · rw [if_neg h]
    obtain ⟨a, rfl⟩ : ∃ a, r = first + 1 + a := ⟨r - first - 1, by omega⟩
    rw [show first + 1 + a - first - 1 = a by omega, show first + 1 + a - first = a + 1 by omega, mod_succ_eq _ _ (by omega)]
    have := Nat.mod_lt a (show 0 < stride + 1 by omega)
    split <;> omega

theorem cAt_succ (r : Nat) : cAt first stride (r + 1) = if cAt first stride r ≠ 0 then cAt first stride r - 1 else stride := by
  unfold cAt
  by_cases h : r + 1 ≤ first
  · rw [if_pos h, if_pos (show r ≤ first by omega), if_pos (by omega)]; omega
  · rw [if_neg h]
    by_cases h' : r ≤ first
    · have : r = first := by omega
      subst this
      simp
    · rw [if_neg h']
      obtain ⟨a, rfl⟩ : ∃ a, r = first + 1 + a := ⟨r - first - 1, by omega⟩
      rw [show first + 1 + a + 1 - first - 1 = a + 1 by omega, show first + 1 + a - first - 1 = a by omega, mod_succ_eq _ _ (by omega)]
      have := Nat.mod_lt a (show 0 < stride + 1 by omega)
      split <;> split <;> omega

theorem since_succ (r : Nat) : since first stride (r + 1) = if cAt first stride r ≠ 0 then since first stride r + 1 else 0 := by
  unfold since cAt
  by_cases h : r + 1 ≤ first
  · rw [if_pos h, if_pos (show r ≤ first by omega), if_pos (show r ≤ first by omega), if_pos (by omega)]
  · rw [if_neg h]
    by_cases h' : r ≤ first
    · have : r = first := by omega
      subst this
      simp
    · rw [if_neg h', if_neg h']
      obtain ⟨a, rfl⟩ : ∃ a, r = first + 1 + a := ⟨r - first - 1, by omega⟩
      rw [show first + 1 + a + 1 - first - 1 = a + 1 by omega, show first + 1 + a - first - 1 = a by omega, mod_succ_eq _ _ (by omega)]
      have := Nat.mod_lt a (show 0 < stride + 1 by omega)
      split <;> split <;> omega

theorem since_span {r : Nat} (h : cAt first stride r = 0) : since first stride r = span first stride r := by
  unfold since cAt span at *
  by_cases h1 : r ≤ first
  · rw [if_pos h1] at h ⊢
    rw [if_pos (by omega)]; omega
  · rw [if_neg h1] at h ⊢
    rw [if_neg (by omega)]
    have := Nat.mod_lt (r - first - 1) (show 0 < stride + 1 by omega)
    omega

theorem dataBelow_succ (r : Nat) : dataBelow first stride (r + 1) = dataBelow first stride r + if cAt first stride r ≠ 0 then 1 else 0 := by
  unfold dataBelow
  rw [range_add_one, filter_insert]
  by_cases h : cAt first stride r = 0
  · rw [if_neg (by simp [isParity_iff, h]), if_neg (by simp [h])]; rfl
  · rw [if_pos (by simp [isParity_iff, h]), if_pos h, card_insert_of_notMem (by simp)]

theorem dataBelow_zero : dataBelow first stride 0 = 0 := rfl

theorem dataBelow_mono {r n : Nat} (h : r ≤ n) : dataBelow first stride r ≤ dataBelow first stride n := by
  induction n, h using Nat.le_induction with
  | base => rfl
  | succ n _ ih => rw [dataBelow_succ]; omega

theorem since_le (r : Nat) : since first stride r ≤ dataBelow first stride r := by
  induction r with
  | zero => simp [since]
  | succ r ih => rw [since_succ, dataBelow_succ]; split <;> omega

/-- The product of the message symbols since the last parity symbol. -/
def par (m : List Int) (r : Nat) : Int := ∏ i ∈ range (since first stride r), m.getD (dataBelow first stride r - since first stride r + i) 1

theorem par_zero (m : List Int) : par first stride m 0 = 1 := by
  unfold par
  have : since first stride 0 = 0 := by simp [since]
  rw [this]; rfl

theorem par_succ (m : List Int) (r : Nat) : par first stride m (r + 1) =
    if cAt first stride r ≠ 0 then par first stride m r * m.getD (dataBelow first stride r) 1 else 1 := by
  unfold par
  have h := since_le first stride r
  rw [since_succ, dataBelow_succ]
  by_cases hc : cAt first stride r ≠ 0
  · rw [if_pos hc, if_pos hc, if_pos hc, prod_range_succ]
    congr 1
    · refine prod_congr rfl fun i _ => ?_
      congr 1; omega
    · congr 1; omega
  · rw [if_neg hc, if_neg hc, if_neg hc]; rfl

theorem par_sym {m : List Int} (hm : ∀ x ∈ m, x = 1 ∨ x = -1) (r : Nat) : Sym (par first stride m r) := by
  induction r with
  | zero => rw [par_zero]; exact Or.inl rfl
  | succ r ih =>
    rw [par_succ]
    split
    · exact ih.mul (getD_Sym hm _)
    · exact Or.inl rfl

theorem coded_eq (m : List Int) (r : Nat) : coded first stride m r =
    if cAt first stride r ≠ 0 then m.getD (dataBelow first stride r) 1 else par first stride m r := by
  unfold coded
  by_cases h : cAt first stride r = 0
  · rw [if_pos ((isParity_iff _ _ _).2 h), if_neg (by simp [h])]
    unfold par
    rw [since_span _ _ h]
  · rw [if_neg (by rw [isParity_iff]; exact h), if_pos h]

theorem coded_sym {m : List Int} (hm : ∀ x ∈ m, x = 1 ∨ x = -1) (r : Nat) : Sym (coded first stride m r) := by
  rw [coded_eq]
  split
  · exact getD_Sym hm _
  · exact par_sym _ _ hm _

theorem withParity_sym {m : List Int} (hm : ∀ x ∈ m, x = 1 ∨ x = -1) (n : Nat) : ∀ x ∈ withParity first stride m n, x = 1 ∨ x = -1 := by
  intro x hx
  obtain ⟨r, _, rfl⟩ := List.mem_map.1 hx
  exact coded_sym _ _ hm r

theorem withParity_length (m : List Int) (n : Nat) : (withParity first stride m n).length = n := by simp [withParity]

theorem withParity_getD (m : List Int) {n r : Nat} (h : r < n) : (withParity first stride m n).getD r 1 = coded first stride m r := by
  unfold withParity
  rw [← getElem_eq_getD (by simpa using h)]
  simp

/-! ### The encoder -/

variable {first stride}

theorem parSym_eq {m : List Int} (hm : ∀ x ∈ m, x = 1 ∨ x = -1) {f : Nat → Bool} {n i : Nat} (hl : dataBelow first stride (rank f n) ≤ m.length) (hi : i < n) :
    parSym ph8 (f i) m stride ⟨dataBelow first stride (rank f i), cAt first stride (rank f i), par first stride m (rank f i)⟩ =
      some (complete 1 f (withParity first stride m (rank f n)) i, ⟨dataBelow first stride (rank f (i + 1)), cAt first stride (rank f (i + 1)),
        par first stride m (rank f (i + 1))⟩) := by
  unfold parSym complete
  rw [rank_succ]
  cases h : f i with
  | true => rfl
  | false =>
    have hr : rank f i + 1 ≤ rank f n := by
      have := rank_mono f (show i + 1 ≤ n by omega)
      rw [rank_succ, h] at this
      simpa using this
    simp only [Bool.false_eq_true, if_false]
    rw [withParity_getD _ _ _ (by omega), coded_eq, dataBelow_succ, cAt_succ, par_succ]
    have h2 := dataBelow_mono first stride hr
    rw [dataBelow_succ] at h2
    by_cases hc : cAt first stride (rank f i) ≠ 0
    · simp only [if_pos hc] at h2 ⊢
      rw [rd_of_lt (by omega), sb, getElem_eq_getD _ 1]
      show some (_, PState.mk _ _ (PolarHelper.qmul _ _)) = _
      have e : PolarHelper.qmul (par first stride m (rank f i)) (m.getD (dataBelow first stride (rank f i)) 1) =
          par first stride m (rank f i) * m.getD (dataBelow first stride (rank f i)) 1 :=
        ((par_sym first stride hm (rank f i)).mul (getD_Sym hm _)).t8
      rw [e]
    · simp only [if_neg hc]
      rfl

theorem parFirst_ok {message : List Int} (hi : ∀ x ∈ message, x = 1 ∨ x = -1) {frozen : List Nat} {k : Nat} {c : List Int} (hk : 1 ≤ k)
    (hf : 2 ^ k ≤ 32 * frozen.length) (hm : dataBelow first stride (rank (fbit frozen) (2 ^ k)) ≤ message.length) (hc : 2 ^ k ≤ c.length) :
    Ok (parFirst ph8 message frozen (2 ^ k) stride first c) (fun l => l.length = c.length ∧ ∀ i, l.getD i 0 =
      if i < 2 ^ k then P ph8.qmul 1 (complete 1 (fbit frozen) (withParity first stride message (rank (fbit frozen) (2 ^ k)))) i else c.getD i 0) := by
  unfold parFirst
  have e := even_pow hk
  have e2 : (2 ^ k + 1) / 2 = 2 ^ (k - 1) := by omega
  rw [e2]
  set W := withParity first stride message (rank (fbit frozen) (2 ^ k)) with hW
  refine Ok.bind' (forUp_inv (fun h (s : List Int × PState Int) => s.2 = ⟨dataBelow first stride (rank (fbit frozen) (2 * h)),
      cAt first stride (rank (fbit frozen) (2 * h)), par first stride message (rank (fbit frozen) (2 * h))⟩ ∧ s.1.length = c.length ∧
    ∀ i, s.1.getD i 0 = if 0 ≤ i ∧ i < 0 + 2 * h then P ph8.qmul 1 (complete 1 (fbit frozen) W) (i - 0) else c.getD i 0)
    (Nat.zero_le _) ⟨?_, rfl, fun i => by rw [if_neg (by omega)]⟩ ?_) ?_
  · show (PState.mk 0 first 1 : PState Int) = ⟨dataBelow first stride 0, cAt first stride 0, par first stride message 0⟩
    rw [par_zero]
    congr 1
  · rintro h ⟨l, p⟩ _ hh ⟨hp, l1, l2⟩
    dsimp only at hp l1 l2 ⊢
    subst hp
    rw [getBit_eq (by omega), sb, parSym_eq hi hm (by omega), sb, getBit_eq (by omega), sb, parSym_eq hi hm (by omega), sb,
      wr_of_lt (by omega), sb, wr_of_lt (by rw [List.length_set]; omega), sb]
    refine Ok.some ⟨rfl, by simp [l1], ?_⟩
    have := layer_step (o := 0) (n := 2 ^ k) (h := h) (q := ph8.qmul) (by omega) (by omega) l1 l2
    simpa only [Nat.zero_add] using this
  · rintro ⟨l, p⟩ ⟨_, l1, l2⟩
    refine Ok.some ⟨l1, fun i => ?_⟩
    rw [l2, ← e]
    simp

/-- The parity-aided encoder is the plain encoder applied to the message with its parity symbols. -/
theorem parEncode_eq {message : List Int} (hi : ∀ x ∈ message, x = 1 ∨ x = -1) {frozen : List Nat} {k : Nat} {c : List Int} (hk : 1 ≤ k)
    (hf : 2 ^ k ≤ 32 * frozen.length) (hm : dataBelow first stride (rank (fbit frozen) (2 ^ k)) ≤ message.length) (hc : 2 ^ k ≤ c.length) :
    parEncode ph8 c message frozen k stride first = encode ph8 c (withParity first stride message (rank (fbit frozen) (2 ^ k))) frozen k := by
  obtain ⟨l, e, l1, l2⟩ := parFirst_ok (first := first) (stride := stride) hi hk hf hm hc
  obtain ⟨l', e', l1', l2'⟩ := encFirst_ok (H := ph8) (message := withParity first stride message (rank (fbit frozen) (2 ^ k))) (frozen := frozen) (k := k) (c := c) 0 hk hf
    (by rw [withParity_length]) hc
  unfold parEncode encode
  rw [e, e', sb, sb]
  have : l = l' := ext_getD 0 (by omega) fun i _ => by rw [l2, l2']; rfl
  rw [this]

end Verif.Polar
