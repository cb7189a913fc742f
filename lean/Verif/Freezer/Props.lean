import Verif.Freezer.Proof
import Verif.Sort.Spec
import Mathlib.Algebra.Order.Field.Basic
import Mathlib.Algebra.BigOperators.Ring.Finset
import Mathlib.Tactic.Linarith
import Mathlib.Data.List.Sort
/- C40 (polar_freezer.hh, polar_sequence.hh). -/
namespace Verif.Freezer
open Verif.RS (sb)
open Verif.Polar (fbit Frozen freeBelow Closed)
variable {D : Type}

/-! ### PolarFreezer -/

/-- For any arithmetic on `double`, any buffer and any arguments: position `i` becomes frozen exactly if its erasure probability exceeds
the threshold, all other bits of the buffer keep their values, and the returned number is the number of positions that are not
frozen. -/
theorem C40_freezer (o : DOps D) (frozen_bits : List Nat) (level : Nat) (pe th : D) (hw : ∀ w ∈ frozen_bits, w < 2 ^ 32)
    (hl : 2 ^ level ≤ 32 * frozen_bits.length) :
    ∃ bits K, freezer o frozen_bits level pe th = some (bits, K) ∧ bits.length = frozen_bits.length ∧ (∀ w ∈ bits, w < 2 ^ 32) ∧
      (∀ i, i < 2 ^ level → (Frozen bits i ↔ o.lt th (erasure o level pe i) = true)) ∧
      (∀ i, 2 ^ level ≤ i → (Frozen bits i ↔ Frozen frozen_bits i)) ∧ K = (freeBelow bits (2 ^ level) : Int) := by
  obtain ⟨bits, e, h1, h2, h3⟩ := freeze_ok o hw hl pe th
  refine ⟨bits, (freeBelow bits (2 ^ level) : Int), ?_, h1, h2, fun i hi => ?_, fun i hi => ?_, rfl⟩
  · unfold freezer
    simp only [Nat.shiftLeft_eq, one_mul]
    rw [e, sb, count_ok (by rw [h1]; exact hl), sb]
    rfl
  · show fbit bits i = true ↔ _
    rw [h3, if_pos hi]
  · show fbit bits i = true ↔ fbit frozen_bits i = true
    rw [h3, if_neg (by omega)]

/-! ### Exact arithmetic -/

section exact
variable {F : Type} [Field F] [LinearOrder F] [IsStrictOrderedRing F]

/-- Exact arithmetic in an ordered field (rational or real numbers). -/
def exact (F : Type) [Field F] [LinearOrder F] : DOps F := ⟨(· * ·), (· - ·), 2, fun a b => decide (a < b)⟩

theorem erasure_succ (n : Nat) (pe : F) (i : Nat) : erasure (exact F) (n + 1) pe i = erasure (exact F) n (if i.testBit n then pe * pe else pe * (2 - pe)) i := rfl

theorem erasure_le : ∀ (n : Nat) (p q : F) (i j : Nat), 0 ≤ p → p ≤ q → q ≤ 1 → (∀ b, b < n → j.testBit b = true → i.testBit b = true) →
    erasure (exact F) n p i ≤ erasure (exact F) n q j := by
  intro n
  induction n with
  | zero => intro p q i j _ h _ _; exact h
  | succ n ih =>
    intro p q i j h0 h h1 hb
    rw [erasure_succ, erasure_succ]
    have hb' := hb n (by omega)
    cases hj : j.testBit n with
    | true =>
      rw [hb' hj]
      exact ih _ _ _ _ (by simp; nlinarith) (by simp; nlinarith) (by simp; nlinarith) fun b hb1 => hb b (by omega)
    | false =>
      cases hi : i.testBit n with
      | true => exact ih _ _ _ _ (by simp; nlinarith) (by simp; nlinarith) (by simp; nlinarith) fun b hb1 => hb b (by omega)
      | false => exact ih _ _ _ _ (by simp; nlinarith) (by simp; nlinarith) (by simp; nlinarith) fun b hb1 => hb b (by omega)

theorem erasure_lt : ∀ (n : Nat) (p q : F) (i j : Nat), 0 < p → p ≤ q → q < 1 → (∀ b, b < n → j.testBit b = true → i.testBit b = true) →
    (p < q ∨ ∃ b, b < n ∧ i.testBit b ≠ j.testBit b) → erasure (exact F) n p i < erasure (exact F) n q j := by
  intro n
  induction n with
  | zero => rintro p q i j _ h _ _ (h' | ⟨b, hb, _⟩); exacts [h', by omega]
  | succ n ih =>
    intro p q i j h0 h h1 hb hd
    rw [erasure_succ, erasure_succ]
    have hb' := hb n (by omega)
    have hsame : i.testBit n = j.testBit n → p < q ∨ ∃ b, b < n ∧ i.testBit b ≠ j.testBit b := by
      intro hn
      rcases hd with hd | ⟨b, hb, hne⟩
      · exact Or.inl hd
      · refine Or.inr ⟨b, ?_, hne⟩
        rcases Nat.lt_succ_iff_lt_or_eq.1 hb with hb | rfl
        · exact hb
        · exact absurd hn hne
    cases hj : j.testBit n with
    | true =>
      have hi := hb' hj
      rw [hi]
      refine ih _ _ _ _ (by simp; nlinarith) (by simp; nlinarith) (by simp; nlinarith) (fun b hb1 => hb b (by omega)) ?_
      rcases hsame (by rw [hi, hj]) with hs | hs
      · exact Or.inl (by simp; nlinarith)
      · exact Or.inr hs
    | false =>
      cases hi : i.testBit n with
      | true =>
        refine ih _ _ _ _ (by simp; nlinarith) (by simp; nlinarith) (by simp; nlinarith) (fun b hb1 => hb b (by omega)) (Or.inl ?_)
        simp; nlinarith
      | false =>
        refine ih _ _ _ _ (by simp; nlinarith) (by simp; nlinarith) (by simp; nlinarith) (fun b hb1 => hb b (by omega)) ?_
        rcases hsame (by rw [hi, hj]) with hs | hs
        · exact Or.inl (by simp; nlinarith)
        · exact Or.inr hs

theorem bits_of_and {i j : Nat} (h : j &&& i = i) (b : Nat) (hb : i.testBit b = true) : j.testBit b = true := by
  rw [← h, Nat.testBit_and, Bool.and_eq_true] at hb
  exact hb.1

/-- With exact arithmetic and an erasure probability between 0 and 1 the set of positions that are not frozen is closed under bit
inclusion, so that the systematic encoder works for it (C36). -/
theorem C40_freezer_closed (frozen_bits : List Nat) (level : Nat) (pe th : F) (hw : ∀ w ∈ frozen_bits, w < 2 ^ 32)
    (hl : 2 ^ level ≤ 32 * frozen_bits.length) (h0 : 0 ≤ pe) (h1 : pe ≤ 1) :
    ∃ bits K, freezer (exact F) frozen_bits level pe th = some (bits, K) ∧ Closed bits level := by
  obtain ⟨bits, K, e, -, -, h3, -⟩ := C40_freezer (exact F) frozen_bits level pe th hw hl
  refine ⟨bits, K, e, fun i j hi hj hn hij => ?_⟩
  rw [h3 i hi] at hn
  rw [h3 j hj]
  have := erasure_le level pe pe j i h0 le_rfl h1 fun b _ => bits_of_and hij b
  simp only [exact, decide_eq_true_eq, not_lt] at hn ⊢
  exact this.trans hn

/-- The systematic encoder with the frozen bits of `PolarFreezer` (exact arithmetic): the message symbols appear in order at the
positions that are not frozen. -/
theorem C40_freezer_systematic (frozen_bits : List Nat) (level : Nat) (pe th : F) (hw : ∀ w ∈ frozen_bits, w < 2 ^ 32)
    (hl : 2 ^ level ≤ 32 * frozen_bits.length) (h0 : 0 ≤ pe) (h1 : pe ≤ 1) (h2 : 1 ≤ level) (codeword message : List Int)
    (hi : ∀ x ∈ message, x = 1 ∨ x = -1) (hc : 2 ^ level ≤ codeword.length) (hm : 2 ^ level ≤ message.length) :
    ∃ bits K cw, freezer (exact F) frozen_bits level pe th = some (bits, K) ∧
      Verif.Polar.sysEncode Verif.Polar.ph8 codeword message bits level = some cw ∧
      ∀ i, i < 2 ^ level → ¬ Frozen bits i → cw.getD i 0 = message.getD (freeBelow bits i) 0 := by
  obtain ⟨bits, K, e, hcl⟩ := C40_freezer_closed frozen_bits level pe th hw hl h0 h1
  obtain ⟨bits', K', e', hlen, -⟩ := C40_freezer (exact F) frozen_bits level pe th hw hl
  rw [e] at e'
  cases e'
  obtain ⟨cw, ec, -, h, -⟩ := Verif.Polar.C36_systematic codeword message bits level h2 (by rw [hlen]; exact hl)
    (((Finset.card_filter_le _ _).trans (by simp)).trans hm) hc hi hcl
  exact ⟨bits, K, cw, e, ec, h⟩

/-- The erasure probabilities lie between 0 and 1 and their mean is the erasure probability of the channel. -/
theorem C40_average (level : Nat) (pe : F) (h0 : 0 ≤ pe) (h1 : pe ≤ 1) :
    (∀ i, 0 ≤ erasure (exact F) level pe i ∧ erasure (exact F) level pe i ≤ 1) ∧
      ∑ i ∈ Finset.range (2 ^ level), erasure (exact F) level pe i = 2 ^ level * pe := by
  constructor
  · intro i
    induction level generalizing pe with
    | zero => exact ⟨h0, h1⟩
    | succ n ih =>
      rw [erasure_succ]
      split
      · exact ih _ (by nlinarith) (by nlinarith)
      · exact ih _ (by nlinarith) (by nlinarith)
  · clear h0 h1
    induction level generalizing pe with
    | zero => simp [erasure]
    | succ n ih =>
      rw [pow_succ 2 n, Nat.mul_two, Finset.sum_range_add]
      have e1 : ∑ i ∈ Finset.range (2 ^ n), erasure (exact F) (n + 1) pe i = 2 ^ n * (pe * (2 - pe)) := by
        rw [← ih]
        refine Finset.sum_congr rfl fun i hi => ?_
        rw [erasure_succ, Nat.testBit_lt_two_pow (Finset.mem_range.1 hi)]; rfl
      have e2 : ∑ i ∈ Finset.range (2 ^ n), erasure (exact F) (n + 1) pe (2 ^ n + i) = 2 ^ n * (pe * pe) := by
        rw [← ih]
        refine Finset.sum_congr rfl fun i hi => ?_
        have hi := Finset.mem_range.1 hi
        rw [erasure_succ, testBit_add_high hi, if_pos rfl]
        exact erasure_mod _ n _ _ _ (testBit_add_low hi)
      rw [e1, e2]
      ring

end exact

/-! ### PolarCodeConst0 and PolarSeqConst0 -/

/-- What the C++ standard promises about `std::nth_element`: if the comparison is defined on the elements of the range, where it agrees
with a strict weak order, then the range is permuted such that no element from `nth` on is less than one before it. -/
def IsNth (nth : (Nat → Nat → Option Bool) → Nat → List Nat → Option (List Nat)) : Prop :=
  ∀ (cmp : Nat → Nat → Option Bool) (r : Nat → Nat → Bool) (K : Nat) (l : List Nat), K ≤ l.length → (∀ a ∈ l, ∀ b ∈ l, cmp a b = some (r a b)) →
    Verif.Sort.StrictWeak r → ∃ l', nth cmp K l = some l' ∧ l'.Perm l ∧ ∀ a ∈ l'.take K, ∀ b ∈ l'.drop K, r b a = false

/-- What the C++ standard promises about `std::sort`. -/
def IsSort (sort : (Nat → Nat → Option Bool) → List Nat → Option (List Nat)) : Prop :=
  ∀ (cmp : Nat → Nat → Option Bool) (r : Nat → Nat → Bool) (l : List Nat), (∀ a ∈ l, ∀ b ∈ l, cmp a b = some (r a b)) →
    Verif.Sort.StrictWeak r → ∃ l', sort cmp l = some l' ∧ l'.Perm l ∧ l'.Pairwise fun a b => r b a = false

theorem cmp_of {o : DOps D} {prob : List D} {n : Nat} {d : D} {Z : Nat → D} (hp : n ≤ prob.length) (h : ∀ j, j < n → prob.getD j d = Z j) {a b : Nat} (ha : a < n)
    (hb : b < n) : (do
      let x ← rd prob a
      let y ← rd prob b
      return o.lt x y) = some (o.lt (Z a) (Z b)) := by
  rw [rd_of_lt (by omega), sb, rd_of_lt (by omega), sb, getElem_eq_getD _ d, getElem_eq_getD _ d, h a ha, h b hb]
  rfl

/-- For any arithmetic whose comparison is a strict weak order on the erasure probabilities (no NaN): exactly `K` of the positions become
unfrozen, none of the frozen ones has a smaller erasure probability than an unfrozen one, and all other bits of the buffer
keep their values. -/
theorem C40_const0 (o : DOps D) (nth : (Nat → Nat → Option Bool) → Nat → List Nat → Option (List Nat)) (hnth : IsNth nth) (MAX_M : Nat) (prob : List D)
    (index frozen_bits : List Nat) (level K : Nat) (pe : D) (hM : level ≤ MAX_M) (hp : prob.length = 2 ^ MAX_M) (hi : index.length = 2 ^ MAX_M)
    (hw : ∀ w ∈ frozen_bits, w < 2 ^ 32) (hl : 2 ^ level ≤ 32 * frozen_bits.length) (hK : K ≤ 2 ^ level)
    (hlt : Verif.Sort.StrictWeak fun i j => o.lt (erasure o level pe i) (erasure o level pe j)) :
    ∃ bits, const0 o nth MAX_M prob index frozen_bits level K pe = some bits ∧ bits.length = frozen_bits.length ∧ (∀ w ∈ bits, w < 2 ^ 32) ∧
      freeBelow bits (2 ^ level) = K ∧
      (∀ i j, i < 2 ^ level → j < 2 ^ level → ¬ Frozen bits i → Frozen bits j → o.lt (erasure o level pe j) (erasure o level pe i) = false) ∧
      ∀ i, 2 ^ level ≤ i → (Frozen bits i ↔ Frozen frozen_bits i) := by
  have hpow : (2 : Nat) ^ level ≤ 2 ^ MAX_M := Nat.pow_le_pow_right (by omega) hM
  obtain ⟨prob', ep, p1, p2⟩ := compute_ok o (prob := prob) (level := level) (by omega) pe pe
  obtain ⟨ix, ei, rfl⟩ := iota_ok (l := index) (n := 2 ^ level) (by omega)
  obtain ⟨l', el, hperm, hord⟩ := hnth (fun a b => do
      let x ← rd prob' a
      let y ← rd prob' b
      return o.lt x y) (fun i j => o.lt (erasure o level pe i) (erasure o level pe j)) K (List.range (2 ^ level)) (by simpa using hK)
    (fun a ha b hb => cmp_of (by omega) p2 (List.mem_range.1 ha) (List.mem_range.1 hb)) hlt
  have hl' : l'.length = 2 ^ level := by rw [hperm.length_eq, List.length_range]
  have hmem : ∀ j, j ∈ l' ↔ j < 2 ^ level := fun j => by rw [hperm.mem_iff, List.mem_range]
  have hnd : l'.Nodup := hperm.nodup_iff.2 List.nodup_range
  have hrd : ∀ i, i < 2 ^ level → rd (l' ++ index.drop (2 ^ level)) i = some (l'.getD i 0) := by
    intro i hi
    rw [rd_of_lt (by simp; omega), List.getElem_append_left (by omega), getElem_eq_getD _ 0]
  have hget : ∀ i, i < 2 ^ level → l'.getD i 0 < 2 ^ level := by
    intro i hi
    rw [← hmem, ← getElem_eq_getD (by omega)]
    exact List.getElem_mem _
  have loop1 : Ok (forUp 0 K frozen_bits fun i bits => do
      let j ← rd (l' ++ index.drop (2 ^ level)) i
      informBit bits j) (fun b => b.length = frozen_bits.length ∧ Words b ∧ ∀ j, fbit b j = if j ∈ l'.take K then false else fbit frozen_bits j) := by
    refine forUp_inv (fun t (b : List Nat) => b.length = frozen_bits.length ∧ Words b ∧ ∀ j, fbit b j = if j ∈ l'.take t then false else fbit frozen_bits j)
      (Nat.zero_le _) ⟨rfl, hw, fun j => by simp⟩ ?_
    rintro t b _ ht ⟨b1, b2, b3⟩
    rw [hrd t (by omega), sb]
    have := hget t (by omega)
    refine Ok.mono (informBit_ok b2 (by rw [b1]; omega)) ?_
    rintro b' ⟨h1, h2, h3⟩
    refine ⟨by rw [h1, b1], h2, fun j => ?_⟩
    rw [h3, b3, List.take_add_one, List.getElem?_eq_getElem (by omega), Option.toList_some, getElem_eq_getD _ 0]
    by_cases hj : j = l'.getD t 0
    · rw [if_pos hj, if_pos (by rw [hj]; simp)]
    · rw [if_neg hj]
      have : j ∈ l'.take t ++ [l'.getD t 0] ↔ j ∈ l'.take t := by
        rw [List.mem_append, List.mem_singleton]; tauto
      simp only [this]
  obtain ⟨b1, e1, c1, c2, c3⟩ := loop1
  have loop2 : Ok (forUp K (2 ^ level) b1 fun i bits => do
      let j ← rd (l' ++ index.drop (2 ^ level)) i
      frozenBit bits j) (fun b => b.length = frozen_bits.length ∧ Words b ∧ ∀ j, fbit b j = if j ∈ l'.drop K then true else fbit b1 j) := by
    refine Ok.mono (forUp_inv (fun t (b : List Nat) => b.length = frozen_bits.length ∧ Words b ∧ ∀ j, fbit b j = if j ∈ (l'.take t).drop K then true else fbit b1 j)
      hK ⟨c1, c2, fun j => by rw [if_neg]; rw [List.drop_eq_nil_of_le (by simp)]; simp⟩ ?_) ?_
    · rintro t b ht0 ht ⟨b1, b2, b3⟩
      rw [hrd t (by omega), sb]
      have := hget t (by omega)
      refine Ok.mono (frozenBit_ok b2 (by rw [b1]; omega)) ?_
      rintro b' ⟨h1, h2, h3⟩
      refine ⟨by rw [h1, b1], h2, fun j => ?_⟩
      rw [h3, b3, List.take_add_one, List.getElem?_eq_getElem (by omega), Option.toList_some, getElem_eq_getD _ 0, List.drop_append_of_le_length (by simp; omega)]
      by_cases hj : j = l'.getD t 0
      · rw [if_pos hj, if_pos (by rw [hj]; simp)]
      · rw [if_neg hj]
        have : j ∈ (l'.take t).drop K ++ [l'.getD t 0] ↔ j ∈ (l'.take t).drop K := by
          rw [List.mem_append, List.mem_singleton]; tauto
        simp only [this]
    · rintro b ⟨h1, h2, h3⟩
      rw [List.take_of_length_le (by omega)] at h3
      exact ⟨h1, h2, h3⟩
  obtain ⟨b2, e2, d1, d2, d3⟩ := loop2
  have hsplit : ∀ j, j ∈ l' ↔ j ∈ l'.take K ∨ j ∈ l'.drop K := fun j => by
    conv_lhs => rw [← List.take_append_drop K l']
    exact List.mem_append
  have hdisj : ∀ j, j ∈ l'.take K → j ∉ l'.drop K := fun j h1 h2 =>
    (List.disjoint_of_nodup_append (by rw [List.take_append_drop]; exact hnd)) h1 h2
  have hfr : ∀ j, j < 2 ^ level → (Frozen b2 j ↔ j ∈ l'.drop K) := by
    intro j hj
    show fbit b2 j = true ↔ _
    rw [d3, c3]
    by_cases h : j ∈ l'.drop K
    · simp [h]
    · have := ((hsplit j).1 ((hmem j).2 hj)).resolve_right h
      simp [h, this]
  have hun : ∀ j, j < 2 ^ level → (¬ Frozen b2 j ↔ j ∈ l'.take K) := by
    intro j hj
    rw [hfr j hj]
    exact ⟨fun h => ((hsplit j).1 ((hmem j).2 hj)).resolve_right h, hdisj j⟩
  refine ⟨b2, ?_, d1, d2, ?_, fun i j hi hj h1 h2 => hord i ((hun i hi).1 h1) j ((hfr j hj).1 h2), fun i hi => ?_⟩
  · unfold const0
    simp only [Nat.shiftLeft_eq, one_mul]
    rw [show assertUB (level ≤ MAX_M) = some () from if_pos hM, sb, ep, sb, ei, sb, List.take_left' (by simp), el, sb, List.drop_left' (by simp), e1, sb, e2]
  · unfold freeBelow
    have : (Finset.range (2 ^ level)).filter (fun j => ¬ Frozen b2 j) = (l'.take K).toFinset := by
      ext j
      rw [Finset.mem_filter, Finset.mem_range, List.mem_toFinset]
      constructor
      · rintro ⟨h1, h2⟩; exact (hun j h1).1 h2
      · intro h
        have hj : j < 2 ^ level := (hmem j).1 (List.mem_of_mem_take h)
        exact ⟨hj, (hun j hj).2 h⟩
    rw [this, List.toFinset_card_of_nodup (hnd.sublist (List.take_sublist _ _)), List.length_take]
    omega
  · show fbit b2 i = true ↔ fbit frozen_bits i = true
    have : i ∉ l' := by rw [hmem]; omega
    rw [hsplit] at this
    rw [d3, if_neg (by tauto), c3, if_neg (by tauto)]

/-- For any arithmetic whose comparison is a strict weak order on the erasure probabilities: the sequence becomes a permutation of the
positions with non-increasing erasure probability; the rest of the array keeps its values. -/
theorem C40_sequence (o : DOps D) (sort : (Nat → Nat → Option Bool) → List Nat → Option (List Nat)) (hsort : IsSort sort) (MAX_M : Nat) (prob : List D)
    (sequence : List Nat) (level : Nat) (pe : D) (hM : level ≤ MAX_M) (hp : prob.length = 2 ^ MAX_M) (hs : 2 ^ level ≤ sequence.length)
    (hlt : Verif.Sort.StrictWeak fun i j => o.lt (erasure o level pe i) (erasure o level pe j)) :
    ∃ l, seqConst0 o sort MAX_M prob sequence level pe = some (l ++ sequence.drop (2 ^ level)) ∧ l.Perm (List.range (2 ^ level)) ∧
      l.Pairwise fun i j => o.lt (erasure o level pe i) (erasure o level pe j) = false := by
  have hpow : (2 : Nat) ^ level ≤ 2 ^ MAX_M := Nat.pow_le_pow_right (by omega) hM
  obtain ⟨prob', ep, p1, p2⟩ := compute_ok o (prob := prob) (level := level) (by omega) pe pe
  obtain ⟨ix, ei, rfl⟩ := iota_ok (l := sequence) (n := 2 ^ level) (by omega)
  obtain ⟨l', el, hperm, hord⟩ := hsort (fun a b => do
      let x ← rd prob' a
      let y ← rd prob' b
      return o.lt y x) (fun i j => o.lt (erasure o level pe j) (erasure o level pe i)) (List.range (2 ^ level))
    (fun a ha b hb => by
      have ha := List.mem_range.1 ha
      have hb := List.mem_range.1 hb
      rw [rd_of_lt (by omega), sb, rd_of_lt (by omega), sb, getElem_eq_getD _ pe, getElem_eq_getD _ pe, p2 a ha, p2 b hb]; rfl)
    ⟨fun x y h => hlt.asymm _ _ h, fun x y z h => (hlt.negtrans z y x h).symm⟩
  refine ⟨l', ?_, hperm, hord⟩
  unfold seqConst0
  simp only [Nat.shiftLeft_eq, one_mul]
  rw [show assertUB (level ≤ MAX_M) = some () from if_pos hM, sb, ep, sb, ei, sb, List.take_left' (by simp), el, sb, List.drop_left' (by simp)]
  rfl

section exact
variable {F : Type} [Field F] [LinearOrder F] [IsStrictOrderedRing F]

omit [IsStrictOrderedRing F] in
theorem exact_weak (Z : Nat → F) : Verif.Sort.StrictWeak fun i j => (exact F).lt (Z i) (Z j) where
  asymm x y h := by
    simp only [exact, decide_eq_true_eq, decide_eq_false_iff_not, not_lt] at h ⊢
    exact h.le
  negtrans x y z h := by
    simp only [exact, decide_eq_true_eq] at h ⊢
    rcases lt_or_ge (Z x) (Z y) with h1 | h1
    · exact Or.inl h1
    · exact Or.inr (lt_of_le_of_lt h1 h)

theorem differ {i j level : Nat} (hi : i < 2 ^ level) (hj : j < 2 ^ level) (hne : i ≠ j) : ∃ b, b < level ∧ i.testBit b ≠ j.testBit b := by
  by_contra h
  push Not at h
  refine hne (Nat.eq_of_testBit_eq fun b => ?_)
  by_cases hb : b < level
  · exact h b hb
  · have : 2 ^ level ≤ 2 ^ b := Nat.pow_le_pow_right (by omega) (by omega)
    rw [Nat.testBit_lt_two_pow (by omega), Nat.testBit_lt_two_pow (by omega)]

/-- With exact arithmetic and an erasure probability strictly between 0 and 1 the `K` positions that `PolarCodeConst0` chooses are closed
under bit inclusion, so that the systematic encoder works for them (C36). -/
theorem C40_const0_closed (nth : (Nat → Nat → Option Bool) → Nat → List Nat → Option (List Nat)) (hnth : IsNth nth) (MAX_M : Nat) (prob : List F)
    (index frozen_bits : List Nat) (level K : Nat) (pe : F) (hM : level ≤ MAX_M) (hp : prob.length = 2 ^ MAX_M) (hi : index.length = 2 ^ MAX_M)
    (hw : ∀ w ∈ frozen_bits, w < 2 ^ 32) (hl : 2 ^ level ≤ 32 * frozen_bits.length) (hK : K ≤ 2 ^ level) (h0 : 0 < pe) (h1 : pe < 1) :
    ∃ bits, const0 (exact F) nth MAX_M prob index frozen_bits level K pe = some bits ∧ freeBelow bits (2 ^ level) = K ∧ Closed bits level := by
  obtain ⟨bits, e, -, -, h2, h3, -⟩ := C40_const0 (exact F) nth hnth MAX_M prob index frozen_bits level K pe hM hp hi hw hl hK (exact_weak _)
  refine ⟨bits, e, h2, fun i j hi hj hn hij hf => ?_⟩
  have hle := h3 i j hi hj hn hf
  simp only [exact, decide_eq_false_iff_not, not_lt] at hle
  by_cases hne : j = i
  · subst hne; exact hn hf
  · exact absurd (erasure_lt level pe pe j i h0 le_rfl h1 (fun b _ => bits_of_and hij b) (Or.inr (differ hj hi hne))) (not_lt.2 hle)

/-- With exact arithmetic and an erasure probability strictly between 0 and 1, in the sequence of `PolarSeqConst0` a position comes
before all positions whose bits include its bits. -/
theorem C40_sequence_order (sort : (Nat → Nat → Option Bool) → List Nat → Option (List Nat)) (hsort : IsSort sort) (MAX_M : Nat) (prob : List F)
    (sequence : List Nat) (level : Nat) (pe : F) (hM : level ≤ MAX_M) (hp : prob.length = 2 ^ MAX_M) (hs : 2 ^ level ≤ sequence.length)
    (h0 : 0 < pe) (h1 : pe < 1) :
    ∃ l, seqConst0 (exact F) sort MAX_M prob sequence level pe = some l ∧
      ∀ s t i j, s < 2 ^ level → t < 2 ^ level → l[s]? = some i → l[t]? = some j → j &&& i = i → i ≠ j → s < t := by
  obtain ⟨l, e, hperm, hpw⟩ := C40_sequence (exact F) sort hsort MAX_M prob sequence level pe hM hp hs (exact_weak _)
  refine ⟨_, e, fun s t i j hs' ht hi hj hij hne => ?_⟩
  have hll : l.length = 2 ^ level := by rw [hperm.length_eq, List.length_range]
  rw [List.getElem?_append_left (by omega), List.getElem?_eq_getElem (by omega), Option.some.injEq] at hi hj
  have hi' : i < 2 ^ level := by rw [← List.mem_range, ← hperm.mem_iff, ← hi]; exact List.getElem_mem _
  have hj' : j < 2 ^ level := by rw [← List.mem_range, ← hperm.mem_iff, ← hj]; exact List.getElem_mem _
  have hlt := erasure_lt level pe pe j i h0 le_rfl h1 (fun b _ => bits_of_and hij b) (Or.inr (differ hj' hi' (Ne.symm hne)))
  rcases lt_trichotomy s t with h | h | h
  · exact h
  · subst h; exact absurd (hi.symm.trans hj) hne
  · have := List.pairwise_iff_getElem.1 hpw t s (by omega) (by omega) h
    rw [hi, hj] at this
    simp only [exact, decide_eq_false_iff_not] at this
    exact absurd hlt this

end exact

/-! ### The hypotheses can be met -/

theorem merge_ok (r : Nat → Nat → Bool) (hr : Verif.Sort.StrictWeak r) (l : List Nat) :
    ∃ l' : List Nat, l'.Perm l ∧ l'.Pairwise fun a b => r b a = false := by
  refine ⟨l.mergeSort fun a b => !r b a, List.mergeSort_perm _ _, ?_⟩
  have := List.pairwise_mergeSort (le := fun a b => !r b a) (by
    intro a b c h1 h2
    simp only [Bool.not_eq_true'] at h1 h2 ⊢
    by_contra h
    rw [Bool.not_eq_false] at h
    rcases hr.negtrans _ b _ h with h | h
    · rw [h2] at h; cases h
    · rw [h1] at h; cases h) (by
    intro a b
    cases h : r b a with
    | false => simp
    | true => simp [hr.asymm _ _ h]) l
  exact this.imp fun h => by simpa using h

/-- Functions as the standard promises them exist. -/
theorem exists_sort : ∃ sort, IsSort sort := by
  classical
  refine ⟨fun cmp l => if h : ∃ l' : List Nat, l'.Perm l ∧ l'.Pairwise (fun a b => cmp b a = some false) then some h.choose else none, ?_⟩
  intro cmp r l hc hr
  have hex : ∃ l' : List Nat, l'.Perm l ∧ l'.Pairwise (fun a b => cmp b a = some false) := by
    obtain ⟨l', h1, h2⟩ := merge_ok r hr l
    refine ⟨l', h1, h2.imp_of_mem fun ha hb h => ?_⟩
    rw [hc _ (h1.mem_iff.1 hb) _ (h1.mem_iff.1 ha), h]
  refine ⟨hex.choose, dif_pos hex, hex.choose_spec.1, ?_⟩
  refine hex.choose_spec.2.imp_of_mem fun ha hb h => ?_
  rw [hc _ (hex.choose_spec.1.mem_iff.1 hb) _ (hex.choose_spec.1.mem_iff.1 ha)] at h
  exact Option.some.inj h

theorem exists_nth : ∃ nth, IsNth nth := by
  obtain ⟨sort, hs⟩ := exists_sort
  refine ⟨fun cmp _ l => sort cmp l, fun cmp r K l _ hc hr => ?_⟩
  obtain ⟨l', h1, h2, h3⟩ := hs cmp r l hc hr
  refine ⟨l', h1, h2, fun a ha b hb => ?_⟩
  rw [← List.take_append_drop K l'] at h3
  exact (List.pairwise_append.1 h3).2.2 a ha b hb

/-- Erasure probability 1/2, length 8. -/
example : erasure (exact ℚ) 3 (1 / 2) 3 = 81 / 256 := by
  simp [erasure, exact, Nat.testBit]; norm_num

/-- Length 4, erasure probability and threshold 1/2: positions 0 and 1 become frozen (their erasure probabilities are 15/16 and
9/16), 2 and 3 do not (7/16, 1/16), the other bits stay. -/
example : freezer (exact ℚ) [0xfffffff5] 2 (1 / 2) (1 / 2) = some ([0xfffffff3], 2) := by
  have d0 : (exact ℚ).lt (1 / 2) ((exact ℚ).worse ((exact ℚ).worse (1 / 2))) = true := by simp [exact, DOps.worse]; norm_num
  have d1 : (exact ℚ).lt (1 / 2) ((exact ℚ).better ((exact ℚ).worse (1 / 2))) = true := by simp [exact, DOps.worse, DOps.better]; norm_num
  have d2 : (exact ℚ).lt (1 / 2) ((exact ℚ).worse ((exact ℚ).better (1 / 2))) = false := by simp [exact, DOps.worse, DOps.better]; norm_num
  have d3 : (exact ℚ).lt (1 / 2) ((exact ℚ).better ((exact ℚ).better (1 / 2))) = false := by simp [exact, DOps.better]; norm_num
  have z : ∀ b pe th i, freeze (exact ℚ) b pe th i 0 = setBit b i ((exact ℚ).lt th pe) := fun b pe th i => by rw [freeze, if_neg (by simp)]
  have s : ∀ b pe th i h, h ≠ 0 → freeze (exact ℚ) b pe th i h = (freeze (exact ℚ) b ((exact ℚ).worse pe) th i (h / 2) >>= fun b =>
    freeze (exact ℚ) b ((exact ℚ).better pe) th (i + h) (h / 2)) := fun b pe th i h hh => by rw [freeze, if_pos hh]
  have e' : freeze (exact ℚ) [0xfffffff5] (1 / 2) (1 / 2) 0 (1 <<< 2 / 2) = some [0xfffffff3] := by
    simp only [show 1 <<< 2 / 2 = 2 from rfl, s _ _ _ _ 2 (by omega), show 2 / 2 = 1 from rfl, s _ _ _ _ 1 (by omega), show 1 / 2 = 0 from rfl, z, d0, d1, d2, d3]
    decide +kernel
  unfold freezer
  dsimp only
  rw [e', sb]
  decide +kernel

/-! ### IEEE doubles -/

/-- The product of the mantissas is rounded to 53 bits, to nearest, ties to even: `(m, k)` stands for `m / 2^k`. -/
def round53 (x : Nat × Nat) : Nat × Nat :=
  let s := Nat.log2 x.1 + 1 - 53
  let q := x.1 / 2 ^ s
  let rest := 2 * (x.1 % 2 ^ s)
  let q := if rest > 2 ^ s ∨ (rest = 2 ^ s ∧ q % 2 = 1) then q + 1 else q
  if s = 0 then x else (q, x.2 - s)

/-- Non-negative IEEE binary64 numbers `m / 2^k` far from overflow and underflow, with correctly rounded operations. -/
def dbl : DOps (Nat × Nat) where
  mul a b := round53 (a.1 * b.1, a.2 + b.2)
  sub a b := round53 (a.1 * 2 ^ b.2 - b.1 * 2 ^ a.2, a.2 + b.2)
  two := (2, 0)
  lt a b := decide (a.1 * 2 ^ b.2 < b.1 * 2 ^ a.2)

/-- The `double` nearest to `exp(-1)`, the default erasure probability: 0x1.78b56362cef38p-2. -/
def dblE : Nat × Nat := (0x178b56362cef38, 54)

/-- With IEEE doubles the order fails from length 256 on: with the default erasure probability position 0, the worst of all, gets a
smaller erasure probability (1 - 2^-53) than position 2 (which gets 1). -/
theorem C40_double_order : dbl.lt (erasure dbl 8 dblE 0) (erasure dbl 8 dblE 2) = true ∧ dbl.lt (2 ^ 53 - 2, 53) (erasure dbl 8 dblE 0) = true ∧
    dbl.lt (erasure dbl 8 dblE 2) (2 ^ 53 + 1, 53) = true := by decide +kernel

/-- So the set that `PolarFreezer` makes with doubles need not be closed under bit inclusion. -/
theorem C40_double_not_closed (frozen_bits : List Nat) (hw : ∀ w ∈ frozen_bits, w < 2 ^ 32) (hl : 8 ≤ frozen_bits.length) :
    ∃ bits K, freezer dbl frozen_bits 8 dblE (2 ^ 53 - 1, 53) = some (bits, K) ∧ ¬ Closed bits 8 := by
  obtain ⟨bits, K, e, -, -, h, -⟩ := C40_freezer dbl frozen_bits 8 dblE (2 ^ 53 - 1, 53) hw (by omega)
  refine ⟨bits, K, e, fun hc => hc 0 2 (by norm_num) (by norm_num) ?_ (by decide) ?_⟩
  · rw [h 0 (by norm_num)]; decide +kernel
  · rw [h 2 (by norm_num)]; decide +kernel

end Verif.Freezer
