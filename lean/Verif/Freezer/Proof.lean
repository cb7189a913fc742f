import Verif.Freezer.Model
import Verif.Polar.PropsEnc
/- What the loops of polar_freezer.hh do. -/
namespace Verif.Freezer
open Verif.RS (sb)
open Verif.Polar (fbit Frozen freeBelow)
variable {D : Type}

/-- The erasure probability of position `i` of a code of length `2 ^ n`: from the most significant bit of `i` down, a clear bit makes
the channel worse, a set bit makes it better. -/
def erasure (o : DOps D) : Nat → D → Nat → D
  | 0, pe, _ => pe
  | n + 1, pe, i => erasure o n (if i.testBit n then o.mul pe pe else o.mul pe (o.sub o.two pe)) i

theorem erasure_mod (o : DOps D) (n : Nat) : ∀ pe i j, (∀ b, b < n → i.testBit b = j.testBit b) → erasure o n pe i = erasure o n pe j := by
  induction n with
  | zero => intro pe i j _; rfl
  | succ n ih =>
    intro pe i j h
    rw [erasure, erasure, h n (by omega)]
    exact ih _ _ _ fun b hb => h b (by omega)

theorem testBit_add_low {i n : Nat} (hi : i < 2 ^ n) : ∀ b, b < n → (2 ^ n + i).testBit b = i.testBit b := by
  intro b hb
  exact Nat.testBit_two_pow_add_gt hb i

theorem testBit_add_high {i n : Nat} (hi : i < 2 ^ n) : (2 ^ n + i).testBit n = true := by
  rw [Nat.testBit_two_pow_add_eq, Nat.testBit_lt_two_pow hi]; rfl

/-- The recursion over `h` as a recursion over levels. -/
theorem rec_levels {σ : Type} (o : DOps D) (G : D → Nat → Nat → σ → Option σ) (leaf : D → Nat → σ → Option σ)
    (h0 : ∀ pe i s, G pe i 0 s = leaf pe i s)
    (h1 : ∀ pe i h s, h ≠ 0 → G pe i h s = (G (o.worse pe) i (h / 2) s >>= fun s => G (o.better pe) (i + h) (h / 2) s))
    (I : Nat → σ → Prop) (n : Nat) : ∀ (pe : D) (i : Nat) (s : σ), I i s →
    (∀ j s, j < 2 ^ n → I (i + j) s → Ok (leaf (erasure o n pe j) (i + j) s) (I (i + j + 1))) → Ok (G pe i (2 ^ n / 2) s) (I (i + 2 ^ n)) := by
  induction n with
  | zero =>
    intro pe i s hs hl
    rw [show (2 ^ 0 / 2 : Nat) = 0 from rfl, h0]
    exact hl 0 s (by omega) hs
  | succ n ih =>
    intro pe i s hs hl
    have e : (2 : Nat) ^ (n + 1) = 2 * 2 ^ n := by rw [pow_succ]; omega
    have hp : 0 < 2 ^ n := by positivity
    rw [e, Nat.mul_div_cancel_left _ (by omega : 0 < 2), h1 _ _ _ _ (by omega)]
    refine Ok.bind' (ih _ i s hs fun j s' hj hs' => ?_) fun s' hs' => ?_
    · have := hl j s' (by omega) hs'
      rw [erasure, Nat.testBit_lt_two_pow hj] at this
      exact this
    · have := ih (o.better pe) (i + 2 ^ n) s' hs' (fun j s'' hj hs'' => by
        have := hl (2 ^ n + j) s'' (by omega) (by rw [← add_assoc]; exact hs'')
        rw [erasure, testBit_add_high hj, if_pos rfl, ← add_assoc] at this
        rw [erasure_mod o n _ (2 ^ n + j) j (testBit_add_low hj)] at this
        exact this)
      rw [show i + 2 * 2 ^ n = i + 2 ^ n + 2 ^ n by omega]
      exact this

/-- All words are `uint32_t` values. -/
def Words (bits : List Nat) : Prop := ∀ w ∈ bits, w < 2 ^ 32

theorem Words.getD {bits : List Nat} (h : Words bits) (i : Nat) : bits.getD i 0 < 2 ^ 32 := by
  by_cases hi : i < bits.length
  · rw [← getElem_eq_getD hi]; exact h _ (List.getElem_mem hi)
  · rw [List.getD_eq_default _ _ (by omega)]; norm_num

theorem Words.set {bits : List Nat} (h : Words bits) {i v : Nat} (hv : v < 2 ^ 32) : Words (bits.set i v) := by
  intro w hw
  rcases List.mem_or_eq_of_mem_set hw with hw | rfl
  · exact h w hw
  · exact hv

theorem clearMask_testBit {k b : Nat} (hk : k < 32) : (clearMask k).testBit b = (decide (b < 32) && decide (b ≠ k)) := by
  unfold clearMask
  rw [Nat.testBit_xor, Nat.testBit_two_pow_sub_one, Nat.shiftLeft_eq, one_mul, Nat.testBit_two_pow]
  by_cases h1 : b < 32 <;> by_cases h2 : k = b <;> simp [h1, h2] <;> omega

theorem lt_word {w : Nat} (h : ∀ b, 32 ≤ b → w.testBit b = false) : w < 2 ^ 32 := Nat.lt_pow_two_of_testBit _ h

/-- Changing one word to have a given bit. -/
theorem set_word {bits : List Nat} (hw : Words bits) {idx v : Nat} {val : Bool} (hl : idx / 32 < bits.length)
    (hv : ∀ b, v.testBit b = if b = idx % 32 then val else (bits.getD (idx / 32) 0).testBit b) :
    Words (bits.set (idx / 32) v) ∧ ∀ j, fbit (bits.set (idx / 32) v) j = if j = idx then val else fbit bits j := by
  constructor
  · refine hw.set (lt_word fun b hb => ?_)
    rw [hv, if_neg (by omega)]
    exact Nat.testBit_eq_false_of_lt ((hw.getD _).trans_le (Nat.pow_le_pow_right (by omega) hb))
  · intro j
    unfold fbit
    rw [getD_set]
    by_cases hj : idx / 32 = j / 32
    · rw [if_pos ⟨hj, hl⟩, hv, hj]
      by_cases h2 : j % 32 = idx % 32
      · rw [if_pos h2, if_pos (by omega)]
      · rw [if_neg h2, if_neg (by rintro rfl; exact h2 rfl)]
    · rw [if_neg (by tauto), if_neg (by rintro rfl; exact hj rfl)]

theorem informBit_ok {bits : List Nat} (hw : Words bits) {idx : Nat} (hl : idx / 32 < bits.length) :
    Ok (informBit bits idx) (fun b => b.length = bits.length ∧ Words b ∧ ∀ j, fbit b j = if j = idx then false else fbit bits j) := by
  unfold informBit
  rw [rd_of_lt hl, sb, wr_of_lt hl]
  refine Ok.some ⟨by simp, set_word hw hl fun b => ?_⟩
  rw [Nat.testBit_and, clearMask_testBit (Nat.mod_lt _ (by omega)), getElem_eq_getD _ 0]
  have : 32 ≤ b → (bits.getD (idx / 32) 0).testBit b = false := fun hb =>
    Nat.testBit_eq_false_of_lt ((hw.getD _).trans_le (Nat.pow_le_pow_right (by omega) hb))
  by_cases h1 : b = idx % 32
  · simp [h1]
  · by_cases h2 : b < 32
    · simp [h1, h2]
    · rw [this (by omega)]; simp [h1]

theorem or_bit (w k b : Nat) (val : Bool) : (w ||| ((if val then 1 else 0) <<< k)).testBit b = (w.testBit b || (decide (b = k) && val)) := by
  rw [Nat.testBit_or]
  cases val with
  | true =>
    simp only [if_true, Nat.shiftLeft_eq, one_mul, Nat.testBit_two_pow, Bool.and_true]
    congr 1
    simp [eq_comm]
  | false => simp

theorem frozenBit_ok {bits : List Nat} (hw : Words bits) {idx : Nat} (hl : idx / 32 < bits.length) :
    Ok (frozenBit bits idx) (fun b => b.length = bits.length ∧ Words b ∧ ∀ j, fbit b j = if j = idx then true else fbit bits j) := by
  unfold frozenBit
  rw [rd_of_lt hl, sb, wr_of_lt hl]
  refine Ok.some ⟨by simp, set_word hw hl fun b => ?_⟩
  have := or_bit (bits.getD (idx / 32) 0) (idx % 32) b true
  simp only [if_true] at this
  rw [getElem_eq_getD _ 0, this]
  by_cases h1 : b = idx % 32
  · simp [h1]
  · simp [h1]

theorem setBit_ok {bits : List Nat} (hw : Words bits) {idx : Nat} {val : Bool} (hl : idx / 32 < bits.length) :
    Ok (setBit bits idx val) (fun b => b.length = bits.length ∧ Words b ∧ ∀ j, fbit b j = if j = idx then val else fbit bits j) := by
  unfold setBit
  rw [rd_of_lt hl, sb, wr_of_lt hl, sb, rd_of_lt (by simpa using hl), sb, wr_of_lt (by simpa using hl), List.set_set]
  refine Ok.some ⟨by simp, set_word hw hl fun b => ?_⟩
  rw [or_bit]
  have h0 : (bits.set (idx / 32) (bits[idx / 32] &&& clearMask (idx % 32)))[idx / 32]'(by simpa using hl) = bits[idx / 32] &&& clearMask (idx % 32) := by simp
  rw [h0, Nat.testBit_and, clearMask_testBit (Nat.mod_lt _ (by omega)), getElem_eq_getD _ 0]
  have : 32 ≤ b → (bits.getD (idx / 32) 0).testBit b = false := fun hb =>
    Nat.testBit_eq_false_of_lt ((hw.getD _).trans_le (Nat.pow_le_pow_right (by omega) hb))
  by_cases h1 : b = idx % 32
  · simp [h1]
  · by_cases h2 : b < 32
    · simp [h1, h2]
    · rw [this (by omega)]; simp [h1]

theorem freeze_ok (o : DOps D) {bits : List Nat} (hw : Words bits) {level : Nat} (hl : 2 ^ level ≤ 32 * bits.length) (pe th : D) :
    Ok (freeze o bits pe th 0 (2 ^ level / 2)) (fun b => b.length = bits.length ∧ Words b ∧
      ∀ j, fbit b j = if j < 2 ^ level then o.lt th (erasure o level pe j) else fbit bits j) := by
  have := rec_levels o (fun pe i h s => freeze o s pe th i h) (fun pe i s => setBit s i (o.lt th pe))
    (fun pe i s => by rw [freeze, if_neg (by simp)]) (fun pe i h s hh => by rw [freeze, if_pos hh])
    (fun i b => b.length = bits.length ∧ Words b ∧ ∀ j, fbit b j = if j < i then o.lt th (erasure o level pe j) else fbit bits j)
    level pe 0 bits ⟨rfl, hw, fun j => by rw [if_neg (by omega)]⟩ (fun j b hj hb => by
      rw [Nat.zero_add] at hb ⊢
      refine Ok.mono (setBit_ok hb.2.1 (by rw [hb.1]; omega)) ?_
      rintro b' ⟨h1, h2, h3⟩
      refine ⟨by rw [h1, hb.1], h2, fun t => ?_⟩
      rw [h3, hb.2.2 t]
      by_cases ht : t = j
      · subst ht; rw [if_pos rfl, if_pos (by omega)]
      · rw [if_neg ht]
        by_cases h4 : t < j
        · rw [if_pos h4, if_pos (by omega)]
        · rw [if_neg h4, if_neg (by omega)])
  simpa only [Nat.zero_add] using this

theorem compute_ok (o : DOps D) {prob : List D} {level : Nat} (hl : 2 ^ level ≤ prob.length) (pe d : D) :
    Ok (compute o prob pe 0 (2 ^ level / 2)) (fun b => b.length = prob.length ∧ ∀ j, j < 2 ^ level → b.getD j d = erasure o level pe j) := by
  have := rec_levels o (fun pe i h s => compute o s pe i h) (fun pe i s => wr s i pe)
    (fun pe i s => by rw [compute, if_neg (by simp)]) (fun pe i h s hh => by rw [compute, if_pos hh])
    (fun i b => b.length = prob.length ∧ ∀ j, j < i → b.getD j d = erasure o level pe j)
    level pe 0 prob ⟨rfl, fun j hj => by omega⟩ (fun j b hj hb => by
      rw [Nat.zero_add] at hb ⊢
      rw [wr_of_lt (by omega)]
      refine Ok.some ⟨by rw [List.length_set, hb.1], fun t ht => ?_⟩
      rw [getD_set]
      by_cases h : j = t
      · subst h; rw [if_pos ⟨rfl, by omega⟩]
      · rw [if_neg (by tauto)]; exact hb.2 t (by omega))
  simpa only [Nat.zero_add] using this

theorem iota_ok {l : List Nat} {n : Nat} (h : n ≤ l.length) :
    Ok (forUp 0 n l fun i l => wr l i i) (fun a => a = List.range n ++ l.drop n) := by
  refine Ok.mono (forUp_inv (fun j (a : List Nat) => a.length = l.length ∧ ∀ i, a.getD i 0 = if i < j then i else l.getD i 0) (Nat.zero_le _)
    ⟨rfl, fun i => by rw [if_neg (by omega)]⟩ ?_) ?_
  · rintro j a _ hj ⟨a1, a2⟩
    rw [wr_of_lt (by omega)]
    refine Ok.some ⟨by rw [List.length_set, a1], fun i => ?_⟩
    rw [getD_set, a2]
    by_cases h : j = i
    · subst h; rw [if_pos ⟨rfl, by omega⟩, if_pos (by omega)]
    · rw [if_neg (by tauto)]
      by_cases h4 : i < j
      · rw [if_pos h4, if_pos (by omega)]
      · rw [if_neg h4, if_neg (by omega)]
  · rintro a ⟨a1, a2⟩
    refine ext_getD 0 (by simp; omega) fun i _ => ?_
    rw [a2]
    by_cases h4 : i < n
    · rw [if_pos h4, ← getElem_eq_getD (by simp; omega), List.getElem_append_left (by simpa using h4)]
      simp
    · rw [if_neg h4, List.getD_append_right _ _ _ _ (by simpa using h4), List.length_range, List.getD_eq_getElem?_getD, List.getD_eq_getElem?_getD, List.getElem?_drop]
      congr 2; omega

theorem count_ok {bits : List Nat} {n : Nat} (hl : n ≤ 32 * bits.length) :
    (forUp 0 n (n : Int) fun i K => do
      let w ← rd bits (i / 32)
      return K - (((w >>> (i % 32)) &&& 1 : Nat) : Int)) = some ((freeBelow bits n : Nat) : Int) := by
  have key : Ok (forUp 0 n (n : Int) fun i K => do
      let w ← rd bits (i / 32)
      return K - (((w >>> (i % 32)) &&& 1 : Nat) : Int)) (fun K => K = ((freeBelow bits n : Nat) : Int)) := by
    refine Ok.mono (forUp_inv (fun j (K : Int) => K = n - j + (freeBelow bits j : Nat)) (Nat.zero_le _) (by simp [freeBelow]) ?_) ?_
    · rintro j K _ hj rfl
      rw [rd_of_lt (by omega), sb, getElem_eq_getD _ 0]
      refine Ok.some ?_
      have e : ((bits.getD (j / 32) 0) >>> (j % 32)) &&& 1 = if Frozen bits j then 1 else 0 := by
        unfold Frozen
        simp only [Nat.testBit_eq_decide_div_mod_eq, Nat.and_one_is_mod, Nat.shiftRight_eq_div_pow, decide_eq_true_eq]
        rcases Nat.mod_two_eq_zero_or_one ((bits.getD (j / 32) 0) / 2 ^ (j % 32)) with h | h <;> rw [h] <;> simp
      rw [e]
      have hs : freeBelow bits (j + 1) = freeBelow bits j + if Frozen bits j then 0 else 1 := by
        unfold freeBelow
        rw [Finset.range_add_one, Finset.filter_insert]
        by_cases h : Frozen bits j
        · rw [if_neg (by simpa using h), if_pos h]; rfl
        · rw [if_pos h, if_neg h, Finset.card_insert_of_notMem (by simp)]
      rw [hs]
      split <;> push_cast <;> omega
    · rintro K rfl
      omega
  obtain ⟨K, e, rfl⟩ := key
  exact e

end Verif.Freezer
