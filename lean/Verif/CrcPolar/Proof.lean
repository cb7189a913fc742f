import Verif.CrcPolar.Model
import Verif.Crc.PropsPoly
import Verif.Polar.EncSim
import Verif.Polar.PropsMl
/- The frame around the list decoders: auxiliary lemmas. -/
namespace Verif.CrcPolar
open Verif.Crc
open Verif.RS (sb)
variable {w L : Nat} {τ : Type}

/-! ### CRC objects -/

theorem bit_obj (p s : BitVec w) (d : Bool) : ((objOf p s).bit d).1 = objOf p (specBit p s d) := by
  simp only [CRC.bit, objOf, update_eq_spec]

theorem reset_obj (p s : BitVec w) : (objOf p s).reset = objOf p 0#w := rfl

theorem specBits_snoc (p s : BitVec w) (l : List Bool) (b : Bool) : specBits p s (l ++ [b]) = specBit p (specBits p s l) b := by
  simp [specBits]

/-! ### Feeding a lane -/

theorem crcOfLane_eq (neg : τ → Bool) (p s : BitVec w) (decoded : List (Fin L → τ)) (K : Nat) (hK : K ≤ decoded.length) (k : Fin L) :
    crcOfLane neg (objOf p s) decoded K k = some (objOf p (specBits p 0#w ((decoded.take K).map fun r => neg (r k)))) := by
  unfold crcOfLane
  rw [reset_obj]
  have := forUp_inv (f := fun i crc => do
      let r ← rd decoded i
      return ((crc : CRC w).bit (neg (r k))).1) (lo := 0) (hi := K) (s := objOf p 0#w)
    (fun i crc => crc = objOf p (specBits p 0#w ((decoded.take i).map fun r => neg (r k)))) (Nat.zero_le _) rfl (by
      rintro i _ _ hi rfl
      rw [rd_of_lt (by omega), sb]
      refine Ok.some ?_
      rw [bit_obj, List.take_succ_eq_append_getElem (by omega), List.map_append, List.map_singleton, specBits_snoc])
  obtain ⟨c, e, rfl⟩ := this
  exact e

theorem crcSelectFrom_ok (neg : τ → Bool) (p : BitVec w) (decoded : List (Fin L → τ)) (K : Nat) (hK : K ≤ decoded.length) :
    ∀ (n : Nat) (h : n ≤ L) (s : BitVec w), ∃ s' best error, crcSelectFrom neg decoded K n h (objOf p s) = some (objOf p s', best, error) ∧
      (error = false → ∃ hb : best < L, L - n ≤ best ∧ specBits p 0#w ((decoded.take K).map fun r => neg (r ⟨best, hb⟩)) = 0#w ∧
        ∀ k : Fin L, L - n ≤ k.val → k.val < best → specBits p 0#w ((decoded.take K).map fun r => neg (r k)) ≠ 0#w) ∧
      (error = true → best = 0 ∧ ∀ k : Fin L, L - n ≤ k.val → specBits p 0#w ((decoded.take K).map fun r => neg (r k)) ≠ 0#w)
  | 0, h, s => ⟨s, 0, true, rfl, by simp, fun _ => ⟨rfl, fun k hk => by have := k.2; omega⟩⟩
  | n + 1, h, s => by
    rw [crcSelectFrom, crcOfLane_eq neg p s decoded K hK, sb]
    by_cases h0 : (objOf p (specBits p 0#w ((decoded.take K).map fun r => neg (r ⟨L - (n + 1), by omega⟩)))).value = 0#w
    · rw [if_pos h0]
      refine ⟨_, _, _, rfl, fun _ => ⟨by omega, le_rfl, h0, fun k h1 h2 => by omega⟩, by simp⟩
    · rw [if_neg h0]
      obtain ⟨s', best, error, e, q1, q2⟩ := crcSelectFrom_ok neg p decoded K hK n (by omega) (specBits p 0#w ((decoded.take K).map fun r => neg (r ⟨L - (n + 1), by omega⟩)))
      have hk : ∀ k : Fin L, L - (n + 1) ≤ k.val → L - n ≤ k.val ∨ k = ⟨L - (n + 1), by omega⟩ := by
        intro k hk
        by_cases h1 : L - n ≤ k.val
        · exact Or.inl h1
        · exact Or.inr (Fin.ext (show k.val = L - (n + 1) by omega))
      refine ⟨s', best, error, e, fun he => ?_, fun he => ?_⟩
      · obtain ⟨hb, a1, a2, a3⟩ := q1 he
        refine ⟨hb, by omega, a2, fun k h1 h2 => ?_⟩
        rcases hk k h1 with h3 | rfl
        · exact a3 k h3 h2
        · exact h0
      · obtain ⟨a1, a2⟩ := q2 he
        refine ⟨a1, fun k h1 => ?_⟩
        rcases hk k h1 with h3 | rfl
        · exact a2 k h3
        · exact h0

/-! ### Building the message -/

theorem symbol_eq (b : Bool) : symbol b = if b then -1 else 1 := by cases b <;> rfl

theorem low_bit (v : BitVec w) (i : Nat) (hi : i < w) : (((v >>> i) &&& 1#w) != 0#w) = v.getLsbD i := by
  have h1 : ((v >>> i) &&& 1#w) = if v.getLsbD i then 1#w else 0#w := by
    apply BitVec.eq_of_getLsbD_eq
    intro j hj
    rw [BitVec.getLsbD_and, BitVec.getLsbD_ushiftRight, BitVec.getLsbD_one]
    by_cases h : j = 0
    · subst h
      simp only [Nat.add_zero, decide_true, Bool.and_true]
      cases v.getLsbD i <;> simp [hj]
    · cases v.getLsbD i <;> simp [BitVec.getLsbD_one, h]
  rw [h1]
  cases v.getLsbD i
  · simp
  · have : 1#w ≠ 0#w := by
      intro h
      have := congrArg BitVec.toNat h
      have h2 : 1 < 2 ^ w := Nat.one_lt_two_pow (by omega)
      simp [Nat.mod_eq_of_lt h2] at this
    simp [this]

theorem set_append_drop {α : Type} (a : List α) (l : List α) (hl : l.length < a.length) (v : α) :
    (l ++ a.drop l.length).set l.length v = (l ++ [v]) ++ a.drop (l ++ [v]).length := by
  rw [List.set_append_right _ _ (by omega), Nat.sub_self, List.drop_eq_getElem_cons hl, List.set_cons_zero]
  simp

theorem crcMessage_eq (p s : BitVec w) (data : List Bool) (message : List Int) (K : Nat) (hw : w ≤ K) (hd : data.length = K - w) (hm : K ≤ message.length) :
    crcMessage (objOf p s) data message K w = some (objOf p (specBits p 0#w data),
      (data ++ bitsLE (specBits p 0#w data)).map symbol ++ message.drop K) := by
  unfold crcMessage
  rw [assertUB, if_pos hw, sb, reset_obj]
  obtain ⟨⟨c, m⟩, e, h1, h2⟩ := forUp_inv (f := fun i (x : CRC w × List Int) => do
      let bit ← rd data i
      let crc := (x.1.bit bit).1
      let message ← wr x.2 i (symbol bit)
      return (crc, message)) (lo := 0) (hi := K - w) (s := (objOf p 0#w, message))
    (fun i x => x.1 = objOf p (specBits p 0#w (data.take i)) ∧ x.2 = (data.take i).map symbol ++ message.drop i) (Nat.zero_le _) ⟨rfl, by simp⟩ (by
      rintro i ⟨_, _⟩ _ hi ⟨rfl, rfl⟩
      have hi' : i < data.length := by omega
      have hl : ((data.take i).map symbol).length = i := by simp; omega
      rw [rd_of_lt hi', sb]
      simp only
      rw [wr_of_lt (by simp; omega), sb]
      refine Ok.some ⟨?_, ?_⟩
      · simp only
        rw [bit_obj, List.take_succ_eq_append_getElem hi', specBits_snoc]
      · simp only
        have := set_append_drop message ((data.take i).map symbol) (by rw [hl]; omega) (symbol data[i])
        rw [hl] at this
        rw [this, List.take_succ_eq_append_getElem hi', List.map_append, List.map_singleton, List.length_append, hl, List.length_singleton])
  simp only at h1 h2
  rw [show data.take (K - w) = data by rw [← hd, List.take_length]] at h1 h2
  subst h1 h2
  rw [e, sb]
  simp only
  obtain ⟨m, e, rfl⟩ := forUp_inv (f := fun i (message : List Int) => do
      let bit := ((objOf p (specBits p 0#w data)).value >>> i) &&& 1#w
      wr message (K - w + i) (symbol (bit != 0#w))) (lo := 0) (hi := w) (s := data.map symbol ++ message.drop (K - w))
    (fun i x => x = (data ++ (bitsLE (specBits p 0#w data)).take i).map symbol ++ message.drop (K - w + i)) (Nat.zero_le _) (by simp) (by
      rintro i _ _ hi rfl
      have hl : ((data ++ (bitsLE (specBits p 0#w data)).take i).map symbol).length = K - w + i := by simp [length_bitsLE]; omega
      simp only
      rw [wr_of_lt (by rw [List.length_append, hl, List.length_drop]; omega)]
      refine Ok.some ?_
      have := set_append_drop message ((data ++ (bitsLE (specBits p 0#w data)).take i).map symbol) (by rw [hl]; omega)
        (symbol ((((objOf p (specBits p 0#w data)).value >>> i) &&& 1#w) != 0#w))
      rw [hl] at this
      rw [this, low_bit _ _ hi, List.take_succ_eq_append_getElem (by rw [length_bitsLE]; exact hi)]
      have hb : (bitsLE (specBits p 0#w data))[i]'(by rw [length_bitsLE]; exact hi) = (objOf p (specBits p 0#w data)).value.getLsbD i := by
        simp [bitsLE, objOf, CRC.value]
      rw [hb, List.length_append, hl, List.length_singleton, ← List.append_assoc, List.map_append (l₁ := data ++ _), List.map_singleton, Nat.add_assoc])
  rw [e, sb, List.take_of_length_le (by rw [length_bitsLE]), Nat.sub_add_cancel hw]
  rfl

/-! ### Valid messages -/

theorem bitsLE_injective : Function.Injective (bitsLE (n := w)) := by
  intro a b h
  rw [← pack_bitsLE_self a, ← pack_bitsLE_self b, h]

theorem bitsLE_surj (l : List Bool) (hl : l.length = w) : ∃ v : BitVec w, bitsLE v = l := by
  refine ⟨BitVec.ofNat w (∑ i ∈ Finset.range w, if l.getD i false then 2 ^ i else 0), ?_⟩
  refine List.ext_getElem (by rw [length_bitsLE, hl]) fun i h1 h2 => ?_
  have h3 : i < w := by rw [length_bitsLE] at h1; exact h1
  have key : ∀ n, (∀ i, i < n → (∑ i ∈ Finset.range n, if l.getD i false then 2 ^ i else 0).testBit i = l.getD i false) ∧
      (∑ i ∈ Finset.range n, if l.getD i false then 2 ^ i else 0) < 2 ^ n := by
    intro n
    induction n with
    | zero => simp
    | succ n ih =>
      rw [Finset.sum_range_succ]
      have h2 : (2 : Nat) ^ (n + 1) = 2 * 2 ^ n := by ring
      refine ⟨fun i hi => ?_, by split <;> omega⟩
      by_cases hin : i = n
      · subst hin
        cases hb : l.getD i false
        · rw [if_neg (by simp), Nat.add_zero]; exact Nat.testBit_eq_false_of_lt ih.2
        · rw [if_pos rfl, Nat.add_comm, Nat.testBit_two_pow_add_eq, Nat.testBit_eq_false_of_lt ih.2]; rfl
      · split
        · rw [Nat.add_comm, Nat.testBit_two_pow_add_gt (by omega)]; exact ih.1 i (by omega)
        · rw [Nat.add_zero]; exact ih.1 i (by omega)
  simp only [bitsLE, List.getElem_map, List.getElem_range]
  rw [BitVec.getLsbD_ofNat, (key w).1 i h3, getElem_eq_getD _ false]
  simp [h3]

/-! ### The systematic symbols -/

open Polar in
theorem gather_ok (temp decoded : List τ) (frozen : List Nat) (N : Nat) (d : τ) (hf : N ≤ 32 * frozen.length) (ht : N ≤ temp.length)
    (hd : freeBelow frozen N ≤ decoded.length) :
    Verif.Ok (forUp 0 N (decoded, 0) fun i (x : List τ × Nat) => do
      let b ← getBit frozen i
      if b then return (x.1, x.2)
      else
        let t ← rd temp i
        let decoded ← wr x.1 x.2 t
        return (decoded, x.2 + 1)) fun x => x.1.length = decoded.length ∧ (∀ i, i < N → ¬ Frozen frozen i → x.1.getD (freeBelow frozen i) d = temp.getD i d) ∧
          ∀ j, freeBelow frozen N ≤ j → x.1.getD j d = decoded.getD j d := by
  have hmono : ∀ i j, i ≤ j → freeBelow frozen i ≤ freeBelow frozen j := fun i j hij => by rw [← rank_eq, ← rank_eq]; exact rank_mono _ hij
  refine Ok.mono (forUp_inv (fun n x => x.2 = freeBelow frozen n ∧ x.1.length = decoded.length ∧
      (∀ i, i < n → ¬ Frozen frozen i → x.1.getD (freeBelow frozen i) d = temp.getD i d) ∧
      ∀ j, freeBelow frozen n ≤ j → x.1.getD j d = decoded.getD j d) (Nat.zero_le _) ⟨by simp [freeBelow], rfl, by simp, by simp⟩ ?_) fun x hx => hx.2
  rintro n ⟨x, c⟩ _ hn ⟨rfl, h2, h3, h4⟩
  simp only at h2 h3 h4 ⊢
  have hs := freeBelow_succ frozen n
  have hb : getBit frozen n = some (decide (Frozen frozen n)) := by
    unfold getBit
    rw [rd_of_lt (by omega), sb]
    rw [getElem_eq_getD _ 0]
    show some _ = _
    congr 1
    rw [Nat.shiftRight_eq_div_pow, Nat.and_one_is_mod, Bool.eq_iff_iff, decide_eq_true_iff, Frozen, Nat.testBit_eq_decide_div_mod_eq]
    simp
  rw [hb, sb]
  by_cases hfr : Frozen frozen n
  · rw [if_pos (by simpa using hfr)]
    rw [if_pos hfr] at hs
    refine Ok.some ⟨by omega, h2, fun i hi hni => ?_, fun j hj => h4 j (by omega)⟩
    rcases Nat.lt_succ_iff_lt_or_eq.1 hi with h | rfl
    · exact h3 i h hni
    · exact absurd hfr hni
  · rw [if_neg (by simpa using hfr)]
    rw [if_neg hfr] at hs
    have hlt : freeBelow frozen n < x.length := by have := hmono (n + 1) N (by omega); omega
    rw [rd_of_lt (by omega), sb, wr_of_lt hlt, sb]
    refine Ok.some ⟨by omega, by simpa using h2, fun i hi hni => ?_, fun j hj => ?_⟩
    · rcases Nat.lt_succ_iff_lt_or_eq.1 hi with h | rfl
      · have h5 := hmono (i + 1) n (by omega)
        rw [freeBelow_succ, if_neg hni] at h5
        simp only
        rw [List.getD_eq_getElem?_getD, List.getElem?_set_ne (by omega), ← List.getD_eq_getElem?_getD]
        exact h3 i h hni
      · simp only
        rw [List.getD_eq_getElem?_getD, List.getElem?_set_self hlt, Option.getD_some, getElem_eq_getD _ d]
    · simp only
      rw [List.getD_eq_getElem?_getD, List.getElem?_set_ne (by omega), ← List.getD_eq_getElem?_getD]
      exact h4 j (by omega)

end Verif.CrcPolar
