import Verif.CrcPolar.Model
import Verif.CrcPolar.Table
import Verif.Polar.PropsMl
/- The frozen mask from a reliability sequence: auxiliary lemmas. -/
namespace Verif.CrcPolar
open Verif.Polar
open Verif.RS (sb)

theorem testBit_or_pow (x a b : Nat) : (x ||| 2 ^ a).testBit b = (x.testBit b || decide (a = b)) := by
  rw [Nat.testBit_or, Nat.testBit_two_pow]

theorem freezeFirst_ok (frozen seq : List Nat) (N n : Nat) (hN : N % 32 = 0) (hl : N ≤ 32 * frozen.length) (hn : n ≤ seq.length)
    (hseq : ∀ s ∈ seq.take n, s < N) :
    Verif.Ok (freezeFirst frozen seq N n) fun bits => bits.length = frozen.length ∧ (∀ i, i < N → (Frozen bits i ↔ i ∈ seq.take n)) ∧
      (∀ j, N / 32 ≤ j → bits.getD j 0 = frozen.getD j 0) ∧ ∀ j, j < N / 32 → bits.getD j 0 < 2 ^ 32 := by
  unfold freezeFirst
  rw [forUp_fill (g := fun _ => 0) (by omega) (fun j l hj hl' => wr_of_lt (by omega)), sb]
  have h0 : ∀ j, ((List.range (N / 32)).map (fun _ => 0) ++ frozen.drop (N / 32)).getD j 0 = if j < N / 32 then 0 else frozen.getD j 0 := by
    intro j
    split
    · rename_i h
      rw [List.getD_append _ _ _ _ (by simpa using h), getD_range_map _ _ h]
    · rename_i h
      rw [List.getD_append_right _ _ _ _ (by simp; omega), getD_drop', List.length_map, List.length_range]
      congr 1; omega
  refine Ok.mono (forUp_inv (fun t bits => bits.length = frozen.length ∧ (∀ i, i < N → (Frozen bits i ↔ i ∈ seq.take t)) ∧
      (∀ j, N / 32 ≤ j → bits.getD j 0 = frozen.getD j 0) ∧ ∀ j, j < N / 32 → bits.getD j 0 < 2 ^ 32) (Nat.zero_le _) ⟨by simp; omega, fun i hi => ?_, fun j hj => ?_, fun j hj => ?_⟩ ?_) fun _ h => h
  · unfold Frozen
    rw [h0, if_pos (by omega)]; simp
  · rw [h0, if_neg (by omega)]
  · rw [h0, if_pos hj]; omega
  · rintro t bits _ ht ⟨b1, b2, b3, b4⟩
    have hs : seq[t] < N := hseq _ (by
      rw [List.mem_take_iff_getElem]
      exact ⟨t, by omega, rfl⟩)
    rw [rd_of_lt (by omega), sb, rd_of_lt (by omega), sb, wr_of_lt (by omega)]
    have hx : bits[seq[t] / 32]'(by omega) = bits.getD (seq[t] / 32) 0 := getElem_eq_getD _ _
    have hg : ∀ j, (bits.set (seq[t] / 32) (bits[seq[t] / 32]'(by omega) ||| 2 ^ (seq[t] % 32))).getD j 0 =
        if j = seq[t] / 32 then bits.getD j 0 ||| 2 ^ (seq[t] % 32) else bits.getD j 0 := by
      intro j
      split
      · rename_i h
        subst h
        rw [List.getD_eq_getElem?_getD, List.getElem?_set_self (by omega), Option.getD_some, hx]
      · rename_i h
        rw [List.getD_eq_getElem?_getD, List.getElem?_set_ne (by omega), ← List.getD_eq_getElem?_getD]
    refine Ok.some ⟨by simpa using b1, fun i hi => ?_, fun j hj => ?_, fun j hj => ?_⟩
    · rw [List.take_succ_eq_append_getElem (by omega), List.mem_append, List.mem_singleton, ← b2 i hi]
      unfold Frozen
      rw [hg]
      split
      · rename_i h
        rw [testBit_or_pow, Bool.or_eq_true, decide_eq_true_eq]
        refine or_congr_right ⟨fun h' => by omega, fun h' => by rw [h']⟩
      · rename_i h
        refine ⟨Or.inl, fun h' => ?_⟩
        rcases h' with h' | h'
        · exact h'
        · exact absurd (by rw [h']) h
    · rw [hg, if_neg (by omega), b3 j hj]
    · rw [hg]
      split
      · exact Nat.or_lt_two_pow (b4 j hj) (Nat.pow_lt_pow_right (by omega) (Nat.mod_lt _ (by omega)))
      · exact b4 j hj

theorem freeBelow_count {bits l : List Nat} {N : Nat} (hf : ∀ i, i < N → (Frozen bits i ↔ i ∈ l)) (hnd : l.Nodup) (hl : ∀ s ∈ l, s < N) :
    freeBelow bits N = N - l.length := by
  unfold freeBelow
  have h1 : (Finset.range N).filter (fun j => ¬ Frozen bits j) = Finset.range N \ l.toFinset := by
    ext i
    simp only [Finset.mem_filter, Finset.mem_range, Finset.mem_sdiff, List.mem_toFinset]
    refine and_congr_right fun hi => not_congr (hf i hi)
  rw [h1, Finset.card_sdiff_of_subset (fun i hi => Finset.mem_range.2 (hl i (List.mem_toFinset.1 hi))), Finset.card_range, List.toFinset_card_of_nodup hnd]

/-! ### The table -/

theorem mem_of_mask : ∀ (l : List Nat) (m i : Nat), (l.foldl (fun m x => m ||| 2 ^ x) m).testBit i = true → m.testBit i = true ∨ i ∈ l := by
  intro l
  induction l with
  | nil => intro m i h; exact Or.inl h
  | cons x l ih =>
    intro m i h
    rcases ih _ _ h with h1 | h1
    · rw [testBit_or_pow, Bool.or_eq_true, decide_eq_true_eq] at h1
      rcases h1 with h1 | h1
      · exact Or.inl h1
      · exact Or.inr (by rw [h1]; exact List.mem_cons_self)
    · exact Or.inr (List.mem_cons_of_mem _ h1)

theorem sequence_length : sequence.length = 1024 := by decide +kernel

theorem sequence_mask : sequence.foldl (fun m x => m ||| 2 ^ x) 0 = 2 ^ 1024 - 1 := by decide +kernel

theorem sequence_perm : sequence.Perm (List.range 1024) := by
  refine (List.Subperm.perm_of_length_le (List.subperm_of_subset List.nodup_range fun i hi => ?_) (by rw [sequence_length, List.length_range])).symm
  have := mem_of_mask sequence 0 i (by rw [sequence_mask, Nat.testBit_two_pow_sub_one]; simpa using hi)
  simpa using this

/-- The place of a position in the table. -/
def place (i : Nat) : Nat := (places >>> (10 * i)) % 1024

theorem place_sequence : (sequence.zipIdx).all (fun x => place x.1 == x.2) = true := by decide +kernel

theorem place_mono_check : (List.range 1024).all (fun i => Nat.blt (place i) 26 || (List.range 10).all fun b => i.testBit b || Nat.ble (place i) (place (i ||| 2 ^ b))) = true := by
  decide +kernel

end Verif.CrcPolar
