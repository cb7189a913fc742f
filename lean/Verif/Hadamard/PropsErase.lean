import Verif.Hadamard.Props
/- C80 (hadamard_decoder.hh, simplex_decoder.hh): the decoders on the erasure channel. -/
namespace Verif.Hadamard
open Finset

/-! ### Specification -/

/-- The received soft values: 0 at the erased positions, values of the sign of the symbol sent at the others. -/
def Received (N : Nat) (E : Finset Nat) (word : Nat → Int) (code : List Int) : Prop :=
  ∀ i, i < N → if i ∈ E then code.getD i 0 = 0 else 0 < code.getD i 0 * word i

/-- The message follows from the symbols that are left: every other codeword differs in one of them. -/
def Fillable (W N : Nat) (word : Nat → Nat → Int) (E : Finset Nat) (msg : Nat) : Prop :=
  ∀ m, m < W → m ≠ msg → ∃ i, i < N ∧ i ∉ E ∧ word m i ≠ word msg i

/-! ### Proofs -/

section
variable {N W : Nat} {word : Nat → Nat → Int} {code : List Int} {msg : Nat} {E : Finset Nat}

theorem term_le (hw : ∀ m i, word m i = 1 ∨ word m i = -1) (h : Received N E (word msg) code) (m : Nat) {i : Nat} (hi : i < N) :
    word m i * code.getD i 0 ≤ word msg i * code.getD i 0 ∧ (word m i * code.getD i 0 = word msg i * code.getD i 0 ↔ (i ∉ E → word m i = word msg i)) := by
  have := h i hi
  by_cases hE : i ∈ E
  · rw [if_pos hE] at this
    rw [this]
    simp [hE]
  · rw [if_neg hE] at this
    simp only [hE, not_false_eq_true, forall_true_left]
    rcases hw m i with a | a <;> rcases hw msg i with b | b <;> rw [b] at this <;> rw [a, b] <;> constructor <;> omega

theorem corr_max (hw : ∀ m i, word m i = 1 ∨ word m i = -1) (h : Received N E (word msg) code) (m : Nat) :
    corr N (word m) code ≤ corr N (word msg) code ∧
      (corr N (word m) code = corr N (word msg) code ↔ ∀ i, i < N → i ∉ E → word m i = word msg i) := by
  unfold corr
  have hle : ∀ i ∈ range N, word m i * code.getD i 0 ≤ word msg i * code.getD i 0 := fun i hi => (term_le hw h m (mem_range.1 hi)).1
  refine ⟨sum_le_sum hle, ?_⟩
  rw [sum_eq_sum_iff_of_le hle]
  simp only [mem_range]
  exact forall_congr' fun i => forall_congr' fun hi => (term_le hw h m hi).2

theorem strict_fillable (hw : ∀ m i, word m i = 1 ∨ word m i = -1) (h : Received N E (word msg) code) (hmsg : msg < W) :
    (StrictMax W (fun m => corr N (word m) code) msg ↔ Fillable W N word E msg) ∧
      ((∃ m, StrictMax W (fun m => corr N (word m) code) m) ↔ Fillable W N word E msg) := by
  have key : StrictMax W (fun m => corr N (word m) code) msg ↔ Fillable W N word E msg := by
    unfold StrictMax Fillable
    constructor
    · rintro ⟨-, hs⟩ m hm hne
      by_contra hn
      push Not at hn
      have := hs m hm hne
      dsimp only at this
      rw [(corr_max hw h m).2.2 hn] at this
      omega
    · intro hf
      refine ⟨hmsg, fun m hm hne => lt_of_le_of_ne (corr_max hw h m).1 fun e => ?_⟩
      obtain ⟨i, hi, hE, hd⟩ := hf m hm hne
      exact hd ((corr_max hw h m).2.1 e i hi hE)
  refine ⟨key, ⟨?_, fun hf => ⟨msg, key.2 hf⟩⟩⟩
  rintro ⟨m, hm⟩
  rw [← key]
  by_cases e : m = msg
  · exact e ▸ hm
  · have := hm.2 msg hmsg fun h => e h.symm
    have := (corr_max hw h m).1
    dsimp only at *
    omega

theorem fillable_of_few {d : Nat} (hw : ∀ m i, word m i = 1 ∨ word m i = -1)
    (hd : ∀ m, m < W → m ≠ msg → (range N).sum (fun i => word msg i * word m i) ≤ N - 2 * d) (hE : E.card < d) : Fillable W N word E msg := by
  intro m hm hne
  by_contra hn
  push Not at hn
  have := hd m hm hne
  have hge : (range N).sum (fun i => 1 - 2 * if i ∈ E then (1 : Int) else 0) ≤ (range N).sum fun i => word msg i * word m i := by
    refine sum_le_sum fun i hi => ?_
    by_cases hiE : i ∈ E
    · rw [if_pos hiE]
      rcases hw m i with a | a <;> rcases hw msg i with b | b <;> rw [a, b] <;> omega
    · rw [if_neg hiE, hn i (mem_range.1 hi) hiE]
      rcases hw msg i with b | b <;> rw [b] <;> omega
  rw [sum_sub_distrib, ← mul_sum, sum_ite_mem] at hge
  simp only [sum_const, card_range, nsmul_eq_mul, mul_one] at hge
  have hc : (range N ∩ E).card ≤ E.card := card_le_card inter_subset_right
  omega

end

/-! ### C80 -/

/-- The Hadamard decoder on the erasure channel: it returns the message if that follows from the symbols that are left, as it does with fewer than `2 ^ (K - 2)` erasures,
and -1 otherwise. -/
theorem C80_hadamard {K msg : Nat} {sum code : List Int} (hK : 2 ≤ K) (hK' : K ≤ 24) (hs : sum.length = 2 ^ (K - 1)) (hl : code.length = 2 ^ (K - 1))
    (hb : ∀ x ∈ code, -128 ≤ x ∧ x ≤ 127) (hmsg : msg < 2 ^ K) {E : Finset Nat} (h : Received (2 ^ (K - 1)) E (hadWord K msg) code) :
    (Fillable (2 ^ K) (2 ^ (K - 1)) (hadWord K) E msg → hadDecode K sum code = some (msg : Int)) ∧
    (¬ Fillable (2 ^ K) (2 ^ (K - 1)) (hadWord K) E msg → hadDecode K sum code = some (-1)) ∧
    (E.card < 2 ^ (K - 2) → Fillable (2 ^ K) (2 ^ (K - 1)) (hadWord K) E msg) := by
  obtain ⟨r, hr, h1, h2⟩ := C33_maximum_likelihood hK hK' hs hl hb
  have hw : ∀ m i, hadWord K m i = 1 ∨ hadWord K m i = -1 := fun m i => pm_one _
  obtain ⟨k1, k2⟩ := strict_fillable hw h hmsg
  refine ⟨fun hf => ?_, fun hf => ?_, fun hE => fillable_of_few hw (fun m hm hne => had_inner hK hmsg hm hne) hE⟩
  · rw [hr, (h1 msg).2 (k1.2 hf)]
  · rw [hr, h2.2 fun he => hf (k2.1 he)]

/-- The same for the simplex code, with fewer than `2 ^ (K - 1)` erasures. -/
theorem C80_simplex {K msg : Nat} {sum code : List Int} (hK : 1 ≤ K) (hK' : K ≤ 23) (hs : sum.length = 2 ^ K) (hl : code.length = 2 ^ K - 1)
    (hb : ∀ x ∈ code, -128 ≤ x ∧ x ≤ 127) (hmsg : msg < 2 ^ K) {E : Finset Nat} (h : Received (2 ^ K - 1) E (simWord K msg) code) :
    (Fillable (2 ^ K) (2 ^ K - 1) (simWord K) E msg → simDecode K sum code = some (msg : Int)) ∧
    (¬ Fillable (2 ^ K) (2 ^ K - 1) (simWord K) E msg → simDecode K sum code = some (-1)) ∧
    (E.card < 2 ^ (K - 1) → Fillable (2 ^ K) (2 ^ K - 1) (simWord K) E msg) := by
  obtain ⟨r, hr, h1, h2⟩ := C34_maximum_likelihood hK hK' hs hl hb
  have hw : ∀ m i, simWord K m i = 1 ∨ simWord K m i = -1 := fun m i => pm_one _
  obtain ⟨k1, k2⟩ := strict_fillable hw h hmsg
  refine ⟨fun hf => ?_, fun hf => ?_, fun hE => fillable_of_few hw (fun m hm hne => sim_inner hK hmsg hm hne) hE⟩
  · rw [hr, (h1 msg).2 (k1.2 hf)]
  · rw [hr, h2.2 fun he => hf (k2.1 he)]

/-! ### Cases -/

/-- Message 5 of the Hadamard code with K = 4: positions 0, 2 and 7 are erased, and the message comes out; with the four erasures that make it look like message 3 the
result is -1. -/
example : ((List.range 8).map (hadWord 4 5)) = [1, -1, 1, -1, -1, 1, -1, 1] ∧ ((List.range 8).map (hadWord 4 4)) = [1, 1, 1, 1, -1, -1, -1, -1] := by decide
example : hadDecode 4 (List.replicate 8 99) [0, -7, 0, -128, -1, 5, -100, 0] = some 5 := by decide +kernel
example : hadDecode 4 (List.replicate 8 99) [9, 0, 127, 0, -1, 0, -100, 0] = some (-1) := by decide +kernel
example : Received 8 {0, 2, 7} (hadWord 4 5) [0, -7, 0, -128, -1, 5, -100, 0] := by unfold Received; decide
example : Received 8 {1, 3, 5, 7} (hadWord 4 5) [9, 0, 127, 0, -1, 0, -100, 0] ∧ ¬ Fillable (2 ^ 4) 8 (hadWord 4) {1, 3, 5, 7} 5 := by
  refine ⟨by unfold Received; decide, fun h => ?_⟩
  obtain ⟨i, hi, hE, hd⟩ := h 4 (by omega) (by omega)
  revert i
  decide
example : Received 7 {0, 3, 6} (simWord 3 5) [0, 20, -3, 0, 127, -4, 0] := by unfold Received; decide
example : simDecode 3 (List.replicate 8 99) [0, 20, -3, 0, 127, -4, 0] = some 5 := by decide +kernel

end Verif.Hadamard
