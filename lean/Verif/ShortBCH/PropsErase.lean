import Verif.ShortBCH.PropsChase
/- C80 (short_bch_code_decoder.hh): the soft decoder on the erasure channel. -/
namespace Verif.ShortBCH
open Finset

/-! ### Specification -/

/-- The received soft values: 0 at the erased positions, values of the sign of the bit sent (negative for a one) at the others. -/
def Received (N : Nat) (E : Finset Nat) (c : Nat) (code : List Int) : Prop :=
  ∀ i, i < N → if i ∈ E then code.getD i 0 = 0 else if c.testBit i then code.getD i 0 < 0 else 0 < code.getD i 0

/-- The word follows from the bits that are left: every other codeword differs in one of them. -/
def Fillable (N G : Nat) (E : Finset Nat) (c : Nat) : Prop := ∀ c', Codeword N G c' → c' ≠ c → ∃ i, i < N ∧ i ∉ E ∧ c'.testBit i ≠ c.testBit i

/-! ### Proofs -/

section
variable {N G c : Nat} {code : List Int} {E : Finset Nat}

theorem term_le (h : Received N E c code) (c' : Nat) {i : Nat} (hi : i < N) :
    (if c'.testBit i then -1 else 1) * code.getD i 0 ≤ (if c.testBit i then -1 else 1) * code.getD i 0 ∧
      ((if c'.testBit i then -1 else 1) * code.getD i 0 = (if c.testBit i then -1 else 1) * code.getD i 0 ↔ (i ∉ E → c'.testBit i = c.testBit i)) := by
  have := h i hi
  by_cases hE : i ∈ E
  · rw [if_pos hE] at this
    rw [this]
    simp [hE]
  · rw [if_neg hE] at this
    simp only [hE, not_false_eq_true, forall_true_left]
    cases a : c.testBit i <;> cases b : c'.testBit i <;> simp only [a, Bool.false_eq_true, if_false, if_true] at this ⊢ <;>
      first | (constructor <;> first | omega | (constructor <;> first | (intro; rfl) | (intro h; cases h) | (intro h; omega)))

theorem corr_max (h : Received N E c code) (c' : Nat) :
    corr N code c' ≤ corr N code c ∧ (corr N code c' = corr N code c ↔ ∀ i, i < N → i ∉ E → c'.testBit i = c.testBit i) := by
  unfold corr
  have hle : ∀ i ∈ range N, (if c'.testBit i then (-1 : Int) else 1) * code.getD i 0 ≤ (if c.testBit i then -1 else 1) * code.getD i 0 :=
    fun i hi => (term_le h c' (mem_range.1 hi)).1
  refine ⟨sum_le_sum hle, ?_⟩
  rw [sum_eq_sum_iff_of_le hle]
  simp only [mem_range]
  exact forall_congr' fun i => forall_congr' fun hi => (term_le h c' hi).2

theorem best_fillable (h : Received N E c code) (hc : Codeword N G c) :
    (Best N G code c ↔ Fillable N G E c) ∧ ((∃ c', Best N G code c') ↔ Fillable N G E c) := by
  have key : Best N G code c ↔ Fillable N G E c := by
    unfold Best Fillable
    constructor
    · rintro ⟨-, hs⟩ m hm hne
      by_contra hn
      push Not at hn
      have := hs m hm hne
      rw [(corr_max h m).2.2 hn] at this
      omega
    · intro hf
      refine ⟨hc, fun m hm hne => lt_of_le_of_ne (corr_max h m).1 fun e => ?_⟩
      obtain ⟨i, hi, hE, hd⟩ := hf m hm hne
      exact hd ((corr_max h m).2.1 e i hi hE)
  refine ⟨key, ⟨?_, fun hf => ⟨c, key.2 hf⟩⟩⟩
  rintro ⟨m, hm⟩
  rw [← key]
  by_cases e : m = c
  · exact e ▸ hm
  · have := hm.2 c hc fun h => e h.symm
    have := (corr_max h m).1
    omega

theorem fillable_of_few {d : Nat} (hd : MinDist N G d) (hc : Codeword N G c) (hE : E.card < d) : Fillable N G E c := by
  intro m hm hne
  by_contra hn
  push Not at hn
  have := hd m c hm hc hne
  have : dist N m c ≤ E.card := by
    unfold dist
    refine card_le_card fun i hi => ?_
    simp only [mem_filter, mem_range] at hi
    by_contra hiE
    exact hi.2 (hn i hi.1 hiE)
  omega

end

/-! ### C80 -/

/-- For `K ≤ 4` the soft decoder of the short BCH codes returns the word sent if it follows from the bits that are left, as it does with fewer erasures than the minimum
distance, and -1 otherwise. -/
theorem C80_soft_bch {N K G T c : Nat} {err par : List Nat} {code : List Int} (h : Params N K G) (hT : 1 ≤ T)
    (he : err.length = 2 ^ (N - K)) (hp : par.length = 2 ^ K) (hK : K ≤ 4) (hl : code.length = N) (hb : ∀ x ∈ code, -128 ≤ x ∧ x ≤ 127)
    (hc : Codeword N G c) {E : Finset Nat} (hr : Received N E c code) :
    (Fillable N G E c → (mkDec N K G T err par >>= fun d => soft N K T d.1 d.2 code) = some (c : Int)) ∧
    (¬ Fillable N G E c → (mkDec N K G T err par >>= fun d => soft N K T d.1 d.2 code) = some (-1)) ∧
    ∀ d, MinDist N G d → E.card < d → Fillable N G E c := by
  obtain ⟨r, e, h1, h2⟩ := C32_maximum_likelihood h hT he hp hK hl hb
  obtain ⟨k1, k2⟩ := best_fillable hr hc
  refine ⟨fun hf => ?_, fun hf => ?_, fun d hd hE => fillable_of_few hd hc hE⟩
  · rw [e, (h1 c).2 (k1.2 hf)]
  · rw [e, h2.2 fun hx => hf (k2.1 hx)]

/-- For every `K`: up to `T` erasures, if the minimum distance is at least `2 * T + 1`. -/
theorem C80_soft_bch_chase {N K G T c : Nat} {err par : List Nat} {code : List Int} (h : Params N K G) (hT : 1 ≤ T) (hT3 : T ≤ 3)
    (he : err.length = 2 ^ (N - K)) (hp : par.length = 2 ^ K) (hl : code.length = N) (hb : ∀ x ∈ code, -128 ≤ x ∧ x ≤ 127)
    (hd : MinDist N G (2 * T + 1)) (hc : Codeword N G c) {E : Finset Nat} (hr : Received N E c code) (hE : E.card ≤ T) :
    (mkDec N K G T err par >>= fun d => soft N K T d.1 d.2 code) = some (c : Int) := by
  refine C32_radius h hT hT3 he hp hl hb hd ((best_fillable hr hc).1.2 (fillable_of_few hd hc (by omega))) (le_trans (card_le_card fun i hi => ?_) hE)
  simp only [mem_filter, mem_range] at hi
  by_contra hiE
  have := hr i hi.1
  rw [if_neg hiE] at this
  refine hi.2 ?_
  cases a : c.testBit i <;> simp only [a, Bool.false_eq_true, if_false, if_true] at this
  · simp only [false_eq_decide_iff]; omega
  · simp only [true_eq_decide_iff]; omega

/-! ### Cases -/

/-- The Golay code with three erasures. -/
example : (mkDec 23 12 0b101011100011 3 (List.replicate 2048 9) (List.replicate 4096 9) >>= fun d =>
    soft 23 12 3 d.1 d.2 [0, 2, 50, 127, 50, 50, 50, 50, 50, 50, 0, 50, 0, 50, 50, 50, 50, 50, 50, 50, 50, 50, 1]) = some 0 :=
  C80_soft_bch_chase (c := 0) (E := {0, 10, 12}) params_golay (by norm_num) (by norm_num) (List.length_replicate ..) (List.length_replicate ..) rfl (by decide) C31_golay_minDist
    ⟨by norm_num, Div.zero _⟩ (by unfold Received; decide) (by decide)

/-- The repetition code of length 3: one bit that is left is enough; none is not. -/
example : (mkDec 3 1 7 1 [9, 9, 9, 9] [9, 9] >>= fun d => soft 3 1 1 d.1 d.2 [0, -1, 0]) = some 7 ∧
    (mkDec 3 1 7 1 [9, 9, 9, 9] [9, 9] >>= fun d => soft 3 1 1 d.1 d.2 [0, 0, 0]) = some (-1) := by decide +kernel

example : Received 3 {0, 2} 7 [0, -1, 0] := by unfold Received; decide

end Verif.ShortBCH
