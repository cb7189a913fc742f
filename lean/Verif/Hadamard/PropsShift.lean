import Verif.Hadamard.Props
/- C82 (hadamard_decoder.hh, simplex_decoder.hh): decoding does not depend on the message sent. -/
namespace Verif.Hadamard
open Finset

/-- The result if the message `c` is added: `-1` stays `-1`. -/
def shift (c : Nat) (r : Int) : Int := if r = -1 then -1 else ((r.toNat ^^^ c : Nat) : Int)

theorem hadWord_xor (K m m' i : Nat) : hadWord K (m ^^^ m') i = hadWord K m i * hadWord K m' i := by
  unfold hadWord
  rw [← chi_common, ← chi_common, ← chi_common, chi_xor]

theorem simWord_xor (K m m' i : Nat) : simWord K (m ^^^ m') i = simWord K m i * simWord K m' i := by
  unfold simWord
  rw [← chi_common, ← chi_common, ← chi_common, chi_xor]

section
variable {K N c : Nat} {word : Nat → Nat → Int} {code code' : List Int}

theorem corr_xor (hw : ∀ m i, word m i = 1 ∨ word m i = -1) (hx : ∀ m m' i, word (m ^^^ m') i = word m i * word m' i)
    (hs : ∀ i, i < N → code'.getD i 0 = word c i * code.getD i 0) (m : Nat) : corr N (word (m ^^^ c)) code' = corr N (word m) code := by
  unfold corr
  refine sum_congr rfl fun i hi => ?_
  rw [hx, hs i (mem_range.1 hi)]
  rcases hw c i with e | e <;> rw [e] <;> ring

theorem strict_xor (hw : ∀ m i, word m i = 1 ∨ word m i = -1) (hx : ∀ m m' i, word (m ^^^ m') i = word m i * word m' i)
    (hs : ∀ i, i < N → code'.getD i 0 = word c i * code.getD i 0) (hc : c < 2 ^ K) (m : Nat) :
    StrictMax (2 ^ K) (fun m => corr N (word m) code') (m ^^^ c) ↔ StrictMax (2 ^ K) (fun m => corr N (word m) code) m := by
  have back : ∀ x : Nat, x ^^^ c ^^^ c = x := fun x => by rw [Nat.xor_assoc, Nat.xor_self, Nat.xor_zero]
  unfold StrictMax
  dsimp only
  rw [corr_xor hw hx hs]
  refine and_congr ⟨fun h => by have := Nat.xor_lt_two_pow h hc; rwa [back] at this, fun h => Nat.xor_lt_two_pow h hc⟩
    ⟨fun h m' hm hne => ?_, fun h m' hm hne => ?_⟩
  · have := h (m' ^^^ c) (Nat.xor_lt_two_pow hm hc) fun e => hne (by rw [← back m', e, back])
    rwa [corr_xor hw hx hs] at this
  · have := h (m' ^^^ c) (Nat.xor_lt_two_pow hm hc) fun e => hne (by rw [← back m', e])
    rwa [← corr_xor hw hx hs, back] at this

theorem result_xor (hw : ∀ m i, word m i = 1 ∨ word m i = -1) (hx : ∀ m m' i, word (m ^^^ m') i = word m i * word m' i)
    (hs : ∀ i, i < N → code'.getD i 0 = word c i * code.getD i 0) (hc : c < 2 ^ K) {r r' : Int}
    (h1 : ∀ m : Nat, r = m ↔ StrictMax (2 ^ K) (fun m => corr N (word m) code) m)
    (h2 : r = -1 ↔ ¬ ∃ m, StrictMax (2 ^ K) (fun m => corr N (word m) code) m)
    (h1' : ∀ m : Nat, r' = m ↔ StrictMax (2 ^ K) (fun m => corr N (word m) code') m)
    (h2' : r' = -1 ↔ ¬ ∃ m, StrictMax (2 ^ K) (fun m => corr N (word m) code') m) : r' = shift c r := by
  have back : ∀ x : Nat, x ^^^ c ^^^ c = x := fun x => by rw [Nat.xor_assoc, Nat.xor_self, Nat.xor_zero]
  unfold shift
  by_cases hr : r = -1
  · rw [if_pos hr, h2']
    rintro ⟨m, hm⟩
    refine h2.1 hr ⟨m ^^^ c, ?_⟩
    rwa [← strict_xor hw hx hs hc, back]
  · obtain ⟨m, hm⟩ := not_not.1 fun h => hr (h2.2 h)
    have e := (h1 m).2 hm
    rw [if_neg hr, e, Int.toNat_natCast, h1', strict_xor hw hx hs hc]
    exact hm

end

/-- The Hadamard decoder: if the signs of the soft values are changed by the codeword of the message `c`, the result is the former one with `c` added, bit by bit, and -1
stays -1.  (Neither word may need the value 128; the scratch arrays may hold anything.) -/
theorem C82_hadamard {K c : Nat} {sum sum' code code' : List Int} (hK : 2 ≤ K) (hK' : K ≤ 24)
    (hs : sum.length = 2 ^ (K - 1)) (hl : code.length = 2 ^ (K - 1)) (hb : ∀ x ∈ code, -128 ≤ x ∧ x ≤ 127)
    (hs' : sum'.length = 2 ^ (K - 1)) (hl' : code'.length = 2 ^ (K - 1)) (hb' : ∀ x ∈ code', -128 ≤ x ∧ x ≤ 127)
    (hc : c < 2 ^ K) (h : ∀ i, i < 2 ^ (K - 1) → code'.getD i 0 = hadWord K c i * code.getD i 0) :
    hadDecode K sum' code' = (hadDecode K sum code).map (shift c) := by
  obtain ⟨r, hr, h1, h2⟩ := C33_maximum_likelihood hK hK' hs hl hb
  obtain ⟨r', hr', h1', h2'⟩ := C33_maximum_likelihood hK hK' hs' hl' hb'
  rw [hr, hr', Option.map_some, result_xor (fun m i => pm_one _) (hadWord_xor K) h hc h1 h2 h1' h2']

/-- The same for the simplex decoder. -/
theorem C82_simplex {K c : Nat} {sum sum' code code' : List Int} (hK : 1 ≤ K) (hK' : K ≤ 23)
    (hs : sum.length = 2 ^ K) (hl : code.length = 2 ^ K - 1) (hb : ∀ x ∈ code, -128 ≤ x ∧ x ≤ 127)
    (hs' : sum'.length = 2 ^ K) (hl' : code'.length = 2 ^ K - 1) (hb' : ∀ x ∈ code', -128 ≤ x ∧ x ≤ 127)
    (hc : c < 2 ^ K) (h : ∀ i, i < 2 ^ K - 1 → code'.getD i 0 = simWord K c i * code.getD i 0) :
    simDecode K sum' code' = (simDecode K sum code).map (shift c) := by
  obtain ⟨r, hr, h1, h2⟩ := C34_maximum_likelihood hK hK' hs hl hb
  obtain ⟨r', hr', h1', h2'⟩ := C34_maximum_likelihood hK hK' hs' hl' hb'
  rw [hr, hr', Option.map_some, result_xor (fun m i => pm_one _) (simWord_xor K) h hc h1 h2 h1' h2']

/-! ### Cases -/

/-- A noisy word, and the same noise on the codeword of message 5: 12 becomes 9, and a tie stays a tie. -/
example : ∀ i, i < 8 → [3, 9, -2, 10, -4, 11, -80, 100].getD i (0 : Int) = hadWord 4 5 i * [3, -9, -2, -10, 4, 11, 80, 100].getD i 0 := by decide
example : hadDecode 4 (List.replicate 8 99) [3, -9, -2, -10, 4, 11, 80, 100] = some 12 ∧
    hadDecode 4 (List.replicate 8 77) [3, 9, -2, 10, -4, 11, -80, 100] = some 9 ∧ shift 5 12 = 9 := by decide +kernel
example : hadDecode 4 (List.replicate 8 99) [1, 1, 1, 1, 0, 0, 0, 0] = some (-1) ∧ hadDecode 4 (List.replicate 8 99) [1, -1, 1, -1, 0, 0, 0, 0] = some (-1) := by decide +kernel
example : simDecode 3 (List.replicate 8 99) [5, 20, -3, 7, 127, -4, 1] = some 0 ∧ simDecode 3 (List.replicate 8 9) [-5, 20, 3, -7, 127, 4, 1] = some 5 := by decide +kernel

end Verif.Hadamard
