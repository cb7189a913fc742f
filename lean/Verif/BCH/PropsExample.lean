import Verif.BCH.Props
import Verif.RS.PropsExample
/- The parameters of the repository's tests satisfy the hypotheses of C27-C29, and a concrete run. -/
namespace Verif.BCH.Example
open Verif.GF Verif.GF2 Verif.RS Verif.BCH Finset Polynomial

/-- Value of the polynomial `m` (fuel bits) at `x ^ k`, as a number. -/
def evalAt (P M k : Nat) : Nat → Nat → Nat
  | 0, _ => 0
  | f + 1, m => force (evalAt P M k f (m / 2)) fun y => (xtime P M)^[k] y ^^^ (m % 2)

theorem evalAt_spec (P M k : Nat) : ∀ f m, m < 2 ^ f →
    toR P (evalAt P M k f m) = (natPoly m).eval₂ (algebraMap (ZMod 2) (GFR P)) (xR P ^ k) := by
  intro f
  induction f with
  | zero =>
    intro m hm
    have : m = 0 := by omega
    subst this
    rw [natPoly_zero, eval₂_zero]; exact toR_zero P
  | succ f ih =>
    intro m hm
    have hx : ∀ j a, toR P ((xtime P M)^[j] a) = xR P ^ j * toR P a := by
      intro j a
      induction j with
      | zero => simp
      | succ j ihj => rw [Function.iterate_succ_apply', toR_xtime, ihj, pow_succ']; unfold xR; ring
    have hh : (natPoly m).eval₂ (algebraMap (ZMod 2) (GFR P)) (xR P ^ k) =
        (X * natPoly (m / 2) + if m.testBit 0 then 1 else 0).eval₂ (algebraMap (ZMod 2) (GFR P)) (xR P ^ k) :=
      congrArg (fun q : (ZMod 2)[X] => q.eval₂ (algebraMap (ZMod 2) (GFR P)) (xR P ^ k)) (natPoly_half m)
    rw [hh, eval₂_add, eval₂_mul, eval₂_X, ← ih (m / 2) (by rw [pow_succ] at hm; omega)]
    have he : evalAt P M k (f + 1) m = (xtime P M)^[k] (evalAt P M k f (m / 2)) ^^^ (m % 2) := force_eq _ _
    rw [he, toR_xor, hx]
    congr 1
    by_cases h : m.testBit 0 = true
    · rw [if_pos h, eval₂_one]
      have : m % 2 = 1 := by simpa using h
      rw [this, toR_one]
    · rw [if_neg h, eval₂_zero]
      have : m % 2 = 0 := by simpa using h
      rw [this, toR_zero]

/-- Every one of the `NR` roots is a root of one of the polynomials. -/
def rootsOK (P M NR FCR : Nat) (polys : List Nat) : Bool :=
  (List.range NR).all fun i => polys.any fun m => decide (m < 2 ^ (M + 1)) && evalAt P M (FCR + i) (M + 1) m == 0

theorem roots_of {P M NR FCR : Nat} {polys : List Nat} (h : rootsOK P M NR FCR polys = true) :
    ∀ i, i < NR → (genPoly polys).eval₂ (algebraMap (ZMod 2) (GFR P)) (xR P ^ (FCR + i)) = 0 := by
  intro i hi
  unfold rootsOK at h
  rw [List.all_eq_true] at h
  obtain ⟨m, hm, h2⟩ := List.any_eq_true.1 (h i (List.mem_range.2 hi))
  rw [Bool.and_eq_true, beq_iff_eq, decide_eq_true_eq] at h2
  have h3 := evalAt_spec P M (FCR + i) (M + 1) m h2.1
  rw [h2.2, toR_zero] at h3
  have : natPoly m ∣ genPoly polys := List.dvd_prod (List.mem_map_of_mem hm)
  obtain ⟨q, hq⟩ := this
  rw [hq, eval₂_mul, ← h3, zero_mul]

theorem minimal_of {NP : Nat} {polys : List Nat} (h0 : 0 < NP) (h : ∀ m ∈ polys, 0 < m ∧ m < 2 ^ 31)
    (hs : (polys.map Nat.log2).sum = NP) : Minimal NP polys :=
  ⟨h0, fun m hm => (h m hm).1, fun m hm => (h m hm).2, by rw [(genPoly_natDegree fun m hm => (h m hm).1).1, hs]⟩

/-- `N = 2^M - 1`, `K` and the polynomials satisfy everything the theorems ask of a code. -/
structure Suits (M P NR FCR K : Nat) (polys : List Nat) : Prop where
  minimal : Minimal (2 ^ M - 1 - K) polys
  big : ∀ m ∈ polys, 1 < m
  roots : ∀ i, i < NR → (genPoly polys).eval₂ (algebraMap (ZMod 2) (GFR P)) (xR P ^ (FCR + i)) = 0
  params : ∀ dl, 0 < dl → dl ≤ K → BParams M NR FCR K (2 ^ M - 1 - K) dl

theorem suits_of {M P NR FCR K : Nat} {polys : List Nat} (h0 : K < 2 ^ M - 1) (hF : FCR < 2 ^ M - 1) (hNR : 0 < NR) (hNRN : NR < 2 ^ M - 1)
    (h : ∀ m ∈ polys, 1 < m ∧ m < 2 ^ 31) (hs : (polys.map Nat.log2).sum = 2 ^ M - 1 - K)
    (hr : rootsOK P M NR FCR polys = true) : Suits M P NR FCR K polys :=
  ⟨minimal_of (by omega) (fun m hm => ⟨by have := (h m hm).1; omega, (h m hm).2⟩) hs, fun m hm => (h m hm).1, roots_of hr,
    fun dl h1 h2 => ⟨hF, hNR, hNRN, h1, h2, by omega⟩⟩

/-- bch_regression_test.cc:148-200: the six codes of the tests. -/
theorem C28_test_codes :
    Suits 4 0b10011 6 1 5 [0b10011, 0b11111, 0b00111] ∧
    Suits 7 0b10001001 20 1 64 [0b10001001, 0b10001111, 0b10011101, 0b11110111, 0b10111111, 0b11010101,
      0b10000011, 0b11101111, 0b11001011] ∧
    Suits 8 0b100011101 36 1 131 [0b100011101, 0b101110111, 0b111110011, 0b101101001,
      0b110111101, 0b111100111, 0b100101011, 0b111010111, 0b000010011, 0b101100101, 0b110001011, 0b101100011,
      0b100011011, 0b100111111, 0b110001101, 0b100101101] ∧
    Suits 14 0b100000000101011 24 1 16215 [0b100000000101011, 0b100100101000001, 0b100011001000111,
      0b101010110010001, 0b110101101010101, 0b110001110001001, 0b110110011100101, 0b100111100100001, 0b100011000001111,
      0b101101001001001, 0b101100000010001, 0b110010111101111] ∧
    Suits 15 0b1000000000101101 24 1 32587 [0b1000000000101101, 0b1000110010010011, 0b1011010101010101,
      0b1000110101101101, 0b1001010011010111, 0b1011000011010001, 0b1101100010110101, 0b1100101101010101, 0b1011101010110111,
      0b1011110010011111, 0b1000101000010111, 0b1110110100010101] ∧
    Suits 16 0b10000000000101101 24 1 65343 [0b10000000000101101, 0b10000000101110011, 0b10000111110111101,
      0b10101101001010101, 0b10001111100101111, 0b11111011110110101, 0b11010111101100101, 0b10111001101100111, 0b10000111010100001,
      0b10111010110100111, 0b10011101000101101, 0b10001101011100011] := by
  refine ⟨?_, ?_, ?_, ?_, ?_, ?_⟩ <;>
    exact suits_of (by norm_num) (by norm_num) (by norm_num) (by norm_num) (by decide) (by decide +kernel) (by decide +kernel)

/-! A run of BCH(15, 5) shortened to three data bits: two flipped bits and two erasures, one of which
holds the right bit. -/
open Verif.RS.Example (T ready v x im im_ok)

def polys : List Nat := [0b10011, 0b11111, 0b00111]
def gen : List (BitVec 8) := (encInit 10 [0xAA, 0x55] polys).getD []
theorem gen_ok : encInit 10 [0xAA, 0x55] polys = some gen := by
  have h : (encInit 10 [0xAA, 0x55] polys).isSome = true := by decide +kernel
  obtain ⟨t, ht⟩ := Option.isSome_iff_exists.1 h
  unfold gen
  rw [ht, Option.getD_some]
def msg : List (BitVec 8) := [0b10111111]
def sent : List (BitVec 8) := (encode 10 5 gen msg [0xFF, 0xFF] 3).getD []
theorem sent_ok : encode 10 5 gen msg [0xFF, 0xFF] 3 = some sent := by
  have h : (encode 10 5 gen msg [0xFF, 0xFF] 3).isSome = true := by decide +kernel
  obtain ⟨t, ht⟩ := Option.isSome_iff_exists.1 h
  unfold sent
  rw [ht, Option.getD_some]
theorem sent_len : sent.length = 2 := by decide +kernel
theorem sent_ne : sent ≠ [0, 0] := by decide +kernel

def data' : List (BitVec 8) := [0b11111111]
def parity' : List (BitVec 8) := [sent.getD 0 0 ^^^ 0b00010010, sent.getD 1 0]
def er : List (Fin (2 ^ 4 - 1)) := [x 6, x 2]

theorem call : BCall (tableOps 8 4 T (v 5) (x 3)) 6 10 3 (8 * data'.length) (8 * parity'.length) im er 2 :=
  ⟨im_ok, by decide, by decide, by decide, by decide, by decide, by decide⟩

theorem diffs : diffPos (syms (bits data' parity' 3 10)) (syms (bits msg sent 3 10)) = {1, 6, 9} := by decide +kernel
theorem erased_eq : erased er 2 = {6, 2} := by decide +kernel

example : ∃ r, decode (tableOps 8 4 T (v 5) (x 3)) (packedAccess (tableOps 8 4 T (v 5) (x 3))) 6 1 5 10 im (data', parity') er 2 3 = some r ∧
    (∀ i, i < 3 → beBit r.buf.1 i = beBit msg i) ∧ (∀ i, i < 10 → beBit r.buf.2 i = beBit sent i) ∧
    r.ret = diff (syms (bits data' parity' 3 10)) (syms (bits msg sent 3 10)) := by
  have S := C28_test_codes.1
  refine C28_roundtrip (NP := 10) (K := 5) (dl := 3) (polys := polys) ready (by norm_num) (v 5) (x 3) (S.params 3 (by norm_num) (by norm_num)) S.minimal S.roots
    (g0 := [0xAA, 0x55]) rfl gen_ok (by decide) (by decide) sent_ok call ?_ ?_
  · rw [diffs, erased_eq]; decide
  · apply C26_unaffected (by norm_num) _ ready (Or.inl ⟨rfl, rfl⟩)
    rw [diffs, erased_eq]; decide

/-- The model agrees when run. -/
example : (decode (tableOps 8 4 T (v 5) (x 3)) (packedAccess (tableOps 8 4 T (v 5) (x 3))) 6 1 5 10 im (data', parity') er 2 3).map
    (fun r => (r.buf, r.ret)) = some (([0b10111111], sent), 3) := by decide +kernel

/-- A codeword that is not zero, and a word outside the code: the hypotheses of `C29_contract` and
`C29_validity` are met on both sides. -/
example : genPoly polys ∣ bitPoly (bits msg sent 3 10) ∧ sent ≠ [0, 0] := by
  refine ⟨?_, sent_ne⟩
  obtain ⟨gen', hg, he⟩ := C27_encoder C28_test_codes.1.minimal [0xAA, 0x55] rfl
  cases gen_ok.symm.trans hg
  obtain ⟨q, hq, hql, hdv, _⟩ := he 5 msg [0xFF, 0xFF] 3 (by norm_num) (by norm_num) (by decide) (by decide)
  cases sent_ok.symm.trans hq
  exact hdv

/-- A list of too small a degree is rejected. -/
example (g0 : List (BitVec 8)) : encInit 10 g0 [0b10011] = none := by
  cases h : encInit 10 g0 [0b10011] with
  | none => rfl
  | some g => exact absurd (C27_rejects (by decide) (by decide) h).sum (by decide)

end Verif.BCH.Example
