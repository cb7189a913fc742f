import Verif.RS.Props26
/- Concrete runs of the modelled programs in GF(16), `GaloisField<4, 0b10011, uint8_t>`: they show
that the hypotheses of C22-C26 are met by non-trivial calls, and give the witness asked for in C25. -/
namespace Verif.RS.Example
open Verif.GF Verif.RS Finset

def T0 : Tab := ⟨List.replicate 16 0, List.replicate 16 0⟩
def T : Tab := (tables 8 4 0b10011 T0).getD T0
theorem ready : Ready 8 4 0b10011 T := by
  refine ⟨by norm_num, by norm_num, by unfold HasDeg; norm_num, T0, ⟨rfl, rfl⟩, ?_⟩
  have h : (tables 8 4 0b10011 T0).isSome = true := by decide +kernel
  obtain ⟨t, ht⟩ := Option.isSome_iff_exists.1 h
  unfold T
  rw [ht, Option.getD_some]

def v (n : Nat) : Val 4 := ⟨n % 16, by omega⟩
def x (n : Nat) : Fin (2 ^ 4 - 1) := ⟨n % 15, by omega⟩
def O : Ops (Val 4) (Fin (2 ^ 4 - 1)) := tableOps 8 4 T (v 5) (x 3)

def im : List (Val 4) := (artin O).getD []
theorem im_ok : artin O = some im := by
  have h : (artin O).isSome = true := by decide +kernel
  obtain ⟨t, ht⟩ := Option.isSome_iff_exists.1 h
  unfold im
  rw [ht, Option.getD_some]

/-- What a decoder call shows to the caller. -/
def run (NR FCR : Nat) (data parity : List (Val 4)) (er : List (Fin (2 ^ 4 - 1))) (count dl : Nat) :
    Option (List Nat × List Nat × Int) :=
  (decode O NR FCR im data parity er count dl).map fun r => (r.data.map Val.v, r.parity.map Val.v, r.ret)

/-- C25 witness: with two parity symbols the block (0 | 14 15), whose syndromes are 1 and 0, is no
codeword, and the decoder returns 0 and leaves it as it is. -/
theorem C25_zero_on_noncodeword :
    ¬ Codeword 0b10011 2 0 (blk [v 0] [v 14, v 15] 1 2) ∧
    run 2 0 [v 0] [v 14, v 15] [] 0 1 = some ([0], [14, 15], 0) := by
  constructor
  · intro h
    obtain ⟨s, nz, he, _, _, _, hiff⟩ := C22_syndromes (NR := 2) (FCR := 0) (dl := 1) ready (by norm_num) (v 5) (x 3)
      ⟨by norm_num, by norm_num, by norm_num, by norm_num⟩ [v 0] [v 14, v 15] [v 0, v 0] (by decide) (by decide) rfl
    have hn : ((computeSyndromes (tableOps 8 4 T (v 5) (x 3)) 2 0 (2 ^ 4 - 1 - 2) 2 (rd [v 0]) (rd [v 14, v 15])
        [v 0, v 0] 1).map Prod.snd) = some 1 := by decide +kernel
    rw [he] at hn
    have h1 : nz = 1 := by simpa using hn
    have := hiff.2 h
    omega
  · decide +kernel

/-! Encoder: a shortened block of three symbols. -/
def gen : List (Fin (2 ^ 4 - 1)) := (encInit O 4 1).getD []
theorem gen_ok : encInit (tableOps 8 4 T (v 5) (x 3)) 4 1 = some gen := by
  have h : (encInit O 4 1).isSome = true := by decide +kernel
  obtain ⟨t, ht⟩ := Option.isSome_iff_exists.1 h
  unfold gen
  rw [ht, Option.getD_some]; exact ht

def data : List (Val 4) := [v 7, v 0, v 9]
def sent : List (Val 4) := (encode O 4 gen data [v 0, v 0, v 0, v 0] 3).getD []
theorem sent_ok : encode (tableOps 8 4 T (v 5) (x 3)) 4 gen data [v 0, v 0, v 0, v 0] 3 = some sent := by
  have h : (encode O 4 gen data [v 0, v 0, v 0, v 0] 3).isSome = true := by decide +kernel
  obtain ⟨t, ht⟩ := Option.isSome_iff_exists.1 h
  unfold sent
  rw [ht, Option.getD_some]; exact ht

theorem sent_len : sent.length = 4 := by decide +kernel

/-- One wrong symbol and two erasures, one of them with the right content. -/
def data' : List (Val 4) := [v 7, v 3, v 1]
def er : List (Fin (2 ^ 4 - 1)) := [x 2, x 5]
theorem call : Call (tableOps 8 4 T (v 5) (x 3)) 4 3 im data' sent er 2 :=
  ⟨im_ok, by decide, by rw [sent_len], by decide, by decide, by decide, by decide⟩

theorem params : Params 4 4 1 3 := ⟨by norm_num, by norm_num, by norm_num, by norm_num⟩

theorem diffs : diffPos (blk data' sent 3 4) (blk data sent 3 4) = {1, 2} := by decide +kernel
theorem erased_eq : erased er 2 = {2, 5} := by decide +kernel

/-- All hypotheses of `C24_roundtrip` are met by this call. -/
example : ∃ r, decode (tableOps 8 4 T (v 5) (x 3)) 4 1 im data' sent er 2 3 = some r ∧
      r.data = data ∧ r.parity = sent ∧ r.ret = diff (blk data' sent 3 4) (blk data sent 3 4) := by
  refine C24_roundtrip ready (by norm_num) (v 5) (x 3) params gen_ok rfl rfl sent_ok rfl sent_len call ?_ ?_
  · rw [diffs, erased_eq]; decide
  · apply C26_unaffected (by norm_num) _ ready (Or.inl ⟨rfl, rfl⟩)
    rw [diffs, erased_eq]; decide

/-- The model agrees when run. -/
example : run 4 1 data' sent er 2 3 = some ([7, 0, 9], sent.map Val.v, 2) := by decide +kernel

/-- A codeword in the sense of C22 that is not zero. -/
example : Codeword 0b10011 4 1 (blk data sent 3 4) ∧ (blk data sent 3 4) ≠ List.replicate 7 0 := by
  refine ⟨?_, by decide +kernel⟩
  rw [C23_systematic ready (by norm_num) (v 5) (x 3) params gen_ok data sent (by decide) (by rw [sent_len])]
  have h : (encode O 4 gen data sent 3) = some sent := by decide +kernel
  exact h

/-- The hypotheses of `C26_search` are met by a locator with two roots, which the shortcut finds,
and by one with a double root, for which it finds none. -/
example : (findLoc O im [v 1, v 3, v 2] 2 [x 0, x 0]).map (fun r => (r.1.map Fin.val, r.2)) = some ([13, 14], 2) ∧
    (chien O [v 1, v 3, v 2] 2 [x 0, x 0]).map (fun r => (r.1.map Fin.val, r.2)) = some ([13, 14], 2) ∧
    (findLoc O im [v 1, v 0, v 1] 2 [x 0, x 0]).map (fun r => r.2) = some 0 ∧
    (chien O [v 1, v 0, v 1] 2 [x 0, x 0]).map (fun r => r.2) = some 1 := by
  decide +kernel

end Verif.RS.Example
