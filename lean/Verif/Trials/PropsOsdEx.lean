import Verif.Trials.PropsOsd
/- C75, the (15, 5) code of tests/osd_regression_test.cc and tests/osld_regression_test.cc: the hypotheses are met, and some trials evaluated. -/
namespace Verif.Trials
open Verif.Polar (Fl Rounding)
open Verif.GF Verif.RS

namespace OsdExample
open RS.Example (T ready v x im im_ok)

def genmat : List (BitVec 8) := (OSD.matrix 15 5 (List.replicate 75 9) true BCH.Example.polys).getD []

theorem code : OsdCode 8 4 0b10011 T (v 5) (x 3) 6 15 5 BCH.Example.polys genmat BCH.Example.gen im := by
  obtain ⟨gm, gen, im', e1, e2, S⟩ := C75_osd_codes.2.2.2 T (v 5) (x 3) (List.replicate 75 9) [0xAA, 0x55] ready (by simp) rfl
  have h1 : gm = genmat := by
    unfold genmat BCH.Example.polys
    rw [e1, Option.getD_some]
  cases BCH.Example.gen_ok.symm.trans e2
  cases im_ok.symm.trans S.tab
  rw [h1] at S
  exact S

/-- Arrays with something in them; `n` is the length of `decoded`. -/
def arrays (n : Nat) : OsdArrays where
  erasures := List.replicate 6 3
  parity := [0xFF, 0xFF]
  decoded := List.replicate n 0xFF
  codeword := [0xFF, 0xFF]
  orig := List.replicate 15 7
  noisy := List.replicate 15 7
  symb := List.replicate 15 .nan
  mem := ⟨List.replicate 80 7, List.replicate 16 7, List.replicate 16 7, List.replicate 16 7, List.replicate 15 7⟩

theorem sizes (n : Nat) : OsdSizes 6 15 5 n (arrays n) :=
  ⟨rfl, rfl, List.length_replicate, rfl, rfl, rfl, rfl, ⟨by norm_num, rfl, rfl, rfl, rfl, rfl⟩⟩

def lst (L : Nat) : OSD.Lst := ⟨List.replicate 16 7, List.replicate (16 * L) 7, List.replicate L 7, List.replicate L 7⟩

/-- The hypotheses of the theorems are met. -/
example (f : ℚ) (hf : f ≠ 0) (noise : Nat → ℚ) (message : List (BitVec 8)) (hm : message.length = 1) (oracle : Bool) :
    (∃ r, osdTrial unrounded 8 (tableOps 8 4 T (v 5) (x 3)) 6 15 5 1 genmat BCH.Example.gen im (arrays 2) (List.replicate 16 7) (.fin f) (fun i => .fin (noise i)) message = some r) ∧
    ∃ r, osldTrial unrounded 8 (tableOps 8 4 T (v 5) (x 3)) 6 15 5 1 4 oracle genmat BCH.Example.gen im (arrays 8) (lst 4) [7, 7, 7, 7] (.fin f) (fun i => .fin (noise i)) message =
      some r := by
  constructor
  · obtain ⟨_, _, _, _, _, _, r, -, -, -, hr, -⟩ := C75_osd (F := unrounded) (O := 1) (noise := noise) (cand := List.replicate 16 7) hf code (sizes 2) rfl hm
    exact ⟨r, hr⟩
  · obtain ⟨_, _, _, _, _, _, _, _, r, -, -, -, -, hr, -⟩ := C75_osld (F := unrounded) (O := 1) (L := 4) (oracle := oracle) (noise := noise) (lst := lst 4) (rank := [7, 7, 7, 7]) hf code (sizes 8)
      (by norm_num) ⟨rfl, rfl, rfl⟩ rfl hm
    exact ⟨r, hr⟩

/-- One factor and the noise at 15 positions. -/
def run (f : ℚ) (noise : List ℚ) : Option OsdCounts :=
  osdTrial unrounded 8 (tableOps 8 4 T (v 5) (x 3)) 6 15 5 1 genmat BCH.Example.gen im (arrays 2) (List.replicate 16 7) (.fin f) (fun i => .fin (noise.getD i 0)) [0b10110000]

def runL (oracle : Bool) (f : ℚ) (noise : List ℚ) : Option OsdCounts :=
  osldTrial unrounded 8 (tableOps 8 4 T (v 5) (x 3)) 6 15 5 1 4 oracle genmat BCH.Example.gen im (arrays 8) (lst 4) [7, 7, 7, 7] (.fin f) (fun i => .fin (noise.getD i 0)) [0b10110000]

/-- Four weak errors: decoding of ordered statistics finds the codeword, the BCH decoder is left with them. -/
example : run 4 [3/2, -3/2, 3/2, 3/2] = some ⟨4, 0, 0, 0, 0, 4⟩ := by decide +kernel
/-- Five weak errors and an erasure: another codeword fits as well.  The oracle finds the right one in the list. -/
example : run 4 [3/2, -3/2, 3/2, 3/2, -3/2, -1] = some ⟨5, 1, 0, 15, 1, 5⟩ := by decide +kernel
example : runL false 4 [3/2, -3/2, 3/2, 3/2, -3/2, -1] = some ⟨5, 1, 0, 15, 1, 5⟩ := by decide +kernel
example : runL true 4 [3/2, -3/2, 3/2, 3/2, -3/2, -1] = some ⟨5, 1, 0, 0, 0, 5⟩ := by decide +kernel
/-- Ten erasures: only six can be announced to the BCH decoder. -/
example : run 4 [1, -1, 1, 1, -1, -1, 1, -1, -1, -1] = some ⟨0, 10, 0, 0, 0, 4⟩ := by decide +kernel
/-- Strong noise: the wrong codeword, which is not ambiguous and in no list. -/
example : run 4 [3, -3, 3, 3, -3, -1] = some ⟨5, 1, 7, 0, 1, 5⟩ ∧ runL true 4 [3, -3, 3, 3, -3, -1] = some ⟨5, 1, 7, 0, 1, 5⟩ := by decide +kernel

end OsdExample

end Verif.Trials
