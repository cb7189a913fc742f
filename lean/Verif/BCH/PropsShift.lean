import Verif.BCH.Shift
import Verif.RS.PropsShift
import Verif.BCH.PropsExample
/- C82 (bose_chaudhuri_hocquenghem_decoder.hh): what the packed and the symbol decoder do depends on
the error pattern alone, not on the codeword that was sent. -/
namespace Verif.BCH
open Verif.GF Verif.RS Finset

variable {w M P : Nat} {T : Tab} {NR FCR K NP dl : Nat}

/-- The packed decoder: a codeword is added to the received bits (bytewise, so also the bits after
the block may be changed).  Undefined behaviour, erasure list and returned number are as before, and
the corrected buffers are the former ones with the codeword added. -/
theorem C82_bch (R : Ready w M P T) (hM : 1 < M) (u : Val M) (ui : Fin (2 ^ M - 1)) (hF : FCR < 2 ^ M - 1)
    {im : List (Val M)} {data parity cd cp : List (BitVec 8)} {er : List (Fin (2 ^ M - 1))} {count : Nat}
    (hd : data.length = cd.length) (hp : parity.length = cp.length) (hdl : dl ≤ 8 * data.length) (hNP : NP ≤ 8 * parity.length)
    (hc : Codeword P NR FCR (syms (bits cd cp dl NP))) :
    decode (tableOps w M T u ui) (packedAccess (tableOps w M T u ui)) NR FCR K NP im (xorBytes data cd, xorBytes parity cp) er count dl =
      (decode (tableOps w M T u ui) (packedAccess (tableOps w M T u ui)) NR FCR K NP im (data, parity) er count dl).map fun r =>
        { r with buf := (xorBytes r.buf.1 cd, xorBytes r.buf.2 cp) } := by
  letI := valField R
  have hv : ∀ b : Bool, (fbit b : Val M).v = b.toNat := by
    intro b
    cases b
    · exact (valGf R hM).num_zero
    · exact (valGf R hM).num_one
  rw [← cw_iff R hM (W := pword cd cp dl) (fun j hj => by
    rw [bits_length] at hj
    rw [syms_getD, bits_getD _ _ hj, pword, hv]), bits_length] at hc
  rw [tableOps_eq R hM]
  exact decode_packed (valGf R hM) u ui (show FCR < (valGf R hM).N from hF) hd hp hdl hNP hc

/-- The decoder of the reference implementation, which takes one symbol per bit. -/
theorem C82_bch_reference (R : Ready w M P T) (hM : 1 < M) (u : Val M) (ui : Fin (2 ^ M - 1)) (hF : FCR < 2 ^ M - 1)
    {im data parity cd cp : List (Val M)} {er : List (Fin (2 ^ M - 1))} {count : Nat}
    (hd : data.length = cd.length) (hp : parity.length = cp.length) (hdl : dl ≤ data.length) (hNP : NP ≤ parity.length)
    (hc : Codeword P NR FCR (blk cd cp dl NP)) :
    decode (tableOps w M T u ui) (refAccess (tableOps w M T u ui)) NR FCR K NP im (xorSyms data cd, xorSyms parity cp) er count dl =
      (decode (tableOps w M T u ui) (refAccess (tableOps w M T u ui)) NR FCR K NP im (data, parity) er count dl).map fun r =>
        { r with buf := (xorSyms r.buf.1 cd, xorSyms r.buf.2 cp) } := by
  letI := valField R
  have hl := blk_length (dl := dl) (NR := NP) (data := cd) (parity := cp) (by omega) (by omega)
  rw [← cw_iff R hM (W := word cd cp dl) (fun j hj => blk_getD R (by omega) (by omega) (by omega)), hl] at hc
  rw [tableOps_eq R hM]
  simp only [xorSyms_eq R hM]
  exact decode_ref (valGf R hM) u ui (show FCR < (valGf R hM).N from hF) hd hp hdl hNP hc

end Verif.BCH

namespace Verif.BCH.Example
open Verif.GF Verif.RS Verif.BCH Finset
open Verif.RS.Example (T ready v x im im_ok)

theorem sent_cw : Codeword 0b10011 6 1 (syms (bits msg sent 3 10)) := by
  obtain ⟨gen', hg, he⟩ := C27_encoder C28_test_codes.1.minimal [0xAA, 0x55] rfl
  cases gen_ok.symm.trans hg
  obtain ⟨q, hq, hql, hdv, _⟩ := he 5 msg [0xFF, 0xFF] 3 (by norm_num) (by norm_num) (by decide) (by decide)
  cases sent_ok.symm.trans hq
  exact C28_code C28_test_codes.1.roots hdv

/-- The hypotheses are met: two flipped bits and two erasures in a shortened BCH(15, 5) block, to
which a codeword with non-zero data is added. -/
example : decode (tableOps 8 4 T (v 5) (x 3)) (packedAccess (tableOps 8 4 T (v 5) (x 3))) 6 1 5 10 im (xorBytes data' msg, xorBytes parity' sent) er 2 3 =
      (decode (tableOps 8 4 T (v 5) (x 3)) (packedAccess (tableOps 8 4 T (v 5) (x 3))) 6 1 5 10 im (data', parity') er 2 3).map fun r =>
        { r with buf := (xorBytes r.buf.1 msg, xorBytes r.buf.2 sent) } :=
  C82_bch ready (by norm_num) (v 5) (x 3) (by norm_num) rfl (show parity'.length = sent.length by rw [sent_len]; rfl) (by decide)
    (by rw [show parity'.length = 2 from rfl]; norm_num) sent_cw

/-- For the symbol decoder: the all-one word is a codeword of the cyclic code with roots `x`, ..., `x^6`. -/
example : Codeword 0b10011 6 1 (blk (List.replicate 9 (v 1)) (List.replicate 6 (v 1)) 9 6) := by
  obtain ⟨s, nz, he, _, _, _, hiff⟩ := C22_syndromes (NR := 6) (FCR := 1) (dl := 9) ready (by norm_num) (v 5) (x 3)
    ⟨by norm_num, by norm_num, by norm_num, by norm_num⟩ (List.replicate 9 (v 1)) (List.replicate 6 (v 1)) (List.replicate 6 (v 0))
    (by decide) (by decide) rfl
  have hn : ((computeSyndromes (tableOps 8 4 T (v 5) (x 3)) 6 1 (2 ^ 4 - 1 - 6) 6 (rd (List.replicate 9 (v 1))) (rd (List.replicate 6 (v 1)))
      (List.replicate 6 (v 0)) 9).map Prod.snd) = some 0 := by decide +kernel
  rw [he] at hn
  exact hiff.1 (by simpa using hn)

end Verif.BCH.Example
