import Verif.RS.Shift
import Verif.RS.Props
import Verif.RS.PropsExample
/- C82 (reed_solomon_decoder.hh, reed_solomon_error_correction.hh): what the decoder does depends on
the error pattern alone, not on the codeword that was sent. -/
namespace Verif.RS
open Verif.GF Finset

variable {w M P : Nat} {T : Tab} {NR FCR dl : Nat}

/-- Symbolwise exclusive or of two lists of symbols. -/
def xorSyms (a c : List (Val M)) : List (Val M) :=
  List.zipWith (fun x y => ⟨x.v ^^^ y.v, Nat.xor_lt_two_pow x.lt y.lt⟩) a c

theorem xorSyms_eq (R : Ready w M P T) (hM : 1 < M) (a c : List (Val M)) :
    letI := valField R; xorSyms a c = plusL (· + ·) a c := by
  letI := valField R
  unfold xorSyms plusL
  congr 1
  funext x y
  exact Val.ext' ((valGf R hM).num_add x y).symm

/-- Adding a codeword to the received block: the decoder ends up with undefined behaviour exactly
when it did before, and otherwise it returns the same number, leaves the same erasure list, and its
corrected data and parity are the former ones with the codeword added.  This holds for every block,
however many symbols are wrong, so also when the decoder gives up or corrects to another codeword. -/
theorem C82_reed_solomon (R : Ready w M P T) (hM : 1 < M) (u : Val M) (ui : Fin (2 ^ M - 1)) (hF : FCR < 2 ^ M - 1)
    {im data parity cd cp : List (Val M)} {er : List (Fin (2 ^ M - 1))} {count : Nat}
    (hd : data.length = cd.length) (hp : parity.length = cp.length) (hdl : dl ≤ data.length) (hNR : NR ≤ parity.length)
    (hc : Codeword P NR FCR (blk cd cp dl NR)) :
    decode (tableOps w M T u ui) NR FCR im (xorSyms data cd) (xorSyms parity cp) er count dl =
      (decode (tableOps w M T u ui) NR FCR im data parity er count dl).map fun r =>
        { r with data := xorSyms r.data cd, parity := xorSyms r.parity cp } := by
  letI := valField R
  have hl := blk_length (dl := dl) (NR := NR) (data := cd) (parity := cp) (by omega) (by omega)
  rw [← cw_iff R hM (W := word cd cp dl) (fun j hj => blk_getD R (by omega) (by omega) (by omega)), hl] at hc
  rw [tableOps_eq R hM]
  simp only [xorSyms_eq R hM]
  exact decode_plus (valGf R hM) u ui (show FCR < (valGf R hM).N from hF) hd hp hdl hNR hc

/-- Two transmissions that suffer the same errors: whatever the two codewords are, the decoder
returns the same number for both. -/
theorem C82_reed_solomon_errors (R : Ready w M P T) (hM : 1 < M) (u : Val M) (ui : Fin (2 ^ M - 1)) (hF : FCR < 2 ^ M - 1)
    {im cd cp cd' cp' ed ep : List (Val M)} {er : List (Fin (2 ^ M - 1))} {count : Nat}
    (hd : ed.length = cd.length) (hp : ep.length = cp.length) (hd' : ed.length = cd'.length) (hp' : ep.length = cp'.length)
    (hdl : dl ≤ ed.length) (hNR : NR ≤ ep.length)
    (hc : Codeword P NR FCR (blk cd cp dl NR)) (hc' : Codeword P NR FCR (blk cd' cp' dl NR)) :
    (decode (tableOps w M T u ui) NR FCR im (xorSyms ed cd) (xorSyms ep cp) er count dl).map (·.ret) =
      (decode (tableOps w M T u ui) NR FCR im (xorSyms ed cd') (xorSyms ep cp') er count dl).map (·.ret) := by
  rw [C82_reed_solomon R hM u ui hF hd hp hdl hNR hc, C82_reed_solomon R hM u ui hF hd' hp' hdl hNR hc', Option.map_map,
    Option.map_map]
  rfl

/-- The hypotheses are met: a block with one wrong symbol and two erasures, to which a codeword with
non-zero data is added. -/
example : decode (tableOps 8 4 Example.T (Example.v 5) (Example.x 3)) 4 1 Example.im (xorSyms Example.data' Example.data)
      (xorSyms Example.sent Example.sent) Example.er 2 3 =
    (decode (tableOps 8 4 Example.T (Example.v 5) (Example.x 3)) 4 1 Example.im Example.data' Example.sent Example.er 2 3).map fun r =>
      { r with data := xorSyms r.data Example.data, parity := xorSyms r.parity Example.sent } := by
  obtain ⟨g, hg, h⟩ := C22_encoder Example.ready (by norm_num) (Example.v 5) (Example.x 3) (NR := 4) (FCR := 1) (by norm_num)
    (by norm_num) (by norm_num)
  cases Example.gen_ok.symm.trans hg
  obtain ⟨q, hq, _, _, hc⟩ := h Example.data [Example.v 0, Example.v 0, Example.v 0, Example.v 0] 3 (by norm_num) (by norm_num)
    (by decide) (by decide)
  cases Example.sent_ok.symm.trans hq
  exact C82_reed_solomon Example.ready (by norm_num) (Example.v 5) (Example.x 3) (by norm_num) (by decide) rfl (by decide)
    (by rw [Example.sent_len]) hc

/-- Four wrong symbols, more than the code corrects: also here the run with a codeword added returns
the same value. -/
example : (Example.run 4 1 [Example.v 1, Example.v 2, Example.v 4] [Example.v 8, Example.v 0, Example.v 0, Example.v 0] [] 0 3).map (·.2.2) =
    (decode Example.O 4 1 Example.im (xorSyms [Example.v 1, Example.v 2, Example.v 4] Example.data)
      (xorSyms [Example.v 8, Example.v 0, Example.v 0, Example.v 0] Example.sent) [] 0 3).map (·.ret) := by decide +kernel

end Verif.RS
