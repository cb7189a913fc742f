import Verif.Trials.Polar
import Verif.LDPC.Model
/- Model of the trials of tests/ldpc_regression_test.cc. -/
namespace Verif.Trials
open Verif.Polar (Fl Rounding)

/-- What a trial computes: the counters of tests/ldpc_regression_test.cc:594-606, `count` and `iters` of lines 588-592. -/
structure LdpcCounts where
  awgn : Nat
  erasures : Nat
  uncorrected : Nat
  decoder : Nat
  count : Int
  iters : Int
  deriving DecidableEq

/-- tests/ldpc_regression_test.cc:564-565 `code[i] = 1 - 2 * data()`; `bits i` is the value drawn for position `i`. -/
def ldpcData (K : Nat) (bits : Nat → Int) (code : List Int) : Option (List Int) :=
  forUp 0 K code fun i code => wr code i (1 - 2 * bits i)

/-- tests/ldpc_regression_test.cc:604-606 `decoder_errors += code[i] * orig[i] <= 0 && orig[i] * noisy[i] > 0` -/
def spoiled (N : Nat) (code orig noisy : List Int) : Option Nat :=
  forUp 0 N 0 fun i cnt => do
    let a ← rd code i
    let b ← rd orig i
    let c ← rd noisy i
    return cnt + if a * b ≤ 0 ∧ b * c > 0 then 1 else 0

/-- The arrays of tests/ldpc_regression_test.cc:547-550 and the members of the decoder that change. -/
structure LdpcArrays where
  code : List Int
  orig : List Int
  noisy : List Int
  symb : List Fl
  dec : LDPC.St

variable (F : Rounding)

/-- tests/ldpc_regression_test.cc:564-606: one trial with the drawn bits and noise, without the measurement of time; what it computes and the arrays after it.
`code` and `code + DATA_LEN` are the two parts of one array.  `symb` is not read before it is written, so that its last content does not matter: the model keeps the old one. -/
def ldpcTrial (C : LDPC.Cfg) (e : LDPC.Enc) (X : LDPC.Dec) (trials : Int) (A : LdpcArrays) (fact : Fl) (noise : Nat → Fl) (bits : Nat → Int) : Option (LdpcCounts × LdpcArrays) := do
  let code ← ldpcData C.T.K bits A.code
  let parity ← LDPC.encode C.T e (code.take C.T.K) (code.drop C.T.K)
  let code := code.take C.T.K ++ parity
  let orig ← copyTo C.T.N A.orig code
  let code ← channel F C.T.N fact noise code code A.symb
  let noisy ← copyTo C.T.N A.noisy code
  let r ← LDPC.decode C X A.dec (code.take C.T.K) (code.drop C.T.K) trials
  let code := r.message ++ r.parity
  let iters := if r.trials < 0 then trials else trials - r.trials
  let awgn ← wrongSigns C.T.N noisy orig
  let erasures ← erased C.T.N noisy
  let uncorrected ← wrongOrZero C.T.N code orig
  let decoder ← spoiled C.T.N code orig noisy
  return (⟨awgn, erasures, uncorrected, decoder, r.trials, iters⟩, ⟨code, orig, noisy, A.symb, r.s⟩)

/-- tests/ldpc_regression_test.cc:554-629: the loop over the trials, each with its factor, noise and bits, on the same arrays and decoder. -/
def ldpcTrials (C : LDPC.Cfg) (e : LDPC.Enc) (X : LDPC.Dec) (trials : Int) : LdpcArrays → List (Fl × (Nat → Fl) × (Nat → Int)) → Option (List LdpcCounts)
  | _, [] => some []
  | A, (fact, noise, bits) :: l => do
    let (c, A) ← ldpcTrial F C e X trials A fact noise bits
    let cs ← ldpcTrials C e X trials A l
    return c :: cs

end Verif.Trials
