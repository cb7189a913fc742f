import Verif.Polar.Ieee
import Verif.Hadamard.Model
import Verif.ShortBCH.Model
/- Model of the noisy channel of the tests with soft values (Hadamard, simplex, short BCH, polar and ordered statistics decoding): BPSK symbols, additive noise, quantisation to `int8_t`;
and of the trials of the first three.  The noise is an arbitrary function: the value added to symbol `i` is `noise i`.  `float` and `double` are the values `Fl` of Polar/Float.lean, with
every sum and product rounded as in `F`. -/
namespace Verif.Trials
open Verif.Polar (Fl Rounding)
open Verif.Polar.Ieee (nearest)

/-- `std::nearbyint` in the default rounding mode (to nearest, ties to even).  The result is always a number of the format, so that there is nothing to round. -/
def nearbyint : Fl → Fl
  | .nan => .nan
  | .inf b => .inf b
  | .fin q => .fin (nearest q)

/-- `std::max(a, b)`: `a < b ? b : a` -/
def flMax (a b : Fl) : Fl := if Fl.lt a b then b else a

/-- Conversion of a floating point value to `int8_t`: towards zero, undefined if the result does not fit. -/
def toInt8 : Fl → Option Int
  | .fin q =>
    let t := if 0 ≤ q then ⌊q⌋ else ⌈q⌉
    if -128 ≤ t ∧ t ≤ 127 then some t else none
  | _ => none

/-- polar_helper.hh:172-176 `PolarHelper<int8_t>::quant`, tests/hadamard_regression_test.cc:101, tests/simplex_regression_test.cc:101, tests/soft_bch_regression_test.cc:110,
tests/osd_regression_test.cc:114, tests/osld_regression_test.cc:117, tests/ldpc_regression_test.cc:582 -/
def quantF (x : Fl) : Option Int := toInt8 (Fl.min (flMax (nearbyint x) (.fin (-127))) (.fin 127))

variable (F : Rounding)

/-- tests/hadamard_regression_test.cc:90-101 and the same lines of the other tests: `symb[i] = code[i]`, `symb[i] += awgn()`, `code[i] = quant(fact * symb[i])`.
`sent` has the symbols, `symb` and `out` are the arrays with their earlier content (`out` is `sent` in all but the tests of ordered statistics decoding). -/
def channel (N : Nat) (fact : Fl) (noise : Nat → Fl) (sent out : List Int) (symb : List Fl) : Option (List Int) := do
  let symb ← forUp 0 N symb fun i symb => do
    let c ← rd sent i
    wr symb i (Fl.ofQ F c)
  let symb ← forUp 0 N symb fun i symb => do
    let s ← rd symb i
    wr symb i (Fl.add F s (noise i))
  forUp 0 N out fun i out => do
    let s ← rd symb i
    let q ← quantF (Fl.mul F fact s)
    wr out i q

/-- tests/hadamard_regression_test.cc:108-109 `awgn_errors += noisy[i] * orig[i] < 0` -/
def wrongSigns (N : Nat) (noisy orig : List Int) : Option Nat :=
  forUp 0 N 0 fun i cnt => do
    let a ← rd noisy i
    let b ← rd orig i
    return cnt + if a * b < 0 then 1 else 0

/-- tests/hadamard_regression_test.cc:110-111 `quantization_erasures += !noisy[i]` -/
def erased (N : Nat) (noisy : List Int) : Option Nat :=
  forUp 0 N 0 fun i cnt => do
    let a ← rd noisy i
    return cnt + if a = 0 then 1 else 0

/-- tests/hadamard_regression_test.cc:16-25 `popcnt` of an `int` that is not negative: `while (x) { ++cnt; x &= x-1; }`.  The loop is cut off, with `none`, after `fuel` steps. -/
def popcnt : Nat → Nat → Nat → Option Nat
  | 0, _, _ => none
  | f + 1, x, cnt => if x = 0 then some cnt else popcnt f (x &&& (x - 1)) (cnt + 1)

/-- What a trial adds to the four counters (of type `int`; here they do not overflow). -/
structure Counts where
  awgn : Nat
  erasures : Nat
  uncorrected : Nat
  ambiguity : Nat
  deriving DecidableEq

/-- tests/hadamard_regression_test.cc:104-113, tests/soft_bch_regression_test.cc:113-122: the soft values are decoded and the counters updated.  `want` is compared with the decoder's
result, `bits` are counted if it has none. -/
def score (N bits : Nat) (decode : List Int → Option Int) (want : Nat) (orig code : List Int) : Option Counts := do
  let dec ← decode code
  let awgn ← wrongSigns N code orig
  let erasures ← erased N code
  let uncorrected ← if dec < 0 then some bits else popcnt 33 (want ^^^ dec.toNat) 0
  return ⟨awgn, erasures, uncorrected, if dec < 0 then 1 else 0⟩

/-- tests/hadamard_regression_test.cc:57-58, 81-113: the coders are built (`mod`, `sum` are their uninitialised arrays), then one trial with the message `dat`. -/
def hadTrial (K : Nat) (mod code sum : List Int) (symb : List Fl) (fact : Fl) (noise : Nat → Fl) (dat : Nat) : Option Counts := do
  let mod ← Hadamard.mkMod K mod
  let orig ← Hadamard.hadEncode K mod code dat
  let code ← channel F (2 ^ (K - 1)) fact noise orig orig symb
  score (2 ^ (K - 1)) K (Hadamard.hadDecode K sum) dat orig code

/-- tests/simplex_regression_test.cc:57-58, 81-113 -/
def simTrial (K : Nat) (mod code sum : List Int) (symb : List Fl) (fact : Fl) (noise : Nat → Fl) (dat : Nat) : Option Counts := do
  let mod ← Hadamard.mkMod K mod
  let orig ← Hadamard.simEncode K mod code dat
  let code ← channel F (2 ^ K - 1) fact noise orig orig symb
  score (2 ^ K - 1) K (Hadamard.simDecode K sum) dat orig code

/-- tests/soft_bch_regression_test.cc:66-67, 90-122: here the decoded word is compared with the codeword, and a failure counts as `N` wrong bits. -/
def softTrial (N K G T : Nat) (epar derr dpar : List Nat) (code : List Int) (symb : List Fl) (fact : Fl) (noise : Nat → Fl) (dat : Nat) : Option Counts := do
  let par ← ShortBCH.mkPar (N - K) K G epar
  let d ← ShortBCH.mkDec N K G T derr dpar
  let (orig, enc) ← ShortBCH.encodeSoft N (N - K) par code dat
  let code ← channel F N fact noise orig orig symb
  score N N (ShortBCH.soft N K T d.1 d.2) enc orig code

end Verif.Trials
