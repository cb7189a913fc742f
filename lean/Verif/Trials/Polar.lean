import Verif.Trials.Channel
import Verif.CrcPolar.Model
/- Model of one trial of tests/polar_regression_test.cc with `code_type` = `int8_t`. -/
namespace Verif.Trials
open Verif.Polar (Fl Rounding ph8 getBit)

/-- The counters of tests/polar_regression_test.cc:92-95 after one trial.  The first is no count of wrong signs: see `negSum`. -/
structure PolarCounts where
  awgn : Int
  erasures : Nat
  uncorrected : Nat
  ambiguity : Nat
  deriving DecidableEq

/-- tests/polar_regression_test.cc:105-107 `assert(codeword[i] == message[j++])` at the positions that are not frozen -/
def sysCheck (N : Nat) (codeword message : List Int) (frozen : List Nat) : Option Nat :=
  forUp 0 N 0 fun i j => do
    let b ← getBit frozen i
    if b then return j
    else
      let c ← rd codeword i
      let m ← rd message j
      assertUB (c = m)
      return j + 1

/-- tests/polar_regression_test.cc:113-114, 129-130 `a[i] = b[i]` -/
def copyTo (N : Nat) (a b : List Int) : Option (List Int) :=
  forUp 0 N a fun i a => do
    let x ← rd b i
    wr a i x

/-- tests/polar_regression_test.cc:147-148 `awgn_errors += noisy[i] * (orig[i] < 0)` -/
def negSum (N : Nat) (noisy orig : List Int) : Option Int :=
  forUp 0 N 0 fun i s => do
    let a ← rd noisy i
    let b ← rd orig i
    return s + a * if b < 0 then 1 else 0

/-- tests/polar_regression_test.cc:151-152 `uncorrected_errors += decoded[i] * message[i] <= 0` -/
def wrongOrZero (K : Nat) (decoded message : List Int) : Option Nat :=
  forUp 0 K 0 fun i cnt => do
    let a ← rd decoded i
    let b ← rd message i
    return cnt + if a * b ≤ 0 then 1 else 0

/-- The arrays of tests/polar_regression_test.cc:42-43, 71-77 and the members of the decoder, with whatever they hold before the trial. -/
structure PolarArrays where
  codeword : List Int
  temp : List Int
  decoded : List Int
  orig : List Int
  noisy : List Int
  symb : List Fl
  soft : List Int
  hard : List Int

/-- tests/polar_regression_test.cc:102-111 -/
def polarEncode (systematic : Bool) (level : Nat) (frozen : List Nat) (codeword message : List Int) : Option (List Int) :=
  if systematic then do
    let codeword ← Polar.sysEncode ph8 codeword message frozen level
    let _ ← sysCheck (2 ^ level) codeword message frozen
    some codeword
  else Polar.encode ph8 codeword message frozen level

variable (F : Rounding)

/-- tests/polar_regression_test.cc:102-154: one trial with the symbols `message`, of which there are `K`.  `systematic` is the constant of line 30.  `F` is the format of `double`. -/
def polarTrial (systematic : Bool) (MAX_M level K : Nat) (frozen : List Nat) (A : PolarArrays) (fact : Fl) (noise : Nat → Fl) (message : List Int) : Option PolarCounts := do
  let codeword ← polarEncode systematic level frozen A.codeword message
  let orig ← copyTo (2 ^ level) A.orig codeword
  let codeword ← channel F (2 ^ level) fact noise codeword codeword A.symb
  let noisy ← copyTo (2 ^ level) A.noisy codeword
  let decoded ← Polar.scDecode ph8 MAX_M A.soft A.hard A.decoded codeword frozen level
  let decoded ← if systematic then CrcPolar.systematicSymbols ph8 A.temp decoded frozen level else some decoded
  let awgn ← negSum (2 ^ level) noisy orig
  let erasures ← erased (2 ^ level) noisy
  let uncorrected ← wrongOrZero K decoded message
  let ambiguity ← erased K decoded
  return ⟨awgn, erasures, uncorrected, ambiguity⟩

end Verif.Trials
