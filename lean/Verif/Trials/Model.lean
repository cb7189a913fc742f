import Verif.RS.Table
import Verif.BCH.Model
import Verif.Cauchy.Bytes
import Verif.ShortBCH.Model
/- Model of the trials of tests/rs_regression_test.cc, tests/bch_regression_test.cc and tests/short_bch_code_regression_test.cc: encode, damage the block at random
positions, announce some of them as erasures, decode, compare.  The random numbers are arbitrary functions: the `c`-th number drawn from a distribution is `src c`. -/
namespace Verif.Trials
open Verif.RS
open Verif.Cauchy (compareAll)

/-- tests/rs_regression_test.cc:40-46, 56-62 and tests/bch_regression_test.cc:42-48, 58-64, 106-112, 122-128: numbers are drawn until one is none of the first `i` of `errors`.  `p` is the
number drawn last, `j` the loop variable (0 after `j = -1; ++j`), `c` counts the numbers drawn.  The loop may go on for ever: it is cut off, with `none`, after `fuel` steps. -/
def fresh (src : Nat → Nat) (errors : List Nat) (i : Nat) : Nat → Nat → Nat → Nat → Option (Nat × Nat)
  | 0, _, _, _ => none
  | f + 1, p, j, c =>
    if j < i then do
      let e ← rd errors j
      if e = p then fresh src errors i f (src c) 0 (c + 1) else fresh src errors i f p (j + 1) c
    else some (p, c)

variable {D : Type}

/-- tests/rs_regression_test.cc:40-51, 56-68 without the array of erasures, and the same lines of tests/bch_regression_test.cc: the number `i` of the wrong positions is found, stored (the
elements of `errors` have `w` bits) and the block damaged there; `hit i p` is what is done to the block. -/
def strike (w : Nat) (src : Nat → Nat) (fuel : Nat) (hit : Nat → Nat → D → Option D) (i : Nat) (s : D × List Nat × Nat) : Option (Nat × (D × List Nat × Nat)) := do
  let (p, c) ← fresh src s.2.1 i fuel (src s.2.2) 0 (s.2.2 + 1)
  let errors ← wr s.2.1 i (p % 2 ^ w)
  let d ← hit i p s.1
  return (p, (d, errors, c))

/-- tests/rs_regression_test.cc:37-69 and the same lines of tests/bch_regression_test.cc: `count` errors, then erasures up to the capability `NR`.  `errors` and `erasures` are the
uninitialised arrays; the result is the damaged block and the array of erasures. -/
def damage (w : Nat) (src : Nat → Nat) (fuel : Nat) (hit : Nat → Nat → D → Option D) (NR count : Nat) (d : D) (errors erasures : List Nat) : Option (D × List Nat) := do
  let s ← forUp 0 count (d, errors, 0) fun i s => do
    let (_, s) ← strike w src fuel hit i s
    return s
  let (s, erasures) ← forUp 0 (NR - 2 * count) (s, erasures) fun i (s, erasures) => do
    let (p, s) ← strike w src fuel hit (count + i) s
    let erasures ← wr erasures i (p % 2 ^ w)
    return (s, erasures)
  return (s.1, erasures)

/-- The array of erasures as the decoder sees it. -/
def asIndices (M : Nat) (l : List Nat) : Option (List (Fin (2 ^ M - 1))) := l.mapM fun p => toIdx M (some p)

variable {M : Nat}

/-- tests/rs_regression_test.cc:48-51, 65-68: a symbol is replaced by a random one. -/
def hitSymbol (dl : Nat) (val : Nat → Val M) (i p : Nat) (s : List (Val M) × List (Val M)) : Option (List (Val M) × List (Val M)) :=
  if p < dl then do
    let data ← wr s.1 p (val i)
    return (data, s.2)
  else do
    let parity ← wr s.2 (p - dl) (val i)
    return (s.1, parity)

/-- tests/rs_regression_test.cc:24-76: one trial with the data `orig` (lines 32-33, a comparison of the encoder's `const` input with itself, are left out); `par` is the uninitialised parity, `cnt` the number drawn for the errors. -/
def rsTrial (w : Nat) (O : Ops (Val M) (Fin (2 ^ M - 1))) (NR FCR : Nat) (gen : List (Fin (2 ^ M - 1))) (im : List (Val M)) (src : Nat → Nat) (fuel : Nat) (val : Nat → Val M) (cnt : Nat)
    (orig par : List (Val M)) (errors erasures : List Nat) (dl : Nat) : Option Unit := do
  let parity ← RS.encode O NR gen orig par dl
  let (d, erasures) ← damage w src fuel (hitSymbol dl val) NR (cnt / 2) (orig, parity) errors erasures
  let er ← asIndices M erasures
  let r ← RS.decode O NR FCR im d.1 d.2 er (NR - 2 * (cnt / 2)) dl
  assertUB (0 ≤ r.ret)
  compareAll r.data orig dl
  compareAll r.parity parity NR

/-- tests/bch_regression_test.cc:50-53, 67-70: a bit is flipped. -/
def hitBit (dl : Nat) (_ p : Nat) (s : List (BitVec 8) × List (BitVec 8)) : Option (List (BitVec 8) × List (BitVec 8)) :=
  if p < dl then do
    let data ← Bits.xorBe s.1 (p : Int) true
    return (data, s.2)
  else do
    let parity ← Bits.xorBe s.2 ((p - dl : Nat) : Int) true
    return (s.1, parity)

/-- tests/bch_regression_test.cc:24-78 `bch_test`: one trial. -/
def bchTrial (w : Nat) (O : Ops (Val M) (Fin (2 ^ M - 1))) (NR FCR K NP : Nat) (gen : List (BitVec 8)) (im : List (Val M)) (src : Nat → Nat) (fuel cnt : Nat)
    (orig par : List (BitVec 8)) (errors erasures : List Nat) (dl : Nat) : Option Unit := do
  let parity ← BCH.encode NP K gen orig par dl
  let (d, erasures) ← damage w src fuel (hitBit dl) NR (cnt / 2) (orig, parity) errors erasures
  let er ← asIndices M erasures
  let r ← BCH.decode O (BCH.packedAccess O) NR FCR K NP im d er (NR - 2 * (cnt / 2)) dl
  assertUB (0 ≤ r.ret)
  compareAll r.buf.1 orig ((dl + 7) / 8)
  compareAll r.buf.2 parity ((NP + 7) / 8)

/-- tests/bch_regression_test.cc:114-117, 131-134: `^= 1` on a symbol. -/
def hitFlip (dl : Nat) (_ p : Nat) (s : List (Val M) × List (Val M)) : Option (List (Val M) × List (Val M)) :=
  if p < dl then do
    let x ← rd s.1 p
    let y ← toVal M (some (x.v ^^^ 1))
    let data ← wr s.1 p y
    return (data, s.2)
  else do
    let x ← rd s.2 (p - dl)
    let y ← toVal M (some (x.v ^^^ 1))
    let parity ← wr s.2 (p - dl) y
    return (s.1, parity)

/-- tests/bch_regression_test.cc:90-142 `bch_reference_test`: one trial. -/
def bchRefTrial (w : Nat) (O : Ops (Val M) (Fin (2 ^ M - 1))) (NR FCR K NP : Nat) (ref : List (Val M)) (im : List (Val M)) (src : Nat → Nat) (fuel cnt : Nat)
    (orig par : List (Val M)) (errors erasures : List Nat) (dl : Nat) : Option Unit := do
  let parity ← BCH.refEncode O NP K ref orig par dl
  let (d, erasures) ← damage w src fuel (hitFlip dl) NR (cnt / 2) (orig, parity) errors erasures
  let er ← asIndices M erasures
  let r ← BCH.decode O (BCH.refAccess O) NR FCR K NP im d er (NR - 2 * (cnt / 2)) dl
  assertUB (0 ≤ r.ret)
  compareAll r.buf.1 orig dl
  compareAll r.buf.2 parity NP

/-- tests/short_bch_code_regression_test.cc:16-37 `bch_test`: the coders are built (`epar`, `derr`, `dpar` are their uninitialised arrays), then one trial; `epos i` is the number drawn for flip `i`. -/
def shortTrial (N K G T : Nat) (epar derr dpar : List Nat) (message : Nat) (epos : Nat → Nat) : Option Unit := do
  let par ← ShortBCH.mkPar (N - K) K G epar
  let d ← ShortBCH.mkDec N K G T derr dpar
  let codeword ← ShortBCH.encode (N - K) par message
  assertUB (codeword >>> (N - K) = message)
  let decoded ← ShortBCH.hard (N - K) d.1 d.2 codeword
  assertUB (decoded = codeword)
  let damaged ← forUp 0 T codeword fun i x => do
    let m ← ShortBCH.int31 (1 <<< epos i)
    return x ^^^ m
  let recovered ← ShortBCH.hard (N - K) d.1 d.2 damaged
  assertUB (recovered = codeword)

end Verif.Trials
