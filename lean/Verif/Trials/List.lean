import Verif.Trials.Polar
import Verif.Polar.ListModel
/- Model of one trial of tests/polar_list_regression_test.cc with `code_type` = `int8_t` and `L` lanes. -/
namespace Verif.Trials
open Verif.Polar (Fl Rounding ph8 phV Reg LMap)
open Verif.Crc (CRC)
open Verif.CrcPolar (symbol)

/-- tests/polar_list_regression_test.cc:32-35: the constants `systematic` and `par_aided`, which line 35 does not let both be true; with the numbers `S` and `F`. -/
inductive ListKind where
  | plain
  | systematic
  | parity (stride first : Nat)
  deriving DecidableEq

/-- tests/polar_list_regression_test.cc:80-85 `F = K % (S + 1)`, `F += S` without CRC: the first parity symbol -/
def firstParity (crcAided : Bool) (K S : Nat) : Nat := if crcAided then K % (S + 1) else K % (S + 1) + S

/-- tests/polar_list_regression_test.cc:80, 84-85 `K -= P` with `P = K / (S + 1)`: the number of message symbols -/
def parityK (K S : Nat) : Nat := K - K / (S + 1)

/-- The counters of tests/polar_list_regression_test.cc:110-114 after one trial.  The first is no count of wrong signs: see `negSum`. -/
structure ListCounts where
  awgn : Int
  erasures : Nat
  uncorrected : Nat
  ambiguity : Nat
  frame : Nat
  deriving DecidableEq

/-- The arrays of tests/polar_list_regression_test.cc:53-55, 87-95, 167 and the members of the decoders, with whatever they hold before the trial.  The two decoders have their own members; a
trial uses one of them. -/
structure ListArrays (L : Nat) where
  codeword : List Int
  temp : List (Reg L)
  message : List Int
  decoded : List (Reg L)
  orig : List Int
  noisy : List Int
  symb : List Fl
  rank : List Nat
  soft : List (Reg L)
  hard : List (Reg L)
  maps : List (LMap L)
  metric : List Int

variable {w L : Nat}

/-- tests/polar_list_regression_test.cc:118-132: the message of the drawn bits -/
def listMessage (crcAided : Bool) (crc : CRC w) (data : List Bool) (message : List Int) (K : Nat) : Option (CRC w × List Int) :=
  if crcAided then CrcPolar.crcMessage crc data message K w
  else do
    let message ← forUp 0 K message fun i message => do
      let bit ← rd data i
      wr message i (symbol bit)
    return (crc, message)

/-- tests/polar_list_regression_test.cc:134-146 -/
def listEncode (kind : ListKind) (level : Nat) (frozen : List Nat) (codeword message : List Int) : Option (List Int) :=
  match kind with
  | .systematic => do
    let codeword ← Polar.sysEncode ph8 codeword message frozen level
    let _ ← sysCheck (2 ^ level) codeword message frozen
    some codeword
  | .parity stride first => Polar.parEncode ph8 codeword message frozen level stride first
  | .plain => Polar.encode ph8 codeword message frozen level

/-- tests/polar_list_regression_test.cc:167-172: the decoder; `rank` and `decoded` after it -/
def listRunDecoder (kind : ListKind) (MAX_M level : Nat) (frozen : List Nat) (A : ListArrays L) (codeword : List Int) : Option (List Nat × List (Reg L)) := do
  let (rank, decoded, _) ← match kind with
    | .parity stride first => Polar.parDecode MAX_M A.soft A.hard A.maps A.metric (some A.rank) A.decoded codeword frozen level stride first
    | _ => Polar.listDecode MAX_M A.soft A.hard A.maps A.metric (some A.rank) A.decoded codeword frozen level
  let rank ← rank
  return (rank, decoded)

/-- tests/polar_list_regression_test.cc:178-184: with systematic encoding, the symbols of the codewords in place of the transformed ones -/
def listOut (kind : ListKind) (level : Nat) (frozen : List Nat) (temp decoded : List (Reg L)) : Option (List (Reg L)) :=
  match kind with
  | .systematic => CrcPolar.systematicSymbols (phV L) temp decoded frozen level
  | _ => some decoded

/-- `r.v[k]`; `k` must be below the number of lanes. -/
def laneAt (r : Reg L) (k : Nat) : Option Int := if h : k < L then some (r ⟨k, h⟩) else none

/-- tests/polar_list_regression_test.cc:201-203: the frame error without CRC -/
def frameError (K : Nat) (rank : List Nat) (decoded : List (Reg L)) (message : List Int) : Option Bool := do
  let a ← rd rank 0
  let b ← rd rank 1
  forUp 0 K (a == b) fun i error => do
    let r ← rd decoded i
    let x ← laneAt r 0
    let m ← rd message i
    return error || decide (x * m ≤ 0)

/-- tests/polar_list_regression_test.cc:186-205: the CRC object, `best` and the frame error -/
def listJudge (crcAided : Bool) (crc : CRC w) (K : Nat) (rank : List Nat) (decoded : List (Reg L)) (message : List Int) : Option (CRC w × Nat × Bool) :=
  if crcAided then CrcPolar.crcSelect (fun x => decide (x < 0)) crc decoded K
  else do
    let error ← frameError K rank decoded message
    return (crc, 0, error)

/-- tests/polar_list_regression_test.cc:211-212 `uncorrected_errors += decoded[i].v[best] * message[i] <= 0` -/
def laneWrong (K best : Nat) (decoded : List (Reg L)) (message : List Int) : Option Nat :=
  forUp 0 K 0 fun i cnt => do
    let r ← rd decoded i
    let x ← laneAt r best
    let m ← rd message i
    return cnt + if x * m ≤ 0 then 1 else 0

/-- tests/polar_list_regression_test.cc:213-214 `ambiguity_erasures += !decoded[i].v[best]` -/
def laneErased (K best : Nat) (decoded : List (Reg L)) : Option Nat :=
  forUp 0 K 0 fun i cnt => do
    let r ← rd decoded i
    let x ← laneAt r best
    return cnt + if x = 0 then 1 else 0

variable (F : Rounding)

/-- tests/polar_list_regression_test.cc:118-214: one trial with the drawn bits `data` and the noise, without the measurement of time.  The CRC has `w` bits, which is also the constant `C`. -/
def listTrial (kind : ListKind) (crcAided : Bool) (MAX_M level K : Nat) (frozen : List Nat) (A : ListArrays L) (crc : CRC w) (fact : Fl) (noise : Nat → Fl) (data : List Bool) :
    Option (ListCounts × CRC w) := do
  let (crc, message) ← listMessage crcAided crc data A.message K
  let codeword ← listEncode kind level frozen A.codeword message
  let orig ← copyTo (2 ^ level) A.orig codeword
  let codeword ← channel F (2 ^ level) fact noise codeword codeword A.symb
  let noisy ← copyTo (2 ^ level) A.noisy codeword
  let (rank, decoded) ← listRunDecoder kind MAX_M level frozen A codeword
  let decoded ← listOut kind level frozen A.temp decoded
  let (crc, best, error) ← listJudge crcAided crc K rank decoded message
  let awgn ← negSum (2 ^ level) noisy orig
  let erasures ← erased (2 ^ level) noisy
  let uncorrected ← laneWrong K best decoded message
  let ambiguity ← laneErased K best decoded
  return (⟨awgn, erasures, uncorrected, ambiguity, if error then 1 else 0⟩, crc)

end Verif.Trials
