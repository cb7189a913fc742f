import Verif.Trials.Channel
import Verif.Trials.Model
import Verif.OSD.Model
/- Model of one trial of tests/osd_regression_test.cc and tests/osld_regression_test.cc. -/
namespace Verif.Trials
open Verif.Polar (Fl Rounding)
open Verif.GF Verif.RS
open Verif.Bits (getBe setBe)

/-- What a trial adds to the counters of tests/osd_regression_test.cc:80-85 (of type `int`; here they do not overflow). -/
structure OsdCounts where
  awgn : Nat
  erasures : Nat
  uncorrected : Nat
  ambiguity : Nat
  frame : Nat
  bch : Nat
  deriving DecidableEq

/-- tests/osd_regression_test.cc:92-93, 97-98 `assert(get_be_bit(a, lo + i) == get_be_bit(b, i))` -/
def checkBits (lo n : Nat) (a b : List (BitVec 8)) : Option Unit :=
  forUp 0 n () fun i _ => do
    let x ← getBe a ((lo + i : Nat) : Int)
    let y ← getBe b (i : Int)
    assertUB (x = y)

/-- tests/osd_regression_test.cc:90-98, tests/osld_regression_test.cc:93-101: both encoders and the assertions that they agree; the codeword and the parity. -/
def osdEncode (N K : Nat) (genmat gen codeword message parity : List (BitVec 8)) : Option (List (BitVec 8) × List (BitVec 8)) := do
  let codeword ← OSD.linEncode N K codeword message genmat
  checkBits 0 K codeword message
  let parity ← BCH.encode (N - K) K gen message parity K
  checkBits K (N - K) codeword parity
  return (codeword, parity)

/-- tests/osd_regression_test.cc:100-101, tests/osld_regression_test.cc:103-104 `orig[i] = 1 - 2 * get_be_bit(codeword, i)` -/
def bpskBits (N : Nat) (codeword : List (BitVec 8)) (orig : List Int) : Option (List Int) :=
  forUp 0 N orig fun i orig => do
    let b ← getBe codeword (i : Int)
    wr orig i (1 - 2 * if b then 1 else 0)

/-- tests/osd_regression_test.cc:122-123, 145-148: the number of different bits among `n`, in `a` from `lo` on. -/
def unequal (lo n : Nat) (a b : List (BitVec 8)) : Option Nat :=
  forUp 0 n 0 fun i cnt => do
    let x ← getBe a ((lo + i : Nat) : Int)
    let y ← getBe b (i : Int)
    return cnt + if x ≠ y then 1 else 0

/-- tests/osd_regression_test.cc:122-132, tests/osld_regression_test.cc:140-150: `uncorrected_errors`, `ambiguity_erasures` and `frame_errors`. -/
def osdJudge (N : Nat) (unique : Bool) (decoded codeword : List (BitVec 8)) : Option (Nat × Nat × Nat) := do
  let uncorrected ← unequal 0 N decoded codeword
  if unique then
    let error ← forUp 0 N false fun i error => do
      let x ← getBe decoded (i : Int)
      let y ← getBe codeword (i : Int)
      return error || x != y
    return (uncorrected, 0, if error then 1 else 0)
  else return (uncorrected, N, 1)

/-- tests/osd_regression_test.cc:134-137 `set_be_bit(buf, i, noisy[lo + i] < 0)` -/
def harden (lo n : Nat) (noisy : List Int) (buf : List (BitVec 8)) : Option (List (BitVec 8)) :=
  forUp 0 n buf fun i buf => do
    let s ← rd noisy (lo + i)
    setBe buf (i : Int) (decide (s < 0))

/-- tests/osd_regression_test.cc:138-141, tests/osld_regression_test.cc:156-159: the positions of the first `NR` zeros, in elements of `w` bits. -/
def findErasures (w N NR : Nat) (noisy : List Int) (erasures : List Nat) : Option (List Nat × Nat) :=
  forUp 0 N (erasures, 0) fun i (s : List Nat × Nat) =>
    if s.2 < NR then do
      let x ← rd noisy i
      if x = 0 then do
        let erasures ← wr s.1 s.2 (i % 2 ^ w)
        return (erasures, s.2 + 1)
      else some s
    else some s

variable {M : Nat}

/-- tests/osd_regression_test.cc:134-148, tests/osld_regression_test.cc:152-166: the BCH decoder on the hard decisions, the zeros announced as erasures; `bchdec_errors`. -/
def bchErrors (w : Nat) (O : Ops (Val M) (Fin (2 ^ M - 1))) (NR N K : Nat) (im : List (Val M)) (noisy : List Int) (message parity codeword : List (BitVec 8)) (erasures : List Nat) : Option Nat := do
  let message ← harden 0 K noisy message
  let parity ← harden K (N - K) noisy parity
  let (erasures, cnt) ← findErasures w N NR noisy erasures
  let er ← asIndices M (erasures.take cnt)
  let r ← BCH.decode O (BCH.packedAccess O) NR 1 K (N - K) im (message, parity) er cnt K
  let a ← unequal 0 K codeword r.buf.1
  let b ← unequal K (N - K) codeword r.buf.2
  return a + b

/-- The arrays of tests/osd_regression_test.cc:60-62, 69 with whatever they hold before the trial (`message` apart), and the members of the decoder of ordered statistics. -/
structure OsdArrays where
  erasures : List Nat
  parity : List (BitVec 8)
  decoded : List (BitVec 8)
  codeword : List (BitVec 8)
  orig : List Int
  noisy : List Int
  symb : List Fl
  mem : OSD.Mem

variable (F : Rounding)

/-- tests/osd_regression_test.cc:90-148: one trial with the bytes `message`.  `F` is the format of `double`, `cand` the array of candidates of the decoder; the `int8_t` `noisy[i]` are bit
patterns for the decoder of ordered statistics. -/
def osdTrial (w : Nat) (T : Ops (Val M) (Fin (2 ^ M - 1))) (NR N K O : Nat) (genmat gen : List (BitVec 8)) (im : List (Val M)) (A : OsdArrays) (cand : List (BitVec 8)) (fact : Fl)
    (noise : Nat → Fl) (message : List (BitVec 8)) : Option OsdCounts := do
  let (codeword, parity) ← osdEncode N K genmat gen A.codeword message A.parity
  let orig ← bpskBits N codeword A.orig
  let noisy ← channel F N fact noise orig A.noisy A.symb
  let (unique, decoded, _, _) ← OSD.decode N K O A.mem cand A.decoded (noisy.map (BitVec.ofInt 8)) genmat
  let awgn ← wrongSigns N noisy orig
  let erasures ← erased N noisy
  let (uncorrected, ambiguity, frame) ← osdJudge N unique decoded codeword
  let bch ← bchErrors w T NR N K im noisy message parity codeword A.erasures
  return ⟨awgn, erasures, uncorrected, ambiguity, frame, bch⟩

/-- tests/osld_regression_test.cc:122-134: if a word of the list is the codeword, it becomes the first word, and the result counts as unique.  `break` is a flag. -/
def askOracle (N L : Nat) (codeword : List (BitVec 8)) (unique : Bool) (decoded : List (BitVec 8)) : Option (Bool × List (BitVec 8)) := do
  let NW := (N + 7) / 8
  let r ← forUp 0 L (false, unique, decoded) fun j (s : Bool × Bool × List (BitVec 8)) =>
    if s.1 then some s
    else do
      let found ← forUp 0 N true fun i found => do
        let x ← getBe s.2.2 ((8 * (NW * j) + i : Nat) : Int)
        let y ← getBe codeword (i : Int)
        return found && x == y
      if found then do
        let d ← forUp 0 (if j = 0 then 0 else NW) s.2.2 fun i d => do
          let x ← rd d (NW * j + i)
          wr d i x
        return (true, true, d)
      else some s
  return r.2

/-- tests/osld_regression_test.cc:122-134: the constant `oracle` of line 19 decides whether the list is searched for the codeword. -/
def pick (N L : Nat) (oracle : Bool) (codeword : List (BitVec 8)) (unique : Bool) (decoded : List (BitVec 8)) : Option (Bool × List (BitVec 8)) :=
  if oracle then askOracle N L codeword unique decoded else some (unique, decoded)

/-- tests/osld_regression_test.cc:93-166: one trial; `oracle` is the constant of the test, `lst` are the members of the list decoder, `rank` is the uninitialised array. -/
def osldTrial (w : Nat) (T : Ops (Val M) (Fin (2 ^ M - 1))) (NR N K O L : Nat) (oracle : Bool) (genmat gen : List (BitVec 8)) (im : List (Val M)) (A : OsdArrays) (lst : OSD.Lst)
    (rank : List Nat) (fact : Fl) (noise : Nat → Fl) (message : List (BitVec 8)) : Option OsdCounts := do
  let (codeword, parity) ← osdEncode N K genmat gen A.codeword message A.parity
  let orig ← bpskBits N codeword A.orig
  let noisy ← channel F N fact noise orig A.noisy A.symb
  let (rank, decoded, _, _) ← OSD.decodeL N K O L A.mem lst rank A.decoded (noisy.map (BitVec.ofInt 8)) genmat
  let r0 ← rd rank 0
  let r1 ← rd rank 1
  let (unique, decoded) ← pick N L oracle codeword (r0 != r1) decoded
  let awgn ← wrongSigns N noisy orig
  let erasures ← erased N noisy
  let (uncorrected, ambiguity, frame) ← osdJudge N unique decoded codeword
  let bch ← bchErrors w T NR N K im noisy message parity codeword A.erasures
  return ⟨awgn, erasures, uncorrected, ambiguity, frame, bch⟩

end Verif.Trials
