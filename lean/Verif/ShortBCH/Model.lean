import Verif.Core
/- Model of short_bch_code_encoder.hh and short_bch_code_decoder.hh.  Words are naturals (every word the
code handles is a nonnegative `int`; leaving the range of `int` is checked and gives `none`); results
that may be -1 and metrics are `Int`.  `P = N - K`, `W = 1 << K`, `R = 1 << P`. -/
namespace Verif.ShortBCH

/-- A nonnegative `int`: left shifts and products that leave the range are undefined behaviour. -/
def int31 (x : Nat) : Option Nat := if x < 2 ^ 31 then some x else none

/-- short_bch_code_encoder.hh:19-26, short_bch_code_decoder.hh:22-29 `modgen`. -/
def modgen (P K G inp : Nat) : Option Nat :=
  forDown 0 K inp fun i inp => do
    let tmp := inp >>> (i + P)
    let g ← int31 (G <<< i)
    return inp ^^^ ((tmp &&& 1) * g)

/-- short_bch_code_encoder.hh:30-31, short_bch_code_decoder.hh:43-44: the table of parities; the entries are
`short`. -/
def mkPar (P K G : Nat) (par : List Nat) : Option (List Nat) :=
  forUp 0 (2 ^ K) par fun i par => do
    let x ← int31 (i <<< P)
    let m ← modgen P K G x
    assertUB (m < 2 ^ 15)
    wr par i m

/-- short_bch_code_encoder.hh:33-36 `operator()(int)`. -/
def encode (P : Nat) (par : List Nat) (msg : Nat) : Option Nat := do
  let x ← int31 (msg <<< P)
  let p ← rd par msg
  return x ||| p

/-- short_bch_code_encoder.hh:37-43 `operator()(int8_t *, int)`: the soft codeword and the word. -/
def encodeSoft (N P : Nat) (par : List Nat) (code : List Int) (msg : Nat) : Option (List Int × Nat) := do
  let cw ← encode P par msg
  let code ← forUp 0 N code fun i code => wr code i (1 - 2 * (((cw >>> i) &&& 1 : Nat) : Int))
  return (code, cw)

/-- short_bch_code_decoder.hh:48, 50, 52: `err[modgen(e)] = e`. -/
def setErr (P K G e : Nat) (err : List Nat) : Option (List Nat) := do
  let m ← modgen P K G e
  wr err m e

/-- short_bch_code_decoder.hh:51-53: the loop over `c`, from `1 << (l - 1)` down to `1`. -/
def errC (P K G ab l : Nat) (err : List Nat) : Option (List Nat) :=
  forDown 0 l err fun i err => setErr P K G (ab ||| 1 <<< i) err

/-- short_bch_code_decoder.hh:49-54: the loop over `b`, from `1 << (j - 1)` down to `1`. -/
def errB (P K G T a j : Nat) (err : List Nat) : Option (List Nat) :=
  forDown 0 j err fun l err => do
    let err ← setErr P K G (a ||| 1 <<< l) err
    if T ≥ 3 then errC P K G (a ||| 1 <<< l) l err else some err

/-- short_bch_code_decoder.hh:47-55: the loop over `a`, from `1 << (N - 1)` down to `1`. -/
def errA (N P K G T : Nat) (err : List Nat) : Option (List Nat) :=
  forDown 0 N err fun j err => do
    let err ← setErr P K G (1 <<< j) err
    if T ≥ 2 then errB P K G T (1 <<< j) j err else some err

/-- short_bch_code_decoder.hh:41-56 the constructor: `err` and `par`, starting from arbitrary content. -/
def mkDec (N K G T : Nat) (err par : List Nat) : Option (List Nat × List Nat) := do
  let P := N - K
  let par ← mkPar P K G par
  let err ← forUp 0 (2 ^ P) err fun i err => wr err i 0
  let err ← if T ≥ 1 then errA N P K G T err else some err
  return (err, par)

/-- short_bch_code_decoder.hh:57-62 `operator()(int)`. -/
def hard (P : Nat) (err par : List Nat) (inp : Nat) : Option Int := do
  let p ← rd par (inp >>> P)
  let syn := (p ^^^ inp) &&& (2 ^ P - 1)
  let pat ← rd err syn
  return if pat ≠ 0 ∨ syn = 0 then ((inp ^^^ pat : Nat) : Int) else -1

/-- The range check of an `int`. -/
def chk (x : Int) : Option Int := if -2 ^ 31 ≤ x ∧ x < 2 ^ 31 then some x else none

/-- short_bch_code_decoder.hh:30-39 `metric`; the left shift of `hard` is taken to wrap (as in C++20), so that
`(hard << (31 - i)) >> 31` is minus bit `i` of `hard`. -/
def metric (N : Nat) (soft : List Int) (hard : Int) : Option Int :=
  if hard < 0 then some (-1)
  else forUp 0 N (0 : Int) fun i sum => do
    let s ← rd soft i
    chk (sum + -(((hard.toNat >>> i) &&& 1 : Nat) : Int) * s)

/-- short_bch_code_decoder.hh:75-86 `update`; the state is `word`, `best`, `next`. -/
def update (N : Nat) (code : List Int) (s : Int × Int × Int) (hard : Int) : Option (Int × Int × Int) :=
  if hard = s.1 then some s
  else do
    let met ← metric N code hard
    return if met > s.2.1 then (hard, met, s.2.1) else if met > s.2.2 then (s.1, s.2.1, met) else s

/-- short_bch_code_decoder.hh:65-67: the hard decision. -/
def sign (N : Nat) (code : List Int) : Option Nat :=
  forUp 0 N 0 fun i cw => do
    let c ← rd code i
    return cw ||| (if c < 0 then 1 else 0) <<< i

/-- `std::abs(code[i])`. -/
def absAt (code : List Int) (i : Nat) : Option Int := do
  let c ← rd code i
  return if c < 0 then -c else c

/-- short_bch_code_decoder.hh:100-102: `while (j < L && abs(code[worst[j]]) < abs(code[k])) ++j;` counting up
from `j` for at most `n` steps. -/
def findPos (code : List Int) (worst : List Nat) (k : Nat) : Nat → Nat → Option Nat
  | 0, j => some j
  | n + 1, j => do
    let w ← rd worst j
    let a ← absAt code w
    let b ← absAt code k
    if a < b then findPos code worst k n (j + 1) else return j

/-- short_bch_code_decoder.hh:103-106: the insertion at position `j`. -/
def insertAt (L : Nat) (worst : List Nat) (j k : Nat) : Option (List Nat) := do
  let worst ← forDown (j + 1) (L - 1 - j) worst fun i worst => do
    let v ← rd worst (i - 1)
    wr worst i v
  if j < L then wr worst j k else some worst

/-- short_bch_code_decoder.hh:97-107: the positions of the least reliable symbols. -/
def findWorst (N L : Nat) (code : List Int) : Option (List Nat) :=
  forUp 0 N (List.replicate L 0) fun k worst => do
    let j ← findPos code worst k L 0
    insertAt L worst j k

/-- short_bch_code_decoder.hh:109-111: the test pattern with number `j`. -/
def pattern (L : Nat) (worst : List Nat) (j : Nat) : Option Nat :=
  forUp 0 L 0 fun i tmp => do
    let w ← rd worst i
    let b ← int31 (((j >>> i) &&& 1) <<< w)
    return tmp ||| b

/-- short_bch_code_decoder.hh:96-115 the Chase algorithm. -/
def chase (N P L : Nat) (err par : List Nat) (code : List Int) (cw : Nat) (s : Int × Int × Int) : Option (Int × Int × Int) := do
  let worst ← findWorst N L code
  forUp 1 (2 ^ L) s fun j s => do
    let tmp ← pattern L worst j
    let dec ← hard P err par (cw ^^^ tmp)
    update N code s dec

/-- short_bch_code_decoder.hh:117-122 the search over all codewords. -/
def search (N P K : Nat) (par : List Nat) (code : List Int) (s : Int × Int × Int) : Option (Int × Int × Int) :=
  forUp 0 (2 ^ K) s fun msg s => do
    let enc ← encode P par msg
    update N code s enc

/-- short_bch_code_decoder.hh:63-126 `operator()(const int8_t *)`. -/
def soft (N K T : Nat) (err par : List Nat) (code : List Int) : Option Int := do
  let P := N - K
  let cw ← sign N code
  let word ← hard P err par cw
  let best ← metric N code word
  let s ← if K > 4 then chase N P T err par code cw (word, best, -2) else some (word, best, -2)
  let s ← if K ≤ 4 then search N P K par code s else some s
  return if s.2.1 = s.2.2 then -1 else s.1

end Verif.ShortBCH
