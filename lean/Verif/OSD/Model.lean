import Verif.Bits.Model
import Verif.Sort.Model
import Verif.BCH.Model
/- Model of osd.hh: `LinearEncoder`, `BoseChaudhuriHocquenghemGenerator`, `OrderedStatisticsDecoder`
and `OrderedStatisticsListDecoder`.

`int8_t` arrays are lists of `BitVec 8`; `x ^= y` and `x & y` on `int8_t` are the bitwise operations
(the promotion to `int` and the truncation back do not change them).  `int` sums are unbounded: with
`N ≤ 32768`, which the `int16_t` permutation requires, a metric is at most `127 * 32768` in absolute
value.  `S = sizeof(size_t) = 8`.  A `break` is a flag after which the remaining iterations do nothing. -/
namespace Verif.OSD
open Verif.Bits Verif.BCH

abbrev I8 := BitVec 8

/-! ## LinearEncoder -/

/-- osd.hh:19-27 `LinearEncoder<N, K>::operator()`.  `get_be_bit(message, 0) & genmat[i]` is an `int`,
converted to `bool`. -/
def linEncode (N K : Nat) (codeword message : List (BitVec 8)) (genmat : List I8) :
    Option (List (BitVec 8)) := do
  let codeword ← forUp 0 N codeword fun i codeword => do
    let m ← getBe message (0 : Nat)
    let g ← rd genmat i
    setBe codeword i (((if m then 1#8 else 0#8) &&& g) != 0#8)
  forUp 1 K codeword fun j codeword => do
    let m ← getBe message j
    if m then
      forUp 0 N codeword fun i codeword => do
        let g ← rd genmat (N * j + i)
        xorBe codeword i (g != 0#8)
    else some codeword

/-! ## BoseChaudhuriHocquenghemGenerator -/

/-- osd.hh:51-55: coefficient `i` is `genpoly[NP-i]`; the index is an `int` and may be -1. -/
def byteStore (NP : Nat) : Store (List I8) where
  get g i := do
    let x ← rdZ g ((NP : Int) - i)
    return x != 0#8
  set g i v := wrZ g ((NP : Int) - i) (if v then 1#8 else 0#8)
  xor g i v := do
    let x ← rdZ g ((NP : Int) - i)
    wrZ g ((NP : Int) - i) (x ^^^ (if v then 1#8 else 0#8))

/-- osd.hh:42-58: the loop over the minimal polynomials (`int`, so below `2^31`).  Lines 45-48 compute
the degree as in the encoder, lines 50-56 multiply in place. -/
def polyLoop (NP : Nat) : List Nat → List I8 × Nat → Option (List I8 × Nat)
  | [], s => some s
  | m :: ms, (g, gd) => do
    assertUB (0 < m)
    assertUB (m.testBit 0 = true)
    let md ← degPacked m
    assertUB (gd + md ≤ NP + 1)
    let g ← mulGen (byteStore NP) m gd md g
    polyLoop NP ms (g, gd + md)

/-- osd.hh:35-68 `poly(genpoly, minimal_polynomials)`; the block `if (0)` is dead code. -/
def poly (NP : Nat) (g : List I8) (polys : List Nat) : Option (List I8) := do
  let g ← forUp 0 NP g fun i g => wr g i 0#8
  let g ← wr g NP 1#8
  let (g, gd) ← polyLoop NP polys (g, 1)
  assertUB (gd = NP + 1)
  let x ← rd g 0
  assertUB (x ≠ 0#8)
  let y ← rd g NP
  assertUB (y ≠ 0#8)
  return g

/-- osd.hh:72-81: the first row is completed with zeros, row `j` is the first row shifted by `j`. -/
def matRows (N K : Nat) (g : List I8) : Option (List I8) := do
  let NP := N - K
  let g ← forUp (NP + 1) N g fun i g => wr g i 0#8
  forUp 1 K g fun j g => do
    let g ← forUp 0 j g fun i g => wr g (N * j + i) 0#8
    let g ← forUp 0 (NP + 1) g fun i g => do
      let x ← rd g i
      wr g ((N + 1) * j + i) x
    forUp (j + NP + 1) N g fun i g => wr g (N * j + i) 0#8

/-- osd.hh:82-87 with `w = N`, `n = N` and osd.hh:143-150, 287-294 `systematic()` with `w = W`, `n = N`:
row `k` is added to the rows `j < k` with a non-zero entry in column `k`. -/
def backSub (w n K : Nat) (g : List I8) : Option (List I8) :=
  forDown 1 (K - 1) g fun k g =>
    forUp 0 k g fun j g => do
      let p ← rd g (w * j + k)
      if p ≠ 0#8 then
        forUp k n g fun i g => do
          let x ← rd g (w * j + i)
          let y ← rd g (w * k + i)
          wr g (w * j + i) (x ^^^ y)
      else some g

/-- osd.hh:69-96 `matrix(genmat, systematic, minimal_polynomials)`; the block `if (0)` is dead code. -/
def matrix (N K : Nat) (g : List I8) (systematic : Bool) (polys : List Nat) : Option (List I8) := do
  let g ← poly (N - K) g polys
  let g ← matRows N K g
  if systematic then backSub N N K g else some g

/-! ## The decoders -/

/-- osd.hh:102-103, 245-246: `W`, the length rounded up to a multiple of 8. -/
def W (N : Nat) : Nat := (N + 7) / 8 * 8

/-- `std::swap(a[i], a[j])` -/
def swapAt {α : Type} (a : List α) (i j : Nat) : Option (List α) := do
  let x ← rd a i
  let y ← rd a j
  let a ← wr a i y
  wr a j x

/-- osd.hh:115-116, 129-130 (259-260, 273-274): `for (i = k; j != k && i < N; ++i)
std::swap(G[W*j+i], G[W*k+i])` -/
def swapRows (N : Nat) (G : List I8) (j k : Nat) : Option (List I8) :=
  if j ≠ k then forUp k N G fun i G => swapAt G (W N * j + i) (W N * k + i) else some G

/-- osd.hh:112-119 (256-263): look for a pivot in column `k`. -/
def pivotHere (N K k : Nat) (G : List I8) : Option (List I8) := do
  let r ← forUp k K (false, G) fun j (s : Bool × List I8) =>
    if s.1 then some s
    else do
      let x ← rd s.2 (W N * j + k)
      if x ≠ 0#8 then do
        let G ← swapRows N s.2 j k
        return (true, G)
      else return (false, s.2)
  return r.2

/-- osd.hh:123-133 (267-277): look for a pivot in column `j`. -/
def pivotThere (N K k j : Nat) (s : List I8 × List Nat) : Option (List I8 × List Nat) := do
  let r ← forUp k K (false, s) fun h (t : Bool × List I8 × List Nat) =>
    if t.1 then some t
    else do
      let x ← rd t.2.1 (W N * h + j)
      if x ≠ 0#8 then do
        let perm ← swapAt t.2.2 k j
        let G ← forUp 0 K t.2.1 fun i G => swapAt G (W N * i + k) (W N * i + j)
        let G ← swapRows N G h k
        return (true, G, perm)
      else return (false, t.2)
  return r.2

/-- osd.hh:122-134 (266-278): `for (j = k + 1; !G[W*k+k] && j < N; ++j)` -/
def pivotSearch (N K k : Nat) (s : List I8 × List Nat) : Option (List I8 × List Nat) :=
  forUp (k + 1) N s fun j s => do
    let x ← rd s.1 (W N * k + k)
    if x = 0#8 then pivotThere N K k j s else some s

/-- osd.hh:136-140 (280-284): zero out column entries below the pivot. -/
def clearBelow (N K k : Nat) (G : List I8) : Option (List I8) :=
  forUp (k + 1) K G fun j G => do
    let p ← rd G (W N * j + k)
    if p ≠ 0#8 then
      forUp k N G fun i G => do
        let x ← rd G (W N * j + i)
        let y ← rd G (W N * k + i)
        wr G (W N * j + i) (x ^^^ y)
    else some G

/-- osd.hh:109-142 (253-286) `row_echelon()` -/
def rowEchelon (N K : Nat) (s : List I8 × List Nat) : Option (List I8 × List Nat) :=
  forUp 0 K s fun k s => do
    let G ← pivotHere N K k s.1
    let s ← pivotSearch N K k (G, s.2)
    let x ← rd s.1 (W N * k + k)
    assertUB (x ≠ 0#8)
    let G ← clearBelow N K k s.1
    return (G, s.2)

/-- osd.hh:151-158 (295-302) `encode()` -/
def encode (N K : Nat) (G cw : List I8) : Option (List I8) := do
  let cw ← forUp K N cw fun i cw => do
    let c ← rd cw 0
    let g ← rd G i
    wr cw i (c &&& g)
  forUp 1 K cw fun j cw =>
    forUp K N cw fun i cw => do
      let x ← rd cw i
      let c ← rd cw j
      let g ← rd G (W N * j + i)
      wr cw i (x ^^^ (c &&& g))

/-- osd.hh:159-163 (303-307) `flip(j)` -/
def flip (N : Nat) (G : List I8) (j : Nat) (cw : List I8) : Option (List I8) :=
  forUp 0 (W N) cw fun i cw => do
    let x ← rd cw i
    let g ← rd G (W N * j + i)
    wr cw i (x ^^^ g)

/-- osd.hh:164-170 (308-314) `metric` -/
def metric (N : Nat) (hard soft : List I8) : Option Int :=
  forUp 0 (W N) (0 : Int) fun i sum => do
    let h ← rd hard i
    let s ← rd soft i
    return sum + (1 - 2 * h.toInt) * s.toInt

/-- `std::max<int8_t>(x, -127)` -/
def clamp (x : I8) : I8 := if x.toInt < -127 then BitVec.ofInt 8 (-127) else x

/-- `int8_t` of `std::abs` of an `int8_t` -/
def abs8 (x : I8) : I8 := BitVec.ofInt 8 (x.toInt.natAbs : Int)

/-- osd.hh:104-108 (247-252): the members both decoders share. -/
structure Mem where
  G : List I8
  codeword : List I8
  softperm : List I8
  perm : List Nat
  tmp : List Nat

/-- osd.hh:174-190 (334-350): both decoders start with the same statements, up to `encode()`.
The elements of `perm` are `int16_t`: an `i` that does not fit would become a negative index.
The comparator reads `softperm` at elements of `perm` only, which are below `N`, so its reads are
rendered with a default. -/
def prepare (N K : Nat) (M : Mem) (soft genmat : List I8) : Option Mem := do
  let perm ← forUp 0 N M.perm fun i p => do
    assertUB (i < 2 ^ 15)
    wr p i i
  let sp ← forUp 0 N M.softperm fun i sp => do
    let s ← rd soft i
    wr sp i (abs8 (clamp s))
  let (perm, tmp) ← Sort.mergeSort (fun a b => decide ((sp.getD b 0).toInt < (sp.getD a 0).toInt)) 32 M.tmp perm N
  let G ← forUp 0 K M.G fun j G =>
    forUp 0 N G fun i G => do
      let p ← rd perm i
      let x ← rd genmat (N * j + p)
      wr G (W N * j + i) x
  let (G, perm) ← rowEchelon N K (G, perm)
  let G ← backSub (W N) N K G
  let sp ← forUp 0 N sp fun i sp => do
    let p ← rd perm i
    let s ← rd soft p
    wr sp i (clamp s)
  let sp ← forUp N (W N) sp fun i sp => wr sp i 0#8
  let cw ← forUp 0 K M.codeword fun i cw => do
    let s ← rd sp i
    wr cw i (if s.toInt < 0 then 1#8 else 0#8)
  let cw ← encode N K G cw
  return ⟨G, cw, sp, perm, tmp⟩

/-- osd.hh:206-235 (358-387): the six nested loops over `a < b < c < d < e < f < K`, the loop at
nesting level `lvl` being disabled if `O < lvl`; `depth` counts the levels below.  `fl` is `flip` and
`upd` is `update`, acting on the state of the search. -/
def nest {σ : Type} (fl : Nat → σ → Option σ) (upd : σ → Option σ) (K O : Nat) :
    Nat → Nat → Nat → σ → Option σ
  | 0, _, _, s => some s
  | depth + 1, lvl, lo, s =>
    if O ≥ lvl then
      forUp lo K s fun a s => do
        let s ← fl a s
        let s ← upd s
        let s ← nest fl upd K O depth (lvl + 1) (a + 1) s
        fl a s
    else some s

/-- State of the search of `OrderedStatisticsDecoder`. -/
structure Best where
  codeword : List I8
  candidate : List I8
  best : Int
  next : Int

/-- osd.hh:195-205 the lambda `update` -/
def update (N : Nat) (sp : List I8) (s : Best) : Option Best := do
  let met ← metric N s.codeword sp
  if met > s.best then do
    let cand ← forUp 0 N s.candidate fun i cand => do
      let x ← rd s.codeword i
      wr cand i x
    return ⟨s.codeword, cand, met, s.best⟩
  else if met > s.next then return { s with next := met }
  else return s

/-- osd.hh:172-239 `OrderedStatisticsDecoder<N, K, O>::operator()`: the output bits and the return
value; `M` and `cand` are the members before the call. -/
def decode (N K O : Nat) (M : Mem) (cand : List I8) (hard : List (BitVec 8)) (soft genmat : List I8) :
    Option (Bool × List (BitVec 8) × Mem × List I8) := do
  let M ← prepare N K M soft genmat
  let cand ← forUp 0 N cand fun i cand => do
    let x ← rd M.codeword i
    wr cand i x
  let best ← metric N M.codeword M.softperm
  let s ← nest (fun a (s : Best) => do
      let cw ← flip N M.G a s.codeword
      return { s with codeword := cw })
    (update N M.softperm) K O 6 1 0 ⟨M.codeword, cand, best, -1⟩
  let hard ← forUp 0 N hard fun i hard => do
    let p ← rd M.perm i
    let x ← rd s.candidate i
    setBe hard p (x != 0#8)
  return (decide (s.best ≠ s.next), hard, { M with codeword := s.codeword }, s.candidate)

/-- State of the search of `OrderedStatisticsListDecoder`. -/
structure Lst where
  codeword : List I8
  candidate : List I8
  score : List Int
  cperm : List Nat

/-- osd.hh:324-327: the loop moving smaller scores down; returns the final `j`. -/
def sink (met : Int) : Nat → List Int × List Nat → Option (Nat × List Int × List Nat)
  | 0, s => some (0, s)
  | j + 1, s => do
    let x ← rd s.1 j
    if met > x then do
      let score ← wr s.1 (j + 1) x
      let c ← rd s.2 j
      let cperm ← wr s.2 (j + 1) c
      sink met j (score, cperm)
    else some (j + 1, s)

/-- osd.hh:315-330 `update()`; `L ≥ 1`. -/
def updateL (N L : Nat) (sp : List I8) (s : Lst) : Option Lst := do
  let met ← metric N s.codeword sp
  let last ← rd s.score (L - 1)
  if met ≤ last then return s
  else do
    let pos ← rd s.cperm (L - 1)
    let cand ← forUp 0 (W N) s.candidate fun i cand => do
      let x ← rd s.codeword i
      wr cand (pos * W N + i) x
    let (j, score, cperm) ← sink met (L - 1) (s.score, s.cperm)
    let score ← wr score j met
    let cperm ← wr cperm j pos
    return ⟨s.codeword, cand, score, cperm⟩

/-- osd.hh:388-394: the ranks and the output bits. -/
def emit (N L : Nat) (perm : List Nat) (s : Lst) (rank : List Nat) (hard : List (BitVec 8)) :
    Option (Nat × List Nat × List (BitVec 8)) :=
  forUp 0 L (0, rank, hard) fun j (t : Nat × List Nat × List (BitVec 8)) => do
    let r ← (if j > 0 then do
        let x ← rd s.score (j - 1)
        let y ← rd s.score j
        return (if x ≠ y then t.1 + 1 else t.1)
      else some t.1)
    let rank ← wr t.2.1 j r
    let c ← rd s.cperm j
    let hard ← forUp 0 N t.2.2 fun i hard => do
      let p ← rd perm i
      let x ← rd s.candidate (c * W N + i)
      setBe hard ((8 * (j * ((N + 7) / 8)) + p : Nat) : Int) (x != 0#8)
    return (r, rank, hard)

/-- osd.hh:332-395 `OrderedStatisticsListDecoder<N, K, O, L>::operator()`: the ranks, the output bits
and the members afterwards; `M` and `s0` are the members before the call.  `hard+j*((N+7)/8)` is
rendered as an offset of 8 bits per byte in the position. -/
def decodeL (N K O L : Nat) (M : Mem) (s0 : Lst) (rank : List Nat) (hard : List (BitVec 8))
    (soft genmat : List I8) : Option (List Nat × List (BitVec 8) × Mem × Lst) := do
  let M ← prepare N K M soft genmat
  let cand ← forUp 0 (W N) s0.candidate fun i cand => do
    let x ← rd M.codeword i
    wr cand i x
  let met ← metric N M.codeword M.softperm
  let score ← wr s0.score 0 met
  let score ← forUp 1 L score fun i score => wr score i (-1)
  let cperm ← forUp 0 L s0.cperm fun i cperm => wr cperm i i
  let s ← nest (fun a (s : Lst) => do
      let cw ← flip N M.G a s.codeword
      return { s with codeword := cw })
    (updateL N L M.softperm) K O 6 1 0 ⟨M.codeword, cand, score, cperm⟩
  let (_, rank, hard) ← emit N L M.perm s rank hard
  return (rank, hard, { M with codeword := s.codeword }, s)

end Verif.OSD
