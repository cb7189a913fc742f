import Verif.Polar.Model
import Verif.Sort.Model
import Verif.Hadamard.Model
/- Model of polar_list_decoder.hh and of the decoder of polar_parity_aided.hh, for
`TYPE = SIMD<int8_t, L>`: `PATH = int`, `MAP = SIMD<uint8_t, L>`.

A register with `L` lanes is the function that gives its lanes.  A loop
`for (int k = 0; k < TYPE::SIZE; ++k) reg.v[k] = f(k)` over a register is `tab f`. -/
namespace Verif.Polar
open Hadamard (chk)
variable {L : Nat}

/-- `SIMD<int8_t, L>` -/
abbrev Reg (L : Nat) := Fin L → Int
/-- `SIMD<uint8_t, L>` -/
abbrev LMap (L : Nat) := Fin L → Nat

/-- A register all of whose lanes are computed by `f`. -/
def tab {α : Type} (f : Fin L → Option α) : Option (Fin L → α) :=
  if h : ∀ k, (f k).isSome then some fun k => (f k).get (h k) else none

/-- `reg.v[k]` -/
def lane {α : Type} (r : Fin L → α) (k : Nat) : Option α := if h : k < L then some (r ⟨k, h⟩) else none

/-- simd.hh:1408-1415, 1444-1451 (the portable `vshuf`): `b.v[i] < WIDTH ? a.v[b.v[i]] : 0`. -/
def shuf {α : Type} (z : α) (a : Fin L → α) (b : LMap L) : Fin L → α := fun k => if h : b k < L then a ⟨b k, h⟩ else z

/-- What the list decoder works on besides the scratch arrays: `metric`, `message`, `maps`, `*count`. -/
structure LX (L : Nat) where
  metric : List Int
  message : List (Reg L)
  maps : List (LMap L)
  count : Nat

/-- polar_list_decoder.hh:26-28, 45-47 (polar_parity_aided.hh:74-76, 93-95): one soft value of a frozen
position. -/
def charge (v : Reg L) (metric : List Int) : Option (List Int) :=
  forUp 0 L metric fun k metric => do
    let s ← lane v k
    if s < 0 then do
      let m ← rd metric k
      let m ← chk (m - s)
      wr metric k m
    else some metric

/-- polar_list_decoder.hh:29-31, 48-50, polar_parity_aided.hh:77-79, 96-98: `map.v[k] = k`. -/
def idMap (L : Nat) : LMap L := fun k => k.val % 256

/-- polar_list_decoder.hh:21-33, 42-52 `PolarListNode::rate0(metric, hard + off, soft)` (the two versions
differ only in that the loops over `i` are written out for `M = 0`). -/
def listRate0 (M off : Nat) (s : Mem (Reg L) (LX L)) : Option (Mem (Reg L) (LX L) × LMap L) := do
  let hard ← forUp 0 (2 ^ M) s.hard fun i hard => wr hard (off + i) (phV L).one
  let metric ← forUp 0 (2 ^ M) s.x.metric fun i metric => do
    let v ← rd s.soft (i + 2 ^ M)
    charge v metric
  return ({ s with hard := hard, x := { s.x with metric := metric } }, idMap L)

/-- polar_list_decoder.hh:56-63, polar_parity_aided.hh:104-111: the metrics of the `2 * L` continuations. -/
def fork (sft : Reg L) (metric : List Int) : Option (List Int) := do
  let f ← forUp 0 L (List.replicate (2 * L) 0) fun k f => do
    let m ← rd metric k
    let f ← wr f (2 * k) m
    wr f (2 * k + 1) m
  forUp 0 L f fun k f => do
    let s ← lane sft k
    if s < 0 then do
      let m ← rd f (2 * k)
      let m ← chk (m - s)
      wr f (2 * k) m
    else do
      let m ← rd f (2 * k + 1)
      let m ← chk (m + s)
      wr f (2 * k + 1) m

/-- polar_list_decoder.hh:64-73, polar_parity_aided.hh:121-130: the `L` best continuations; the result is the
metrics, `map` and `hrd`.  The uninitialised array `perm` is taken to be zero (its contents do not matter:
C16_indices). -/
def prune (f metric : List Int) : Option (List Int × LMap L × Reg L) := do
  let r ← Verif.Sort.insertionSortIdx (fun a b => decide (a < b)) id (List.replicate (2 * L) 0) f (2 * L)
  let metric ← forUp 0 L metric fun k metric => do
    let m ← rd r.2 k
    wr metric k m
  let map ← tab fun k : Fin L => do
    let p ← rd r.1 k
    return (p >>> 1) % 256
  let hrd ← tab fun k : Fin L => do
    let p ← rd r.1 k
    return 1 - 2 * ((p &&& 1 : Nat) : Int)
  return (metric, map, hrd)

/-- polar_list_decoder.hh:53-79 without the accesses to `hard` and `soft`. -/
def listFork (x : LX L) (sft : Reg L) : Option (LX L × Reg L × LMap L) := do
  let f ← fork sft x.metric
  let r ← prune f x.metric
  let message ← wr x.message x.count r.2.2
  let maps ← wr x.maps x.count r.2.1
  return (⟨r.1, message, maps, x.count + 1⟩, r.2.2, r.2.1)

/-- polar_list_decoder.hh:53-79 `PolarListNode<TYPE, 0>::rate1(metric, message, maps, count, hard + off, soft)`;
there is no `rate1` for larger nodes (and no call of it). -/
def listRate1 (M off : Nat) (s : Mem (Reg L) (LX L)) : Option (Mem (Reg L) (LX L) × LMap L) :=
  match M with
  | 0 => do
    let sft ← rd s.soft 1
    let r ← listFork s.x sft
    let hard ← wr s.hard off r.2.1
    return ({ s with hard := hard, x := r.1 }, r.2.2)
  | _ => none

/-- The recursion of polar_list_decoder.hh. -/
def listWalk (L : Nat) : Walk (Reg L) (LMap L) (LX L) :=
  ⟨(phV L).prod, (phV L).madd, (phV L).qmul, shuf 0, shuf 0, false, listRate0, listRate1⟩

/-- polar_list_decoder.hh:288-292, polar_parity_aided.hh:354-357: `metric` starts with 0, 1000000, 1000000, ... -/
def metric0 (L : Nat) (metric : List Int) : Option (List Int) := do
  let metric ← wr metric 0 0
  forUp 1 L metric fun k metric => wr metric k 1000000

/-- polar_list_decoder.hh:313-317, polar_parity_aided.hh:380-384: the loop over `rank`.  The state is the array
and `r`. -/
def rankLoop (L : Nat) (metric : List Int) (rank : List Nat) : Option (List Nat) := do
  let s ← forUp 0 L (rank, 0) fun i (s : List Nat × Nat) => do
    let r ← (if 0 < i then do
        let a ← rd metric (i - 1)
        let b ← rd metric i
        return if a ≠ b then s.2 + 1 else s.2
      else some s.2)
    let rank ← wr s.1 i r
    return (rank, r)
  return s.1

/-- polar_list_decoder.hh:313, polar_parity_aided.hh:380 `rank != nullptr && ...` -/
def rankOpt (L : Nat) (metric : List Int) (rank : Option (List Nat)) : Option (Option (List Nat)) :=
  match rank with
  | none => some none
  | some a => do
    let b ← rankLoop L metric a
    return some b

/-- polar_list_decoder.hh:318-322, polar_parity_aided.hh:385-389: the loop that sorts the message symbols into
the final lanes. -/
def backLoop (message : List (Reg L)) (maps : List (LMap L)) (count : Nat) : Option (List (Reg L)) := do
  let acc ← rdZ maps ((count : Int) - 1)
  let s ← forDown 0 (count - 1) (message, acc) fun i (s : List (Reg L) × LMap L) => do
    let m ← rd s.1 i
    let message ← wr s.1 i (shuf 0 m s.2)
    let mp ← rd maps i
    return (message, shuf 0 mp s.2)
  return s.1

/-- `vdup<TYPE>(codeword[i])` in the copy loop, polar_list_decoder.hh:293-295, polar_parity_aided.hh:358-360. -/
def dupLoop (level : Nat) (codeword : List Int) (soft : List (Reg L)) : Option (List (Reg L)) :=
  forUp 0 (2 ^ level) soft fun i soft => do
    let v ← rd codeword i
    wr soft (2 ^ level + i) (fun _ => v)

/-- polar_list_decoder.hh:285-323 `PolarListDecoder<TYPE, MAX_M>::operator()`; the members `soft`, `hard` and
`maps` are passed in with any contents, `metric` is the uninitialised local array.  The result is `rank`
(unless null), `message`, and the final `metric`, which the caller does not see. -/
def listDecode (MAX_M : Nat) (soft hard : List (Reg L)) (maps : List (LMap L)) (metric : List Int) (rank : Option (List Nat))
    (message : List (Reg L)) (codeword : List Int) (frozen : List Nat) (level : Nat) :
    Option (Option (List Nat) × List (Reg L) × List Int) := do
  assertUB (level ≤ MAX_M)
  let metric ← metric0 L metric
  let soft ← dupLoop level codeword soft
  let r ← treeTop (listWalk L) 16 frozen level ⟨⟨metric, message, maps, 0⟩, hard, soft⟩
  let rank ← rankOpt L r.1.x.metric rank
  let message ← backLoop r.1.x.message r.1.x.maps r.1.x.count
  return (rank, message, r.1.x.metric)

/-! ### The parity-aided decoder -/

/-- What the parity-aided decoder works on besides the scratch arrays: `metric`, `message`, `maps`, `*index`,
`*parity`, `*count`. -/
structure PX (L : Nat) where
  metric : List Int
  message : List (Reg L)
  maps : List (LMap L)
  index : Nat
  parity : Reg L
  count : Nat

/-- polar_parity_aided.hh:69-81, 90-100 -/
def parRate0 (M off : Nat) (s : Mem (Reg L) (PX L)) : Option (Mem (Reg L) (PX L) × LMap L) := do
  let hard ← forUp 0 (2 ^ M) s.hard fun i hard => wr hard (off + i) (phV L).one
  let metric ← forUp 0 (2 ^ M) s.x.metric fun i metric => do
    let v ← rd s.soft (i + 2 ^ M)
    charge v metric
  return ({ s with hard := hard, x := { s.x with metric := metric } }, idMap L)

/-- polar_parity_aided.hh:112-120: at a parity position the continuations with the wrong symbol get the metric
1000000. -/
def forbid (par : Reg L) (f : List Int) : Option (List Int) :=
  forUp 0 L f fun k f => do
    let c ← lane par k
    if c < 0 then wr f (2 * k) 1000000 else wr f (2 * k + 1) 1000000

/-- polar_parity_aided.hh:101-144 without the accesses to `hard` and `soft`.  `int count` is a `Nat` here (`first`
and `stride` are assumed non-negative). -/
def parFork (stride : Nat) (x : PX L) (sft : Reg L) : Option (PX L × Reg L × LMap L) := do
  let f ← fork sft x.metric
  let f ← (if x.count = 0 then forbid x.parity f else some f)
  let parity : Reg L := if x.count = 0 then (phV L).one else x.parity
  let r ← prune f x.metric
  if x.count ≠ 0 then do
    let message ← wr x.message x.index r.2.2
    let maps ← wr x.maps x.index r.2.1
    return (⟨r.1, message, maps, x.index + 1, (phV L).qmul (shuf 0 parity r.2.1) r.2.2, x.count - 1⟩, r.2.2, r.2.1)
  else do
    let m ← rdZ x.message ((x.index : Int) - 1)
    let message ← wrZ x.message ((x.index : Int) - 1) (shuf 0 m r.2.1)
    let mp ← rdZ x.maps ((x.index : Int) - 1)
    let maps ← wrZ x.maps ((x.index : Int) - 1) (shuf 0 mp r.2.1)
    return (⟨r.1, message, maps, x.index, parity, stride⟩, r.2.2, r.2.1)

/-- polar_parity_aided.hh:101-144 `PolarParityNode<TYPE, 0>::rate1` -/
def parRate1 (stride M off : Nat) (s : Mem (Reg L) (PX L)) : Option (Mem (Reg L) (PX L) × LMap L) :=
  match M with
  | 0 => do
    let sft ← rd s.soft 1
    let r ← parFork stride s.x sft
    let hard ← wr s.hard off r.2.1
    return ({ s with hard := hard, x := r.1 }, r.2.2)
  | _ => none

/-- The recursion of polar_parity_aided.hh. -/
def parWalk (L stride : Nat) : Walk (Reg L) (LMap L) (PX L) :=
  ⟨(phV L).prod, (phV L).madd, (phV L).qmul, shuf 0, shuf 0, false, parRate0, parRate1 stride⟩

/-- polar_parity_aided.hh:350-390 `PolarParityDecoder<TYPE, MAX_M>::operator()` -/
def parDecode (MAX_M : Nat) (soft hard : List (Reg L)) (maps : List (LMap L)) (metric : List Int) (rank : Option (List Nat))
    (message : List (Reg L)) (codeword : List Int) (frozen : List Nat) (level stride first : Nat) :
    Option (Option (List Nat) × List (Reg L) × List Int) := do
  assertUB (level ≤ MAX_M)
  let metric ← metric0 L metric
  let soft ← dupLoop level codeword soft
  let r ← treeTop (parWalk L stride) 16 frozen level ⟨⟨metric, message, maps, 0, (phV L).one, first⟩, hard, soft⟩
  let rank ← rankOpt L r.1.x.metric rank
  let message ← backLoop r.1.x.message r.1.x.maps r.1.x.index
  return (rank, message, r.1.x.metric)

end Verif.Polar
