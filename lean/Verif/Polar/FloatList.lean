import Verif.Polar.Float
import Verif.Polar.ListModel
/- polar_list_decoder.hh and the decoder of polar_parity_aided.hh for `TYPE = SIMD<float, L>` and `SIMD<double, L>`: `PATH` is `float` or
`double`, `MAP` is `SIMD<uint32_t, L>` or `SIMD<uint64_t, L>` (polar_helper.hh:60-101).  `F` is the format, `U` the number of values of the
unsigned type; a register with `L` lanes is the function that gives its lanes.  (ListModel.lean has the version for `int8_t`.) -/
namespace Verif.Polar.FlList
open Verif.Polar
variable {L : Nat} (F : Rounding) (U : Nat)

/-- `SIMD<float, L>` -/
abbrev FReg (L : Nat) := Fin L → Fl

/-- IEEE 754 subtraction -/
def sub (a : Fl) : Fl → Fl
  | .nan => .nan
  | .inf b => Fl.add F a (.inf !b)
  | .fin q => Fl.add F a (.fin (-q))

/-- An `int` converted to `float`. -/
def ofInt (i : Int) : Fl := Fl.ofQ F i

/-- `metric`, `message`, `maps`, `*count` -/
structure LXF (L : Nat) where
  metric : List Fl
  message : List (FReg L)
  maps : List (LMap L)
  count : Nat

/-- polar_list_decoder.hh:26-28, 45-47 (polar_parity_aided.hh:74-76, 93-95) -/
def charge (v : FReg L) (metric : List Fl) : Option (List Fl) :=
  forUp 0 L metric fun k metric => do
    let s ← lane v k
    if Fl.lt s (.fin 0) then do
      let m ← rd metric k
      wr metric k (sub F m s)
    else some metric

/-- polar_list_decoder.hh:29-31, 48-50, polar_parity_aided.hh:77-79, 96-98: `map.v[k] = k`. -/
def idMap (L : Nat) : LMap L := fun k => k.val % U

/-- polar_list_decoder.hh:21-33, 42-52 `PolarListNode::rate0(metric, hard + off, soft)` -/
def listRate0 (M off : Nat) (s : Mem (FReg L) (LXF L)) : Option (Mem (FReg L) (LXF L) × LMap L) := do
  let hard ← forUp 0 (2 ^ M) s.hard fun i hard => wr hard (off + i) (phFV F L).one
  let metric ← forUp 0 (2 ^ M) s.x.metric fun i metric => do
    let v ← rd s.soft (i + 2 ^ M)
    charge F v metric
  return ({ s with hard := hard, x := { s.x with metric := metric } }, idMap U L)

/-- polar_list_decoder.hh:56-63, polar_parity_aided.hh:104-111 -/
def fork (sft : FReg L) (metric : List Fl) : Option (List Fl) := do
  let f ← forUp 0 L (List.replicate (2 * L) (.fin 0)) fun k f => do
    let m ← rd metric k
    let f ← wr f (2 * k) m
    wr f (2 * k + 1) m
  forUp 0 L f fun k f => do
    let s ← lane sft k
    if Fl.lt s (.fin 0) then do
      let m ← rd f (2 * k)
      wr f (2 * k) (sub F m s)
    else do
      let m ← rd f (2 * k + 1)
      wr f (2 * k + 1) (Fl.add F m s)

/-- polar_list_decoder.hh:64-73, polar_parity_aided.hh:121-130: `metric`, `map` and `hrd`.  The uninitialised array `perm` is taken to
be zero (its contents do not matter: C16_indices). -/
def prune (f metric : List Fl) : Option (List Fl × LMap L × FReg L) := do
  let r ← Verif.Sort.insertionSortIdx Fl.lt id (List.replicate (2 * L) 0) f (2 * L)
  let metric ← forUp 0 L metric fun k metric => do
    let m ← rd r.2 k
    wr metric k m
  let map ← tab fun k : Fin L => do
    let p ← rd r.1 k
    return (p >>> 1) % U
  let hrd ← tab fun k : Fin L => do
    let p ← rd r.1 k
    return ofInt F (1 - 2 * ((p &&& 1 : Nat) : Int))
  return (metric, map, hrd)

/-- polar_list_decoder.hh:53-79 without the accesses to `hard` and `soft`. -/
def listFork (x : LXF L) (sft : FReg L) : Option (LXF L × FReg L × LMap L) := do
  let f ← fork F sft x.metric
  let r ← prune F U f x.metric
  let message ← wr x.message x.count r.2.2
  let maps ← wr x.maps x.count r.2.1
  return (⟨r.1, message, maps, x.count + 1⟩, r.2.2, r.2.1)

/-- polar_list_decoder.hh:53-79 -/
def listRate1 (M off : Nat) (s : Mem (FReg L) (LXF L)) : Option (Mem (FReg L) (LXF L) × LMap L) :=
  match M with
  | 0 => do
    let sft ← rd s.soft 1
    let r ← listFork F U s.x sft
    let hard ← wr s.hard off r.2.1
    return ({ s with hard := hard, x := r.1 }, r.2.2)
  | _ => none

/-- The recursion of polar_list_decoder.hh. -/
def listWalk (L : Nat) : Walk (FReg L) (LMap L) (LXF L) :=
  ⟨(phFV F L).prod, (phFV F L).madd, (phFV F L).qmul, shuf (.fin 0), shuf 0, false, listRate0 F U, listRate1 F U⟩

/-- polar_list_decoder.hh:288-292, polar_parity_aided.hh:354-357 -/
def metric0 (L : Nat) (metric : List Fl) : Option (List Fl) := do
  let metric ← wr metric 0 (ofInt F 0)
  forUp 1 L metric fun k metric => wr metric k (ofInt F 1000000)

/-- `a != b` -/
def ne : Fl → Fl → Bool
  | .nan, _ => true
  | _, .nan => true
  | a, b => decide (a ≠ b)

/-- polar_list_decoder.hh:313-317, polar_parity_aided.hh:380-384 -/
def rankLoop (L : Nat) (metric : List Fl) (rank : List Nat) : Option (List Nat) := do
  let s ← forUp 0 L (rank, 0) fun i (s : List Nat × Nat) => do
    let r ← (if 0 < i then do
        let a ← rd metric (i - 1)
        let b ← rd metric i
        return if ne a b then s.2 + 1 else s.2
      else some s.2)
    let rank ← wr s.1 i r
    return (rank, r)
  return s.1

/-- polar_list_decoder.hh:313, polar_parity_aided.hh:380 `rank != nullptr && ...` -/
def rankOpt (L : Nat) (metric : List Fl) (rank : Option (List Nat)) : Option (Option (List Nat)) :=
  match rank with
  | none => some none
  | some a => do
    let b ← rankLoop L metric a
    return some b

/-- polar_list_decoder.hh:318-322, polar_parity_aided.hh:385-389 -/
def backLoop (message : List (FReg L)) (maps : List (LMap L)) (count : Nat) : Option (List (FReg L)) := do
  let acc ← rdZ maps ((count : Int) - 1)
  let s ← forDown 0 (count - 1) (message, acc) fun i (s : List (FReg L) × LMap L) => do
    let m ← rd s.1 i
    let message ← wr s.1 i (shuf (.fin 0) m s.2)
    let mp ← rd maps i
    return (message, shuf 0 mp s.2)
  return s.1

/-- polar_list_decoder.hh:293-295, polar_parity_aided.hh:358-360 -/
def dupLoop (level : Nat) (codeword : List Fl) (soft : List (FReg L)) : Option (List (FReg L)) :=
  forUp 0 (2 ^ level) soft fun i soft => do
    let v ← rd codeword i
    wr soft (2 ^ level + i) (fun _ => v)

/-- polar_list_decoder.hh:285-323 `PolarListDecoder<SIMD<float, L>, MAX_M>::operator()`; the members `soft`, `hard` and `maps` are passed in with
any contents, `metric` is the uninitialised local array.  The result is `rank` (unless null), `message`, and the final `metric`, which the
caller does not see. -/
def listDecode (MAX_M : Nat) (soft hard : List (FReg L)) (maps : List (LMap L)) (metric : List Fl) (rank : Option (List Nat))
    (message : List (FReg L)) (codeword : List Fl) (frozen : List Nat) (level : Nat) :
    Option (Option (List Nat) × List (FReg L) × List Fl) := do
  assertUB (level ≤ MAX_M)
  let metric ← metric0 F L metric
  let soft ← dupLoop level codeword soft
  let r ← treeTop (listWalk F U L) 16 frozen level ⟨⟨metric, message, maps, 0⟩, hard, soft⟩
  let rank ← rankOpt L r.1.x.metric rank
  let message ← backLoop r.1.x.message r.1.x.maps r.1.x.count
  return (rank, message, r.1.x.metric)

/-! ### The parity-aided decoder -/

/-- `metric`, `message`, `maps`, `*index`, `*parity`, `*count` -/
structure PXF (L : Nat) where
  metric : List Fl
  message : List (FReg L)
  maps : List (LMap L)
  index : Nat
  parity : FReg L
  count : Nat

/-- polar_parity_aided.hh:69-81, 90-100 -/
def parRate0 (M off : Nat) (s : Mem (FReg L) (PXF L)) : Option (Mem (FReg L) (PXF L) × LMap L) := do
  let hard ← forUp 0 (2 ^ M) s.hard fun i hard => wr hard (off + i) (phFV F L).one
  let metric ← forUp 0 (2 ^ M) s.x.metric fun i metric => do
    let v ← rd s.soft (i + 2 ^ M)
    charge F v metric
  return ({ s with hard := hard, x := { s.x with metric := metric } }, idMap U L)

/-- polar_parity_aided.hh:112-120 -/
def forbid (par : FReg L) (f : List Fl) : Option (List Fl) :=
  forUp 0 L f fun k f => do
    let c ← lane par k
    if Fl.lt c (.fin 0) then wr f (2 * k) (ofInt F 1000000) else wr f (2 * k + 1) (ofInt F 1000000)

/-- polar_parity_aided.hh:101-144 without the accesses to `hard` and `soft`.  `int count` is a `Nat` here (`first` and `stride` are assumed
non-negative). -/
def parFork (stride : Nat) (x : PXF L) (sft : FReg L) : Option (PXF L × FReg L × LMap L) := do
  let f ← fork F sft x.metric
  let f ← (if x.count = 0 then forbid F x.parity f else some f)
  let parity : FReg L := if x.count = 0 then (phFV F L).one else x.parity
  let r ← prune F U f x.metric
  if x.count ≠ 0 then do
    let message ← wr x.message x.index r.2.2
    let maps ← wr x.maps x.index r.2.1
    return (⟨r.1, message, maps, x.index + 1, (phFV F L).qmul (shuf (.fin 0) parity r.2.1) r.2.2, x.count - 1⟩, r.2.2, r.2.1)
  else do
    let m ← rdZ x.message ((x.index : Int) - 1)
    let message ← wrZ x.message ((x.index : Int) - 1) (shuf (.fin 0) m r.2.1)
    let mp ← rdZ x.maps ((x.index : Int) - 1)
    let maps ← wrZ x.maps ((x.index : Int) - 1) (shuf 0 mp r.2.1)
    return (⟨r.1, message, maps, x.index, parity, stride⟩, r.2.2, r.2.1)

/-- polar_parity_aided.hh:101-144 -/
def parRate1 (stride M off : Nat) (s : Mem (FReg L) (PXF L)) : Option (Mem (FReg L) (PXF L) × LMap L) :=
  match M with
  | 0 => do
    let sft ← rd s.soft 1
    let r ← parFork F U stride s.x sft
    let hard ← wr s.hard off r.2.1
    return ({ s with hard := hard, x := r.1 }, r.2.2)
  | _ => none

/-- The recursion of polar_parity_aided.hh. -/
def parWalk (L stride : Nat) : Walk (FReg L) (LMap L) (PXF L) :=
  ⟨(phFV F L).prod, (phFV F L).madd, (phFV F L).qmul, shuf (.fin 0), shuf 0, false, parRate0 F U, parRate1 F U stride⟩

/-- polar_parity_aided.hh:350-390 `PolarParityDecoder<SIMD<float, L>, MAX_M>::operator()` -/
def parDecode (MAX_M : Nat) (soft hard : List (FReg L)) (maps : List (LMap L)) (metric : List Fl) (rank : Option (List Nat))
    (message : List (FReg L)) (codeword : List Fl) (frozen : List Nat) (level stride first : Nat) :
    Option (Option (List Nat) × List (FReg L) × List Fl) := do
  assertUB (level ≤ MAX_M)
  let metric ← metric0 F L metric
  let soft ← dupLoop level codeword soft
  let r ← treeTop (parWalk F U L stride) 16 frozen level ⟨⟨metric, message, maps, 0, (phFV F L).one, first⟩, hard, soft⟩
  let rank ← rankOpt L r.1.x.metric rank
  let message ← backLoop r.1.x.message r.1.x.maps r.1.x.index
  return (rank, message, r.1.x.metric)

end Verif.Polar.FlList
