import Verif.SIMD.PropsOps
import Verif.Polar.ListModel
/- The polar coders for `TYPE = SIMD<int8_t, n>` as they are compiled for a target: on its registers, with its overloads of the
functions of simd.hh.  (Polar/Model.lean and Polar/ListModel.lean have the same code on registers that are functions.) -/
namespace Verif.Targets
open Verif.SIMD Verif.Polar
variable {R : Type}

/-- A compilation target: the overloads it provides, what `for (int k = 0; k < TYPE::SIZE; ++k) reg.v[k] = f(k);` makes of an
uninitialised register, and whether `__ARM_NEON` is defined. -/
structure Target (R : Type) where
  O : Ops R
  wrt : (Nat → BitVec 8) → R
  neon : Bool

namespace Target
variable (T : Target R)

/-- `TYPE::SIZE` -/
abbrev n : Nat := T.O.n
/-- The lanes `a.v[0]`, `a.v[1]`, .. of a `SIMD<int8_t, n>`. -/
def reg (a : R) : Reg T.n := fun k => T.O.int a k
/-- The lanes of a `SIMD<uint8_t, n>`. -/
def map (a : R) : LMap T.n := fun k => (T.O.v a k).toNat
/-- A register whose lanes are written one by one, from `int` values (truncated to 8 bits). -/
def setI (f : Reg T.n) : R := T.wrt fun k => if h : k < T.n then BitVec.ofInt 8 (f ⟨k, h⟩) else 0
/-- The same for a `SIMD<uint8_t, n>`. -/
def setU (f : LMap T.n) : R := T.wrt fun k => if h : k < T.n then BitVec.ofNat 8 (f ⟨k, h⟩) else 0

/-- `PolarHelper<SIMD<int8_t, WIDTH>>`, polar_helper.hh:104-153 -/
def ph : PH R where
  one := T.O.vdup 1
  signum := T.O.vsignum
  qmul := if T.neon then T.O.qmulN else T.O.qmulX
  prod := if T.neon then T.O.prodN else T.O.prodX
  madd := if T.neon then T.O.maddN else T.O.maddX

/-! ### The list decoder -/

end Target

/-- `metric`, `message`, `maps`, `*count` -/
structure LXT (R : Type) where
  metric : List Int
  message : List R
  maps : List R
  count : Nat

namespace Target
variable (T : Target R)

/-- polar_list_decoder.hh:21-33, 42-52 -/
def listRate0 (M off : Nat) (s : Mem R (LXT R)) : Option (Mem R (LXT R) × R) := do
  let hard ← forUp 0 (2 ^ M) s.hard fun i hard => wr hard (off + i) T.ph.one
  let metric ← forUp 0 (2 ^ M) s.x.metric fun i metric => do
    let v ← rd s.soft (i + 2 ^ M)
    charge (T.reg v) metric
  return ({ s with hard := hard, x := { s.x with metric := metric } }, T.setU (idMap T.n))

/-- polar_list_decoder.hh:53-79 without the accesses to `hard` and `soft` -/
def listFork (x : LXT R) (sft : R) : Option (LXT R × R × R) := do
  let f ← fork (T.reg sft) x.metric
  let r ← prune (L := T.n) f x.metric
  let message ← wr x.message x.count (T.setI r.2.2)
  let maps ← wr x.maps x.count (T.setU r.2.1)
  return (⟨r.1, message, maps, x.count + 1⟩, T.setI r.2.2, T.setU r.2.1)

/-- polar_list_decoder.hh:53-79 -/
def listRate1 (M off : Nat) (s : Mem R (LXT R)) : Option (Mem R (LXT R) × R) :=
  match M with
  | 0 => do
    let sft ← rd s.soft 1
    let r ← T.listFork s.x sft
    let hard ← wr s.hard off r.2.1
    return ({ s with hard := hard, x := r.1 }, r.2.2)
  | _ => none

/-- The recursion of polar_list_decoder.hh. -/
def listWalk : Walk R R (LXT R) :=
  ⟨T.ph.prod, T.ph.madd, T.ph.qmul, T.O.vshuf, T.O.vshufU, false, T.listRate0, T.listRate1⟩

/-- polar_list_decoder.hh:318-322, polar_parity_aided.hh:385-389 -/
def backLoop (message maps : List R) (count : Nat) : Option (List R) := do
  let acc ← rdZ maps ((count : Int) - 1)
  let s ← forDown 0 (count - 1) (message, acc) fun i (s : List R × R) => do
    let m ← rd s.1 i
    let message ← wr s.1 i (T.O.vshuf m s.2)
    let mp ← rd maps i
    return (message, T.O.vshufU mp s.2)
  return s.1

/-- polar_list_decoder.hh:293-295, polar_parity_aided.hh:358-360: `soft[length+i] = vdup<TYPE>(codeword[i])` -/
def dupLoop (level : Nat) (codeword : List Int) (soft : List R) : Option (List R) :=
  forUp 0 (2 ^ level) soft fun i soft => do
    let v ← rd codeword i
    wr soft (2 ^ level + i) (T.O.vdup (BitVec.ofInt 8 v))

/-- polar_list_decoder.hh:285-323 `PolarListDecoder<SIMD<int8_t, n>, MAX_M>::operator()` -/
def listDecode (MAX_M : Nat) (soft hard maps : List R) (metric : List Int) (rank : Option (List Nat)) (message : List R) (codeword : List Int)
    (frozen : List Nat) (level : Nat) : Option (Option (List Nat) × List R × List Int) := do
  assertUB (level ≤ MAX_M)
  let metric ← metric0 T.n metric
  let soft ← T.dupLoop level codeword soft
  let r ← treeTop T.listWalk 16 frozen level ⟨⟨metric, message, maps, 0⟩, hard, soft⟩
  let rank ← rankOpt T.n r.1.x.metric rank
  let message ← T.backLoop r.1.x.message r.1.x.maps r.1.x.count
  return (rank, message, r.1.x.metric)

end Target

/-! ### The parity-aided decoder -/

/-- `metric`, `message`, `maps`, `*index`, `*parity`, `*count` -/
structure PXT (R : Type) where
  metric : List Int
  message : List R
  maps : List R
  index : Nat
  parity : R
  count : Nat

namespace Target
variable (T : Target R)

/-- polar_parity_aided.hh:69-81, 90-100 -/
def parRate0 (M off : Nat) (s : Mem R (PXT R)) : Option (Mem R (PXT R) × R) := do
  let hard ← forUp 0 (2 ^ M) s.hard fun i hard => wr hard (off + i) T.ph.one
  let metric ← forUp 0 (2 ^ M) s.x.metric fun i metric => do
    let v ← rd s.soft (i + 2 ^ M)
    charge (T.reg v) metric
  return ({ s with hard := hard, x := { s.x with metric := metric } }, T.setU (idMap T.n))

/-- polar_parity_aided.hh:101-144 without the accesses to `hard` and `soft` -/
def parFork (stride : Nat) (x : PXT R) (sft : R) : Option (PXT R × R × R) := do
  let f ← fork (T.reg sft) x.metric
  let f ← (if x.count = 0 then forbid (T.reg x.parity) f else some f)
  let parity : R := if x.count = 0 then T.ph.one else x.parity
  let r ← prune (L := T.n) f x.metric
  let hrd := T.setI r.2.2
  let map := T.setU r.2.1
  if x.count ≠ 0 then do
    let message ← wr x.message x.index hrd
    let maps ← wr x.maps x.index map
    return (⟨r.1, message, maps, x.index + 1, T.ph.qmul (T.O.vshuf parity map) hrd, x.count - 1⟩, hrd, map)
  else do
    let m ← rdZ x.message ((x.index : Int) - 1)
    let message ← wrZ x.message ((x.index : Int) - 1) (T.O.vshuf m map)
    let mp ← rdZ x.maps ((x.index : Int) - 1)
    let maps ← wrZ x.maps ((x.index : Int) - 1) (T.O.vshufU mp map)
    return (⟨r.1, message, maps, x.index, parity, stride⟩, hrd, map)

/-- polar_parity_aided.hh:101-144 -/
def parRate1 (stride M off : Nat) (s : Mem R (PXT R)) : Option (Mem R (PXT R) × R) :=
  match M with
  | 0 => do
    let sft ← rd s.soft 1
    let r ← T.parFork stride s.x sft
    let hard ← wr s.hard off r.2.1
    return ({ s with hard := hard, x := r.1 }, r.2.2)
  | _ => none

/-- The recursion of polar_parity_aided.hh. -/
def parWalk (stride : Nat) : Walk R R (PXT R) :=
  ⟨T.ph.prod, T.ph.madd, T.ph.qmul, T.O.vshuf, T.O.vshufU, false, T.parRate0, T.parRate1 stride⟩

/-- polar_parity_aided.hh:350-390 `PolarParityDecoder<SIMD<int8_t, n>, MAX_M>::operator()` -/
def parDecode (MAX_M : Nat) (soft hard maps : List R) (metric : List Int) (rank : Option (List Nat)) (message : List R) (codeword : List Int)
    (frozen : List Nat) (level stride first : Nat) : Option (Option (List Nat) × List R × List Int) := do
  assertUB (level ≤ MAX_M)
  let metric ← metric0 T.n metric
  let soft ← T.dupLoop level codeword soft
  let r ← treeTop (T.parWalk stride) 16 frozen level ⟨⟨metric, message, maps, 0, T.ph.one, first⟩, hard, soft⟩
  let rank ← rankOpt T.n r.1.x.metric rank
  let message ← T.backLoop r.1.x.message r.1.x.maps r.1.x.index
  return (rank, message, r.1.x.metric)

/-- Everything acts on lanes, and lanes that were written are there. -/
structure Ok (T : Target R) : Prop where
  ops : T.O.Ok
  wrt : ∀ f k, k < T.n → T.O.v (T.wrt f) k = f k

end Target

/-! ### The targets -/

/-- simd.hh without intrinsics, any number of lanes -/
def port (n : Nat) (neon : Bool) : Target (Nat → BitVec 8) := ⟨portOps n, fun f => f, neon⟩
/-- sse4_1.hh -/
def sse : Target (BitVec 128) := ⟨sseOps, ofLanes 128 8, false⟩
/-- sse4_1_double.hh -/
def sse2 : Target (Nat → BitVec 128) := ⟨sse2Ops, fun f => regs 2 fun i => ofLanes 128 8 fun k => f (16 * i + k), false⟩
/-- sse4_1_triple.hh -/
def sse3 : Target (Nat → BitVec 128) := ⟨sse3Ops, fun f => regs 3 fun i => ofLanes 128 8 fun k => f (16 * i + k), false⟩
/-- sse4_1_quadruple.hh -/
def sse4 : Target (Nat → BitVec 128) := ⟨sse4Ops, fun f => regs 4 fun i => ofLanes 128 8 fun k => f (16 * i + k), false⟩
/-- avx2.hh -/
def avx : Target (BitVec 256) := ⟨avxOps, ofLanes 256 8, false⟩
/-- avx2_double.hh -/
def avx2 : Target (Nat → BitVec 256) := ⟨avx2Ops, fun f => regs 2 fun i => ofLanes 256 8 fun k => f (32 * i + k), false⟩
/-- neon.hh, AArch64 -/
def neon_a64 : Target (BitVec 128) := ⟨neon_a64Ops, ofLanes 128 8, true⟩
/-- neon.hh, 32 bit -/
def neon_a32 : Target (BitVec 128) := ⟨neon_a32Ops, ofLanes 128 8, true⟩
/-- neon_double.hh -/
def neon2 : Target (Nat → BitVec 128) := ⟨neon2Ops, fun f => regs 2 fun i => ofLanes 128 8 fun k => f (16 * i + k), true⟩
/-- neon_triple.hh -/
def neon3 : Target (Nat → BitVec 128) := ⟨neon3Ops, fun f => regs 3 fun i => ofLanes 128 8 fun k => f (16 * i + k), true⟩
/-- neon_quadruple.hh -/
def neon4 : Target (Nat → BitVec 128) := ⟨neon4Ops, fun f => regs 4 fun i => ofLanes 128 8 fun k => f (16 * i + k), true⟩

theorem lane_mk {N n : Nat} (hN : N = 8 * n) (f : Nat → BitVec 8) {k : Nat} (hk : k < n) : SIMD.lane 8 (ofLanes N 8 f) k = f k :=
  lane_ofLanes f (by subst hN; omega)

theorem vw_mk {N n m : Nat} (hN : N = 8 * n) (hn : 0 < n) (f : Nat → BitVec 8) {k : Nat} (hk : k < n * m) :
    vw N 8 (regs m fun i => ofLanes N 8 fun j => f (n * i + j)) k = f k := by
  have e : N / 8 = n := by omega
  unfold vw
  rw [e, regs_lt _ (Nat.div_lt_of_lt_mul hk), lane_mk hN _ (Nat.mod_lt _ hn), Nat.div_add_mod]

theorem port_ok (n : Nat) (neon : Bool) : (port n neon).Ok := ⟨portOps_ok n, fun _ _ _ => rfl⟩
theorem sse_ok : sse.Ok := by
  refine ⟨sseOps_ok, fun f k h => ?_⟩
  have h : k < 16 := h
  exact lane_ofLanes f (by omega)
theorem sse2_ok : sse2.Ok := ⟨sse2Ops_ok, fun f _ h => vw_mk (n := 16) rfl (by norm_num) f h⟩
theorem sse3_ok : sse3.Ok := ⟨sse3Ops_ok, fun f _ h => vw_mk (n := 16) rfl (by norm_num) f h⟩
theorem sse4_ok : sse4.Ok := ⟨sse4Ops_ok, fun f _ h => vw_mk (n := 16) rfl (by norm_num) f h⟩
theorem avx_ok : avx.Ok := by
  refine ⟨avxOps_ok, fun f k h => ?_⟩
  have h : k < 32 := h
  have e : ∀ N, 256 ≤ N → SIMD.lane 8 (ofLanes N 8 f) k = f k := fun N hN => lane_ofLanes f (by omega)
  unfold avx avxOps
  dsimp only
  rw [e 256 (by norm_num)]
theorem avx2_ok : avx2.Ok := ⟨avx2Ops_ok, fun f _ h => vw_mk (n := 32) rfl (by norm_num) f h⟩
theorem neon_a64_ok : neon_a64.Ok := by
  refine ⟨neon_a64Ops_ok, fun f k h => ?_⟩
  have h : k < 16 := h
  exact lane_ofLanes f (by omega)
theorem neon_a32_ok : neon_a32.Ok := by
  refine ⟨neon_a32Ops_ok, fun f k h => ?_⟩
  have h : k < 16 := h
  exact lane_ofLanes f (by omega)
theorem neon2_ok : neon2.Ok := ⟨neon2Ops_ok, fun f _ h => vw_mk (n := 16) rfl (by norm_num) f h⟩
theorem neon3_ok : neon3.Ok := ⟨neon3Ops_ok, fun f _ h => vw_mk (n := 16) rfl (by norm_num) f h⟩
theorem neon4_ok : neon4.Ok := ⟨neon4Ops_ok, fun f _ h => vw_mk (n := 16) rfl (by norm_num) f h⟩

end Verif.Targets
