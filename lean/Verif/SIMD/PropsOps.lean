import Verif.SIMD.Helper
/- C55: the vector code of the polar and LDPC decoders computes the same numbers on every target. -/
namespace Verif.SIMD
open Verif.PolarHelper (minSum clampS I8)

/-- Every target provides functions that act like the portable templates: simd.hh alone (any number of lanes), SSE4.1 with 16, 32, 48 and
64 lanes, AVX2 with 32 and 64, NEON with 16 (AArch64 and 32 bit), 32, 48 and 64. -/
theorem C55_backends : (∀ n, (portOps n).Ok ∧ (portOps n).n = n) ∧
    (sseOps.Ok ∧ sseOps.n = 16) ∧ (sse2Ops.Ok ∧ sse2Ops.n = 32) ∧ (sse3Ops.Ok ∧ sse3Ops.n = 48) ∧ (sse4Ops.Ok ∧ sse4Ops.n = 64) ∧
    (avxOps.Ok ∧ avxOps.n = 32) ∧ (avx2Ops.Ok ∧ avx2Ops.n = 64) ∧
    (neon_a64Ops.Ok ∧ neon_a64Ops.n = 16) ∧ (neon_a32Ops.Ok ∧ neon_a32Ops.n = 16) ∧
    (neon2Ops.Ok ∧ neon2Ops.n = 32) ∧ (neon3Ops.Ok ∧ neon3Ops.n = 48) ∧ (neon4Ops.Ok ∧ neon4Ops.n = 64) :=
  ⟨fun n => ⟨portOps_ok n, rfl⟩, ⟨sseOps_ok, rfl⟩, ⟨sse2Ops_ok, rfl⟩, ⟨sse3Ops_ok, rfl⟩, ⟨sse4Ops_ok, rfl⟩, ⟨avxOps_ok, rfl⟩, ⟨avx2Ops_ok, rfl⟩,
    ⟨neon_a64Ops_ok, rfl⟩, ⟨neon_a32Ops_ok, rfl⟩, ⟨neon2Ops_ok, rfl⟩, ⟨neon3Ops_ok, rfl⟩, ⟨neon4Ops_ok, rfl⟩⟩

variable {R : Type} {O : Ops R}

theorem int_I8 (a : R) (k : Nat) : I8 (O.int a k) := by
  unfold Ops.int I8
  have h1 := BitVec.le_toInt (O.v a k)
  have h2 := BitVec.toInt_lt (x := O.v a k)
  constructor <;> omega

/-- `prod` of the polar decoders, in both variants of the source, is the min-sum product of the lanes. -/
theorem C55_prod (h : O.Ok) (a b : R) (k : Nat) (hk : k < O.n) :
    O.int (O.prodX a b) k = minSum (O.int a k) (O.int b k) ∧ O.int (O.prodN a b) k = minSum (O.int a k) (O.int b k) := by
  have ha := int_I8 (O := O) a k
  have hb := int_I8 (O := O) b k
  rw [Ops.lane_prodX h a b hk, Ops.lane_prodN h a b hk]
  generalize O.int a k = x at *
  generalize O.int b k = y at *
  have e := (PolarHelper.C49_prod_agree ha hb)
  have es := (PolarHelper.C49_prod_spec ha hb).1
  refine ⟨e.1.trans es, ?_⟩
  rw [← es, ← e.2.2]
  unfold PolarHelper.prodN
  rw [PolarHelper.neonSignum_eq, PolarHelper.neonSignum_eq, PolarHelper.neonQabs_eq ha, PolarHelper.neonQabs_eq hb,
    PolarHelper.vsignum_eq, PolarHelper.vsignum_eq]; rfl

/-- `madd` of the polar decoders, in both variants: `a * b + c`, saturated to [-127, 127], where `a` holds hard decisions and `b` was not
-128. -/
theorem C55_madd (h : O.Ok) (a b c : R) (k : Nat) (hk : k < O.n) (ha : O.int a k = -1 ∨ O.int a k = 0 ∨ O.int a k = 1)
    (hb : -127 ≤ O.int b k) : O.int (O.maddX a b c) k = clampS (O.int a k * O.int b k + O.int c k) ∧
      O.int (O.maddN a b c) k = clampS (O.int a k * O.int b k + O.int c k) := by
  have hb' := int_I8 (O := O) b k
  have hc := int_I8 (O := O) c k
  rw [Ops.lane_maddX h a b c hk, Ops.lane_maddN h a b c hk]
  generalize O.int a k = x at *
  generalize O.int b k = y at *
  generalize O.int c k = z at *
  have e := PolarHelper.C49_madd_agree ha hb hb'.2 hc
  have es := PolarHelper.C49_madd_spec x y z
  refine ⟨e.1.trans es, ?_⟩
  rw [← es, ← e.2.2]
  unfold PolarHelper.maddN
  rw [PolarHelper.satAdd_eq]

/-- `qmul` of the polar decoders, in both variants: the product, where one of the operands is a hard decision. -/
theorem C55_qmul (h : O.Ok) (a b : R) (k : Nat) (hk : k < O.n) (ha : -127 ≤ O.int a k)
    (hb : O.int b k = -1 ∨ O.int b k = 0 ∨ O.int b k = 1) :
    O.int (O.qmulX a b) k = O.int a k * O.int b k ∧ O.int (O.qmulN a b) k = O.int a k * O.int b k := by
  have ha' := int_I8 (O := O) a k
  rw [Ops.lane_qmulX h a b hk, Ops.lane_qmulN h a b hk]
  generalize O.int a k = x at *
  generalize O.int b k = y at *
  have hr : -128 ≤ x * y ∧ x * y ≤ 127 := by
    have := ha'.2
    rcases hb with rfl | rfl | rfl <;> omega
  have e : PolarHelper.sgn y = y := by rcases hb with rfl | rfl | rfl <;> rfl
  unfold PolarHelper.qmulV PolarHelper.vsign PolarHelper.qmul
  rw [e, mul_comm y x, PolarHelper.t8_id hr.1 hr.2]
  exact ⟨rfl, rfl⟩

/-- The functions of the LDPC decoder: on every target, each lane of the register functions is the number function that the model of
C44, C50 and C51 applies to that lane. -/
theorem C55_ldpc (h : O.Ok) (a b c : R) (k : Nat) (hk : k < O.n) :
    O.int (O.eor a b) k = LDPC.eor (O.int a k) (O.int b k) ∧
    O.int (O.orr a b) k = LDPC.orr (O.int a k) (O.int b k) ∧
    O.int (O.other a b c) k = LDPC.other (O.int a k) (O.int b k) (O.int c k) ∧
    O.int (O.mine a b) k = LDPC.mine (O.int a k) (O.int b k) ∧
    O.int (O.selfcorr a b) k = LDPC.selfcorr (O.int a k) (O.int b k) ∧
    O.int (O.vsign a b) k = PolarHelper.vsign (O.int a k) (O.int b k) ∧
    O.int (O.vqsub a b) k = LDPC.vqsub (O.int a k) (O.int b k) ∧
    O.int (O.vqadd a b) k = PolarHelper.vqadd (O.int a k) (O.int b k) ∧
    O.int (O.vmin a b) k = PolarHelper.vmin (O.int a k) (O.int b k) ∧
    O.int (O.vmax a b) k = PolarHelper.vmax (O.int a k) (O.int b k) ∧
    O.v (O.vclez a) k = LDPC.vclez (O.int a k) ∧
    O.v (O.vorr a b) k = O.v a k ||| O.v b k ∧
    (∀ x, O.int (O.vdup (BitVec.ofInt 8 x)) k = PolarHelper.t8 x) ∧ (∀ tmp, O.int (O.vzero tmp) k = 0) ∧
    ∀ BETA, O.int (O.magOf BETA a) k = LDPC.magOf BETA (O.int a k) :=
  ⟨Ops.lane_eor h _ _ hk, Ops.lane_orr h _ _ hk, Ops.lane_other h _ _ _ hk, Ops.lane_mine h _ _ hk, Ops.lane_selfcorr h _ _ hk,
    (congrArg BitVec.toInt (h.vsign _ _ _ hk)).trans (Br.vsign _ _), (congrArg BitVec.toInt (h.vqsub _ _ _ hk)).trans (Br.vqsub _ _),
    (congrArg BitVec.toInt (h.vqadd _ _ _ hk)).trans (Br.vqadd _ _), (congrArg BitVec.toInt (h.vmin _ _ _ hk)).trans (Br.vmin _ _),
    (congrArg BitVec.toInt (h.vmax _ _ _ hk)).trans (Br.vmax _ _), (h.vclez _ _ hk).trans (Br.vclez _), h.vorr _ _ _ hk,
    fun x => (congrArg BitVec.toInt (h.vdup _ _ hk)).trans (Br.toInt_ofInt x), fun tmp => congrArg BitVec.toInt (h.vzero tmp _ hk),
    fun B => Ops.lane_magOf h B _ hk⟩

/-- The message that a check node of the LDPC decoder sends, from the registers of the first pass. -/
theorem C55_ldpc_out (h : O.Ok) (mag min0 min1 signs inp b : R) (k : Nat) (hk : k < O.n) :
    O.int (O.outOf mag min0 min1 signs inp b) k = LDPC.selfcorr (O.int b k) (LDPC.vclamp (PolarHelper.vsign
      (LDPC.other (O.int mag k) (O.int min0 k) (O.int min1 k)) (LDPC.mine (O.int signs k) (O.int inp k))) (-31) 31) :=
  Ops.lane_outOf h _ _ _ _ _ _ hk

/-- `vshuf` with a lane map, as the list decoders use it. -/
theorem C55_vshuf (h : O.Ok) (a b : R) (k : Nat) (hk : k < O.n) (hj : (O.v b k).toNat < O.n) :
    O.int (O.vshuf a b) k = O.int a (O.v b k).toNat ∧ O.v (O.vshufU a b) k = O.v a (O.v b k).toNat := by
  have e1 := h.vshuf a b k hk hj
  have e2 := h.vshufU a b k hk hj
  unfold P.vshuf at e1 e2
  rw [if_pos hj] at e1 e2
  exact ⟨congrArg BitVec.toInt e1, e2⟩

/-- The functions on a concrete register. -/
example : (portOps 16).int ((portOps 16).prodX (fun k => BitVec.ofNat 8 (200 + k)) (fun k => BitVec.ofNat 8 (k * 9))) 3 = -27 ∧
    minSum (BitVec.ofNat 8 203).toInt 27 = -27 := by decide
/-- The conditions of `C55_madd` hold for a hard decision register and saturated soft values. -/
example : (portOps 16).int ((portOps 16).maddX (fun _ => 255#8) (fun _ => 129#8) (fun _ => 100#8)) 5 = 127 ∧
    clampS (-1 * -127 + 100) = 127 := by decide

end Verif.SIMD
