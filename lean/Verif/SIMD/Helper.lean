import Verif.SIMD.Ops
import Verif.LDPC.Model
import Verif.PolarHelper.Props
/- polar_helper.hh (for `SIMD<int8_t, WIDTH>`) and the lane functions of ldpc_decoder.hh, on registers of any back end. -/
namespace Verif.SIMD
namespace Ops
variable {R : Type} (O : Ops R)

/-- polar_helper.hh:130-137 without `__ARM_NEON` -/
def qmulX (a b : R) : R := O.vsign a b
/-- polar_helper.hh:138-145 without `__ARM_NEON` -/
def prodX (a b : R) : R := O.vsign (O.vmin (O.vqabs a) (O.vqabs b)) (O.vsign (O.vsignum a) b)
/-- polar_helper.hh:146-153 without `__ARM_NEON` -/
def maddX (a b c : R) : R :=
  O.vmax (O.vqadd (O.vsign (O.vmax b (O.vdup (BitVec.ofInt 8 (-127)))) a) c) (O.vdup (BitVec.ofInt 8 (-127)))
/-- polar_helper.hh:130-137 with `__ARM_NEON` -/
def qmulN (a b : R) : R := O.vmul a b
/-- polar_helper.hh:138-145 with `__ARM_NEON` -/
def prodN (a b : R) : R := O.vmul (O.vmul (O.vsignum a) (O.vsignum b)) (O.vmin (O.vqabs a) (O.vqabs b))
/-- polar_helper.hh:146-153 with `__ARM_NEON` -/
def maddN (a b c : R) : R :=
  O.vmax (O.vqadd (O.vmul a (O.vmax b (O.vdup (BitVec.ofInt 8 (-127))))) c) (O.vdup (BitVec.ofInt 8 (-127)))

/-- ldpc_decoder.hh:55-58 -/
def eor (a b : R) : R := O.vback (O.veor (O.vmask a) (O.vmask b))
/-- ldpc_decoder.hh:59-62 -/
def orr (a b : R) : R := O.vback (O.vorr (O.vmask a) (O.vmask b))
/-- ldpc_decoder.hh:63-66 -/
def other (a b c : R) : R := O.vback (O.vbsl (O.vceq a b) (O.vmask c) (O.vmask b))
/-- ldpc_decoder.hh:67-70 -/
def mine (a b : R) : R := O.orr (O.eor a b) (O.vdup (BitVec.ofInt 8 127))
/-- ldpc_decoder.hh:71-74 -/
def selfcorr (a b : R) : R := O.vback (O.vand (O.vmask b) (O.vorr (O.vceqz a) (O.veor (O.vcgtz a) (O.vcltz b))))
/-- ldpc_decoder.hh:144-149 -/
def magOf (BETA : Int) (inp : R) : R :=
  if BETA ≠ 0 then O.vback (O.vqsubU (O.vmask (O.vqabs inp)) (O.vmask (O.vdup (BitVec.ofInt 8 BETA)))) else O.vqabs inp
/-- ldpc_decoder.hh:163-167 -/
def outOf (mag min0 min1 signs inp b : R) : R :=
  O.selfcorr b (O.vclamp (O.vsign (O.other mag min0 min1) (O.mine signs inp)) (BitVec.ofInt 8 (-31)) (BitVec.ofInt 8 31))

/-- `a.v[k]` as a number. -/
def int (a : R) (k : Nat) : Int := (O.v a k).toInt

end Ops

namespace Br
open Verif.PolarHelper (t8)

theorem toInt_ofInt (x : Int) : (BitVec.ofInt 8 x).toInt = t8 x := BitVec.toInt_ofInt ..
theorem sgnOf_eq (x : Int) : sgnOf x = PolarHelper.sgn x := rfl
theorem vqabs (a : BitVec 8) : (P.vqabs a).toInt = PolarHelper.vqabs a.toInt := toInt_ofInt _
theorem vqadd (a b : BitVec 8) : (P.vqadd a b).toInt = PolarHelper.vqadd a.toInt b.toInt := toInt_ofInt _
theorem vqsub (a b : BitVec 8) : (P.vqsub a b).toInt = LDPC.vqsub a.toInt b.toInt := toInt_ofInt _
theorem vmul (a b : BitVec 8) : (P.vmul a b).toInt = PolarHelper.vmul a.toInt b.toInt := toInt_ofInt _
theorem vsignum (a : BitVec 8) : (P.vsignum a).toInt = PolarHelper.vsignum a.toInt := toInt_ofInt _
theorem vsign (a b : BitVec 8) : (P.vsign a b).toInt = PolarHelper.vsign a.toInt b.toInt := toInt_ofInt _
theorem vmin (a b : BitVec 8) : (P.vmin a b).toInt = PolarHelper.vmin a.toInt b.toInt := by
  unfold P.vmin PolarHelper.vmin; split <;> omega
theorem vmax (a b : BitVec 8) : (P.vmax a b).toInt = PolarHelper.vmax a.toInt b.toInt := by
  unfold P.vmax PolarHelper.vmax; split <;> omega
theorem vclamp (x a b : BitVec 8) : (P.vclamp x a b).toInt = LDPC.vclamp x.toInt a.toInt b.toInt := by
  unfold P.vclamp LDPC.vclamp; rw [vmin, vmax]; rfl
theorem bits (a : BitVec 8) : LDPC.bits a.toInt = a := BitVec.ofInt_toInt
theorem vqsubU (a b : BitVec 8) : (P.vqsubU a b).toInt = LDPC.vqsubU a.toInt b.toInt := by
  unfold P.vqsubU LDPC.vqsubU; rw [toInt_ofInt, bits, bits]
theorem msk (c : Bool) : mask 8 c = LDPC.msk c := by cases c <;> rfl
theorem vclez (a : BitVec 8) : P.vclez a = LDPC.vclez a.toInt := msk _

end Br

namespace Ops
variable {R : Type} {O : Ops R}

theorem lane_qmulX (h : O.Ok) (a b : R) {k : Nat} (hk : k < O.n) : O.int (O.qmulX a b) k = PolarHelper.qmulV (O.int a k) (O.int b k) := by
  unfold int qmulX; rw [h.vsign _ _ _ hk, Br.vsign]; rfl
theorem lane_prodX (h : O.Ok) (a b : R) {k : Nat} (hk : k < O.n) : O.int (O.prodX a b) k = PolarHelper.prodV (O.int a k) (O.int b k) := by
  unfold int prodX
  rw [h.vsign _ _ _ hk, h.vmin _ _ _ hk, h.vqabs _ _ hk, h.vqabs _ _ hk, h.vsign _ _ _ hk, h.vsignum _ _ hk,
    Br.vsign, Br.vmin, Br.vqabs, Br.vqabs, Br.vsign, Br.vsignum]; rfl
theorem lane_maddX (h : O.Ok) (a b c : R) {k : Nat} (hk : k < O.n) :
    O.int (O.maddX a b c) k = PolarHelper.maddV (O.int a k) (O.int b k) (O.int c k) := by
  unfold int maddX
  rw [h.vmax _ _ _ hk, h.vqadd _ _ _ hk, h.vsign _ _ _ hk, h.vmax _ _ _ hk, h.vdup _ _ hk, Br.vmax, Br.vqadd, Br.vsign, Br.vmax]; rfl
theorem lane_qmulN (h : O.Ok) (a b : R) {k : Nat} (hk : k < O.n) : O.int (O.qmulN a b) k = PolarHelper.qmul (O.int a k) (O.int b k) := by
  unfold int qmulN; rw [h.vmul _ _ _ hk, Br.vmul]; rfl
theorem lane_prodN (h : O.Ok) (a b : R) {k : Nat} (hk : k < O.n) : O.int (O.prodN a b) k =
    PolarHelper.vmul (PolarHelper.vmul (PolarHelper.vsignum (O.int a k)) (PolarHelper.vsignum (O.int b k)))
      (PolarHelper.vmin (PolarHelper.vqabs (O.int a k)) (PolarHelper.vqabs (O.int b k))) := by
  unfold int prodN
  rw [h.vmul _ _ _ hk, h.vmul _ _ _ hk, h.vmin _ _ _ hk, h.vqabs _ _ hk, h.vqabs _ _ hk, h.vsignum _ _ hk, h.vsignum _ _ hk,
    Br.vmul, Br.vmul, Br.vmin, Br.vqabs, Br.vqabs, Br.vsignum, Br.vsignum]
theorem lane_maddN (h : O.Ok) (a b c : R) {k : Nat} (hk : k < O.n) : O.int (O.maddN a b c) k =
    PolarHelper.vmax (PolarHelper.vqadd (PolarHelper.vmul (O.int a k) (PolarHelper.vmax (O.int b k) (-127))) (O.int c k)) (-127) := by
  unfold int maddN
  rw [h.vmax _ _ _ hk, h.vqadd _ _ _ hk, h.vmul _ _ _ hk, h.vmax _ _ _ hk, h.vdup _ _ hk, Br.vmax, Br.vqadd, Br.vmul, Br.vmax]; rfl

theorem lane_eor (h : O.Ok) (a b : R) {k : Nat} (hk : k < O.n) : O.int (O.eor a b) k = LDPC.eor (O.int a k) (O.int b k) := by
  unfold int eor LDPC.eor
  rw [h.vback _ _ hk, h.veor _ _ _ hk, h.vmask _ _ hk, h.vmask _ _ hk, Br.bits, Br.bits]; rfl
theorem lane_orr (h : O.Ok) (a b : R) {k : Nat} (hk : k < O.n) : O.int (O.orr a b) k = LDPC.orr (O.int a k) (O.int b k) := by
  unfold int orr LDPC.orr
  rw [h.vback _ _ hk, h.vorr _ _ _ hk, h.vmask _ _ hk, h.vmask _ _ hk, Br.bits, Br.bits]; rfl
theorem lane_other (h : O.Ok) (a b c : R) {k : Nat} (hk : k < O.n) : O.int (O.other a b c) k = LDPC.other (O.int a k) (O.int b k) (O.int c k) := by
  unfold int other LDPC.other
  rw [h.vback _ _ hk, h.vbsl _ _ _ _ hk, h.vceq _ _ _ hk, h.vmask _ _ hk, h.vmask _ _ hk, Br.bits, Br.bits, ← Br.msk]; rfl
theorem lane_mine (h : O.Ok) (a b : R) {k : Nat} (hk : k < O.n) : O.int (O.mine a b) k = LDPC.mine (O.int a k) (O.int b k) := by
  unfold mine LDPC.mine
  rw [lane_orr h _ _ hk, lane_eor h _ _ hk]
  unfold int
  rw [h.vdup _ _ hk]; rfl
theorem lane_selfcorr (h : O.Ok) (a b : R) {k : Nat} (hk : k < O.n) : O.int (O.selfcorr a b) k = LDPC.selfcorr (O.int a k) (O.int b k) := by
  unfold int selfcorr LDPC.selfcorr
  rw [h.vback _ _ hk, h.vand _ _ _ hk, h.vmask _ _ hk, h.vorr _ _ _ hk, h.veor _ _ _ hk, h.vceqz _ _ hk, h.vcgtz _ _ hk, h.vcltz _ _ hk,
    Br.bits, ← Br.msk, ← Br.msk, ← Br.msk]; rfl
theorem lane_magOf (h : O.Ok) (BETA : Int) (a : R) {k : Nat} (hk : k < O.n) : O.int (O.magOf BETA a) k = LDPC.magOf BETA (O.int a k) := by
  unfold int magOf LDPC.magOf
  dsimp only
  split
  · rw [h.vback _ _ hk, h.vqsubU _ _ _ hk, h.vmask _ _ hk, h.vmask _ _ hk, h.vqabs _ _ hk, h.vdup _ _ hk, Br.vqsubU, Br.vqabs, Br.toInt_ofInt]
  · rw [h.vqabs _ _ hk, Br.vqabs]
theorem lane_outOf (h : O.Ok) (mag min0 min1 signs inp b : R) {k : Nat} (hk : k < O.n) :
    O.int (O.outOf mag min0 min1 signs inp b) k = LDPC.selfcorr (O.int b k) (LDPC.vclamp (PolarHelper.vsign
      (LDPC.other (O.int mag k) (O.int min0 k) (O.int min1 k)) (LDPC.mine (O.int signs k) (O.int inp k))) (-31) 31) := by
  unfold outOf
  rw [lane_selfcorr h _ _ hk, ← lane_other h _ _ _ hk, ← lane_mine h _ _ hk]
  congr 1
  unfold int
  rw [h.vclamp _ _ _ _ hk, h.vsign _ _ _ hk, Br.vclamp, Br.vsign]; rfl

end Ops
end Verif.SIMD
