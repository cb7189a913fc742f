import Verif.GF2.Period
import Mathlib.Data.Fintype.Prod
import Mathlib.Data.Fintype.EquivFin
/-
Bit vectors as a GF(2) vector space: addition is xor.
-/
namespace Verif.GF2

/-- `BitVec n` with xor as addition. -/
def XVec (n : Nat) := BitVec n

namespace XVec
variable {n : Nat}

instance : DecidableEq (XVec n) := inferInstanceAs (DecidableEq (BitVec n))

instance : Zero (XVec n) := ⟨(0#n : BitVec n)⟩
instance : Add (XVec n) := ⟨fun a b => (BitVec.xor a b : BitVec n)⟩
instance : Neg (XVec n) := ⟨fun a => a⟩

instance : AddCommGroup (XVec n) where
  add_assoc a b c := BitVec.xor_assoc a b c
  zero_add a := BitVec.zero_xor (x := a)
  add_zero a := BitVec.xor_zero (x := a)
  add_comm a b := BitVec.xor_comm a b
  neg_add_cancel a := BitVec.xor_self (x := a)
  nsmul := nsmulRec
  zsmul := zsmulRec

theorem add_def (a b : XVec n) : a + b = (BitVec.xor a b : BitVec n) := rfl
theorem zero_def : (0 : XVec n) = (0#n : BitVec n) := rfl
theorem add_self (a : XVec n) : a + a = 0 := BitVec.xor_self (x := a)

instance : Module (ZMod 2) (XVec n) := AddCommGroup.zmodModule (n := 2) fun x => by
  rw [two_nsmul, add_self]

instance : Fintype (XVec n) := Fintype.ofEquiv (Fin (2 ^ n))
  ⟨fun i => (BitVec.ofFin i : BitVec n), fun x => BitVec.toFin x, fun _ => rfl, fun _ => rfl⟩

theorem card : Fintype.card (XVec n) = 2 ^ n := by
  rw [Fintype.card_congr
    (⟨fun x => BitVec.toFin x, fun i => (BitVec.ofFin i : BitVec n), fun _ => rfl, fun _ => rfl⟩ :
      XVec n ≃ Fin (2 ^ n)), Fintype.card_fin]

/-- Forcing evaluation in the kernel. -/
def fo (x : XVec n) (f : XVec n → XVec n) : XVec n :=
  force (BitVec.toNat x) fun k => f (BitVec.ofNat n k : BitVec n)

theorem fo_eq (x : XVec n) (f : XVec n → XVec n) : fo x f = f x := by
  unfold fo; rw [force_eq]; congr 1; exact (BitVec.ofNat_toNat (m := n) x).trans (BitVec.setWidth_eq x)

/-- An xor-preserving function as a linear map. -/
def lin {V : Type*} [AddCommGroup V] [Module (ZMod 2) V] (f : V → V)
    (h : ∀ a b, f (a + b) = f a + f b) : V →ₗ[ZMod 2] V :=
  (AddMonoidHom.mk' f h).toZModLinearMap 2

theorem lin_apply {V : Type*} [AddCommGroup V] [Module (ZMod 2) V] (f : V → V)
    (h : ∀ a b, f (a + b) = f a + f b) (x : V) : lin f h x = f x := rfl

theorem coe_lin {V : Type*} [AddCommGroup V] [Module (ZMod 2) V] (f : V → V)
    (h : ∀ a b, f (a + b) = f a + f b) : ⇑(lin f h) = f := rfl

end XVec
end Verif.GF2
