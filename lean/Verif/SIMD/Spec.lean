import Verif.SIMD.Intrin
/- What it means that a back end function on registers acts lane by lane like the portable template.  `v r k` is `r.v[k]`. -/
namespace Verif.SIMD
variable {R R' : Type} {w : Nat}

/-- The function without operand returns `x` in each of the `n` lanes. -/
def Lift0 (n : Nat) (v : R → Nat → BitVec w) (r : R) (x : BitVec w) : Prop := ∀ k < n, v r k = x
/-- The function fills all `n` lanes with its operand. -/
def LiftDup (n : Nat) (v : R → Nat → BitVec w) (f : BitVec w → R) : Prop := ∀ x, ∀ k < n, v (f x) k = x
/-- The function applies `p` to each of the `n` lanes. -/
def Lift1 (n : Nat) (v : R → Nat → BitVec w) (f : R → R) (p : BitVec w → BitVec w) : Prop := ∀ a, ∀ k < n, v (f a) k = p (v a k)
/-- The same with two operands. -/
def Lift2 (n : Nat) (v : R → Nat → BitVec w) (f : R → R → R) (p : BitVec w → BitVec w → BitVec w) : Prop :=
  ∀ a b, ∀ k < n, v (f a b) k = p (v a k) (v b k)
/-- The same with three operands. -/
def Lift3 (n : Nat) (v : R → Nat → BitVec w) (f : R → R → R → R) (p : BitVec w → BitVec w → BitVec w → BitVec w) : Prop :=
  ∀ a b c, ∀ k < n, v (f a b c) k = p (v a k) (v b k) (v c k)
/-- The function applies `p` to each of the `n` lanes and two scalars. -/
def LiftS (n : Nat) (v : R → Nat → BitVec w) (f : R → BitVec w → BitVec w → R) (p : BitVec w → BitVec w → BitVec w → BitVec w) : Prop :=
  ∀ x a b, ∀ k < n, v (f x a b) k = p (v x k) a b
/-- `vshuf`: lane `k` of the result is the lane of `a` that lane `k` of `b` names, if `ok` holds for that index. -/
def LiftShuf {u : Nat} (n : Nat) (ok : Nat → Prop) (v : R → Nat → BitVec w) (v' : R → Nat → BitVec u) (f : R → R → R) : Prop :=
  ∀ a b, ∀ k < n, ok (v' b k).toNat → v (f a b) k = P.vshuf n (v a) (v' b) k

/-- `vsignum` on floats: on each lane that is not a NaN. -/
def LiftSignum (F : Fmt w) (n : Nat) (v : R → Nat → BitVec w) (f : R → R) : Prop :=
  ∀ a, ∀ k < n, ¬ F.nan (v a k) → v (f a) k = F.vsignum (v a k)
/-- `vmin` and `vmax` on floats: the same value (up to the sign of zero) on each lane without NaN. -/
def LiftNum2 (F : Fmt w) (n : Nat) (v : R → Nat → BitVec w) (f : R → R → R) (p : BitVec w → BitVec w → BitVec w) : Prop :=
  ∀ a b, ∀ k < n, ¬ F.nan (v a k) → ¬ F.nan (v b k) → Fmt.same (v (f a b) k) (p (v a k) (v b k))
/-- `vclamp` on floats: the same value (up to the sign of zero) on each lane without NaN. -/
def LiftClamp (F : Fmt w) (n : Nat) (v : R → Nat → BitVec w) (f : R → BitVec w → BitVec w → R) : Prop :=
  ∀ x a b, ∀ k < n, ¬ F.nan (v x k) → ¬ F.nan a → ¬ F.nan b → Fmt.same (v (f x a b) k) (F.vclamp (v x k) a b)
/-- `vsign` on floats: the same value (up to the sign of zero) on each lane where `a` is finite and `b` is not a NaN, whatever the
multiplication, as long as it satisfies IEEE 754 for factors 1, -1 and 0. -/
def LiftSign (F : Fmt w) (n : Nat) (v : R → Nat → BitVec w) (f : R → R → R) : Prop :=
  ∀ mul, F.MulLaws mul → ∀ a b, ∀ k < n, F.finite (v a k) → ¬ F.nan (v b k) → Fmt.same (v (f a b) k) (F.vsign mul (v a k) (v b k))

end Verif.SIMD
