import Verif.Polar.PropsEnc
/- Successive cancellation decoding as in the textbook, for any arithmetic of the soft values.  Nothing here refers to the model of
the code. -/
namespace Verif.Polar
variable {V : Type}

/-- The arithmetic of soft values.  Two symbols `x` and `y` are sent as `x * y` and `y`, received with the soft values `a` and `b`: then
`F a b` is the soft value of `x`, `G x a b` that of `y` once `x` is decided; `sgn` is the decision (1, -1, or 0 if there is none). -/
structure Arith (V : Type) where
  F : V → V → V
  G : Int → V → V → V
  sgn : V → Int

/-- The soft values of node number `n` at depth `t` of the code tree of a code of length `2^M`, for a path with the symbols `u`:
the node covers the `2^(M-t)` positions from `n * 2^(M-t)` on.  A left child gets the soft values of the products of two symbols, a
right child those of the second symbols, now that the first half of the block is decided. -/
noncomputable def softAt (A : Arith V) (M : Nat) (s : Nat → V) (u : Nat → Int) : Nat → Nat → Nat → V
  | 0, _, i => s i
  | t + 1, n, i =>
    let h := 2 ^ (M - (t + 1))
    let a := softAt A M s u t (n / 2) i
    let b := softAt A M s u t (n / 2) (h + i)
    if n % 2 = 0 then A.F a b else A.G (polar (M - (t + 1)) (fun j => u ((n - 1) * h + j)) i) a b

/-- The first `n` decisions, position by position: a frozen one is decided as 1, any other by the sign of its soft value given the
decisions before it.  No blocks are treated specially. -/
noncomputable def decisions (A : Arith V) (M : Nat) (s : Nat → V) (fr : Nat → Prop) [DecidablePred fr] : Nat → List Int
  | 0 => []
  | i + 1 => decisions A M s fr i ++ [if fr i then 1 else A.sgn (softAt A M s ((decisions A M s fr i).getD · 1) M i 0)]

/-- Every decision is made on a soft value that has a sign. -/
def Decided (A : Arith V) (M : Nat) (s : Nat → V) (fr : Nat → Prop) [DecidablePred fr] : Prop :=
  ∀ i, i < 2 ^ M → ¬ fr i → A.sgn (softAt A M s ((decisions A M s fr i).getD · 1) M i 0) ≠ 0

end Verif.Polar
