import Verif.Polar.PropsList
import Verif.Polar.Schedule
/- Successive cancellation list decoding as in the textbook, on whole paths: no arrays, no lane maps.  Nothing here refers to
the model of the code. -/
namespace Verif.Polar

/-- The soft values of node number `n` at depth `t` of the code tree of a code of length `2^M`, for a path with the symbols `u`:
the node covers the `2^(M-t)` positions from `n * 2^(M-t)` on.  A left child gets the soft values of the sums of two symbols, a
right child those of the second symbols, now that the first half of the block is decided. -/
noncomputable def nodeSoft (M : Nat) (s u : Nat → Int) : Nat → Nat → Nat → Int
  | 0, _, i => s i
  | t + 1, n, i =>
    let h := 2 ^ (M - (t + 1))
    let a := nodeSoft M s u t (n / 2) i
    let b := nodeSoft M s u t (n / 2) (h + i)
    if n % 2 = 0 then softF a b else softG (polar (M - (t + 1)) (fun j => u ((n - 1) * h + j)) i) a b

open Classical in
/-- The nodes that are processed, from left to right, for the subtree of `2^d` positions from `n * 2^d` on: leaves, and blocks of
up to 32 positions all of which are frozen. -/
noncomputable def steps (fr : Nat → Prop) : Nat → Nat → List (Nat × Nat)
  | 0, n => [(0, n)]
  | d + 1, n => if d + 1 ≤ 5 ∧ ∀ i, i < 2 ^ (d + 1) → fr (n * 2 ^ (d + 1) + i) then [(d + 1, n)] else steps fr d (2 * n) ++ steps fr d (2 * n + 1)

/-- A path: its decisions so far and its metric. -/
abbrev Path := List Int × Int

/-- The `L` paths of least metric in ascending order; of paths with equal metric the one listed first comes first. -/
def best (L : Nat) (l : List Path) : List Path := (l.mergeSort fun a b => decide (a.2 ≤ b.2)).take L

open Classical in
/-- One step: the node of the `2^d` positions from `n * 2^d` on.  If they are frozen every path is continued with ones and
charged for the soft values that point to -1; a position that is not frozen splits every path in two, of which the best
`L` are kept.  `cost w μ s b` is the metric of the path `w` of metric `μ` with the symbol `b` on the soft value `s`. -/
noncomputable def sclStep (L M : Nat) (s : Nat → Int) (fr : Nat → Prop) (cost : List Int → Int → Int → Int → Int) (ps : List Path) (nd : Nat × Nat) : List Path :=
  let soft := fun (w : List Int) i => nodeSoft M s (w.getD · 1) (M - nd.1) nd.2 i
  if fr (nd.2 * 2 ^ nd.1) then
    ps.map fun a => (a.1 ++ List.replicate (2 ^ nd.1) 1, a.2 + ∑ i ∈ Finset.range (2 ^ nd.1), penalty (soft a.1 i) 1)
  else best L (ps.flatMap fun a => [(a.1 ++ [1], cost a.1 a.2 (soft a.1 0) 1), (a.1 ++ [-1], cost a.1 a.2 (soft a.1 0) (-1))])

/-- The list decoder: it starts with one path of metric 0 and `L - 1` of metric 1000000. -/
noncomputable def scl (L M : Nat) (s : Nat → Int) (fr : Nat → Prop) (cost : List Int → Int → Int → Int → Int) : List Path :=
  (steps fr M 0).foldl (sclStep L M s fr cost) (([], 0) :: List.replicate (L - 1) ([], 1000000))

/-- In a plain list decoder the penalties of the decisions add up. -/
def addPenalty (_ : List Int) (μ s b : Int) : Int := μ + penalty s b

open Classical in
/-- The message symbols of a path: its decisions at the positions that are not frozen. -/
noncomputable def freeSymbols (fr : Nat → Prop) (w : List Int) : List Int := ((List.range w.length).filter fun i => ¬ fr i).map fun i => w.getD i 1

/-- In the parity-aided list decoder symbol number `r` of the symbols that are not frozen may be a parity symbol: then it has to be
the product of the symbols since the last parity symbol, otherwise the metric is set to 1000000. -/
noncomputable def parityCost (first stride : Nat) (fr : Nat → Prop) (w : List Int) (μ s b : Int) : Int :=
  let m := freeSymbols fr w
  if isParity first stride m.length ∧ b ≠ (m.drop (m.length - span first stride m.length)).prod then 1000000 else μ + penalty s b

/-- The symbols that are not parity symbols. -/
def dataSymbols (first stride : Nat) (m : List Int) : List Int := ((List.range m.length).filter fun r => ¬ isParity first stride r).map fun r => m.getD r 1

end Verif.Polar
