import Verif.Polar.SpecSc
import Verif.Polar.SpecScl
/- Successive cancellation list decoding as in the textbook, on whole paths, for any arithmetic of the soft values and of the metrics.
Nothing here refers to the model of the code.  (SpecScl.lean is the special case of 8-bit soft values.) -/
namespace Verif.Polar
variable {V P : Type} [LinearOrder P]

/-- The `L` paths (decisions, metric) of least metric in ascending order; of paths with equal metric the one listed first comes first. -/
def bestOf (L : Nat) (l : List (List Int × P)) : List (List Int × P) := (l.mergeSort fun a b => decide (a.2 ≤ b.2)).take L

/-- Both continuations of every path; `cost w μ s b` is the metric of the path `w` of metric `μ` with the symbol `b` on the soft value `s`. -/
def forks (cost : List Int → P → V → Int → P) (soft : List Int → V) (ps : List (List Int × P)) : List (List Int × P) :=
  ps.flatMap fun a => [(a.1 ++ [1], cost a.1 a.2 (soft a.1) 1), (a.1 ++ [-1], cost a.1 a.2 (soft a.1) (-1))]

open Classical in
/-- One step: the node of the `2^d` positions from `n * 2^d` on.  If they are frozen every path is continued with ones and
charged for the soft values one by one; a position that is not frozen splits every path in two, of which the best `L` are kept. -/
noncomputable def sclStepOf (A : Arith V) (L M : Nat) (s : Nat → V) (fr : Nat → Prop) (pay : P → V → P) (cost : List Int → P → V → Int → P) (ps : List (List Int × P))
    (nd : Nat × Nat) : List (List Int × P) :=
  let soft := fun (w : List Int) i => softAt A M s (w.getD · 1) (M - nd.1) nd.2 i
  if fr (nd.2 * 2 ^ nd.1) then ps.map fun a => (a.1 ++ List.replicate (2 ^ nd.1) 1, ((List.range (2 ^ nd.1)).map (soft a.1)).foldl pay a.2)
  else bestOf L (forks cost (fun w => soft w 0) ps)

/-- The list decoder: it starts with one path of metric `zero` and `L - 1` of metric `phantom`. -/
noncomputable def sclOf (A : Arith V) (L M : Nat) (s : Nat → V) (fr : Nat → Prop) (zero phantom : P) (pay : P → V → P) (cost : List Int → P → V → Int → P) : List (List Int × P) :=
  (steps fr M 0).foldl (sclStepOf A L M s fr pay cost) (([], zero) :: List.replicate (L - 1) ([], phantom))

end Verif.Polar
