import Verif.Core
/- Model of exclusive_reduce.hh. -/
namespace Verif.Reduce
variable {α : Type}

/-- exclusive_reduce.hh:11-26.  `inp` is read only (it is not returned), `out` is a
separate array. -/
def exclusiveReduce (inp out : List α) (N : Nat) (op : α → α → α) : Option (List α) := do
  let pre ← rd inp 0
  let (out, pre) ← forUp 1 (N - 1) (out, pre) fun i (out, pre) => do
    let out ← wr out i pre
    let x ← rd inp i
    return (out, op pre x)
  let out ← wr out (N - 1) pre
  let suf ← rd inp (N - 1)
  let (out, suf) ← forDown 1 (N - 2) (out, suf) fun i (out, suf) => do
    let o ← rd out i
    let out ← wr out i (op o suf)
    let x ← rd inp i
    return (out, op suf x)
  wr out 0 suf

end Verif.Reduce
