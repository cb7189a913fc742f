import Verif.Core
/- Model of interleave.hh. -/
namespace Verif.Interleave
variable {α : Type}

/-- interleave.hh:11-19 (`static_assert` on divisibility as `assertUB`). -/
def interleave (SIZE ORDER : Nat) (out inp : List α) : Option (List α) := do
  assertUB (SIZE % ORDER = 0)
  let LENGTH := SIZE / ORDER
  forUp 0 LENGTH out fun i out =>
    forUp 0 ORDER out fun j out => do
      let v ← rd inp (i + j * LENGTH)
      wr out (ORDER * i + j) v

/-- interleave.hh:21-29 -/
def deinterleave (SIZE ORDER : Nat) (out inp : List α) : Option (List α) := do
  assertUB (SIZE % ORDER = 0)
  let LENGTH := SIZE / ORDER
  forUp 0 LENGTH out fun i out =>
    forUp 0 ORDER out fun j out => do
      let v ← rd inp (ORDER * i + j)
      wr out (i + j * LENGTH) v

end Verif.Interleave
