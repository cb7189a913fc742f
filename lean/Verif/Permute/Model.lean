import Verif.Xorshift.Model
/- Model of permute.hh. -/
namespace Verif.Permute
open Xorshift
variable {α : Type}

/-- `std::swap(array[i], array[j])` -/
def swap (a : List α) (i j : Nat) : Option (List α) := do
  let x ← rd a i
  let y ← rd a j
  let a ← wr a i y
  wr a j x

/-- permute.hh:17-22 `FisherYatesShuffle<SIZE>::operator()`.  The loop state is the array and
the generator. -/
def fisherYates (SIZE : Nat) (array : List α) : Option (List α) := do
  let r ← forUp 0 (SIZE - 1) (array, X32.new) fun i (array, prng) => do
    let (prng, v) := prng.next
    let array ← swap array i (i + v.toNat % (SIZE - i))
    return (array, prng)
  return r.1

/-- permute.hh:30-35, the constructor of `ReverseFisherYatesShuffle<SIZE>`: the member array
`seq`.  Its cells are indeterminate before the loop; here they start as 0. -/
def reverseSeq (SIZE : Nat) : Option (List Nat) := do
  let r ← forUp 0 (SIZE - 1) (List.replicate (SIZE - 1) 0, X32.new) fun i (seq, prng) => do
    let (prng, v) := prng.next
    let seq ← wr seq i (i + v.toNat % (SIZE - i))
    return (seq, prng)
  return r.1

/-- permute.hh:36-41 `ReverseFisherYatesShuffle<SIZE>::operator()` -/
def reverseFisherYates (SIZE : Nat) (seq : List Nat) (array : List α) : Option (List α) :=
  forDown 0 (SIZE - 1) array fun i array => do
    let j ← rd seq i
    swap array i j

/-- permute.hh:52-56, one advance of the reversed counter `j`; the inner loop gets fuel `SIZE+1`. -/
def nextRev (SIZE j : Nat) : Option Nat := do
  let k := SIZE >>> 1
  let (j, k) ← whileF (SIZE + 1) (fun (j, k) => decide (j &&& k ≠ 0))
    (fun (j, k) => some (j ^^^ k, k >>> 1)) (j, k)
  return j ^^^ k

/-- permute.hh:44-58 -/
def bitReversalPermute (SIZE : Nat) (array : List α) : Option (List α) := do
  assertUB (SIZE > 0 ∧ SIZE &&& (SIZE - 1) = 0)
  let r ← forUp 0 (SIZE - 1) (array, 0) fun i (array, j) => do
    let array ← (if i < j then swap array i j else some array)
    let j ← nextRev SIZE j
    return (array, j)
  return r.1

end Verif.Permute
