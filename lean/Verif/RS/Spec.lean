import Verif.GF.Props
/- Specification of the Reed-Solomon code used by C22-C26 (and of the BCH decoder): nothing here
refers to the model of the encoder or decoder.  `GFR P` is the field GF(2)[x]/(P), `toR P v` the
element whose coefficients are the bits of `v`, `xR P` the class of `x`. -/
namespace Verif.RS
open Verif.GF Finset

/-- The value at `β` of a block read as a polynomial, first symbol = highest coefficient. -/
noncomputable def polyAt (P : Nat) (b : List Nat) (β : GFR P) : GFR P :=
  ∑ j ∈ range b.length, toR P (b.getD j 0) * β ^ (b.length - 1 - j)

/-- The Reed-Solomon code: the blocks that vanish at `NR` consecutive powers of the primitive
element, starting with exponent `FCR`. -/
def Codeword (P NR FCR : Nat) (b : List Nat) : Prop :=
  ∀ i, i < NR → polyAt P b (xR P ^ (FCR + i)) = 0

/-- The positions in which two blocks differ. -/
def diffPos (a b : List Nat) : Finset Nat := (range a.length).filter fun j => a.getD j 0 ≠ b.getD j 0

/-- The number of positions in which two blocks differ. -/
def diff (a b : List Nat) : Nat := (diffPos a b).card

/-- The locator of symbol `j` of a block of `n` symbols. -/
noncomputable def loc (P n j : Nat) : GFR P := xR P ^ (n - 1 - j)

/-- The two-position patterns affected by the value skipped in the table for `x^2+x`: the product of
the two locators is all-ones times the square of their sum. -/
def Excluded (P M n : Nat) (A : Finset Nat) : Prop :=
  ∃ p q, p ≠ q ∧ A = {p, q} ∧ loc P n p * loc P n q = toR P (2 ^ M - 1) * (loc P n p + loc P n q) ^ 2

/-- `S` satisfies a linear recurrence of length `L` whose characteristic polynomial vanishes at
the locators of the erased positions. -/
def Recurrence (P NR n : Nat) (R : Finset Nat) (S : Nat → GFR P) (L : Nat) : Prop :=
  ∃ c : Nat → GFR P, c 0 = 1 ∧
    (∀ p ∈ R, ∑ k ∈ range (L + 1), c k * loc P n p ^ (L - k) = 0) ∧
    ∀ j, L ≤ j → j < NR → ∑ k ∈ range (L + 1), c k * S (j - k) = 0

/-- The length of the shortest such recurrence. -/
def Shortest (P NR n : Nat) (R : Finset Nat) (S : Nat → GFR P) (L : Nat) : Prop :=
  Recurrence P NR n R S L ∧ ∀ L', Recurrence P NR n R S L' → L ≤ L'

/-- Template parameters and block length as the static properties of the code require. -/
structure Params (M NR FCR dl : Nat) : Prop where
  fcr : FCR < 2 ^ M - 1
  nr : 0 < NR
  pos : 0 < dl
  len : dl + NR ≤ 2 ^ M - 1

end Verif.RS
