import Verif.Interleave.Props
import Mathlib.Data.Finset.Card
import Mathlib.Data.Finset.Interval
import Mathlib.Order.Interval.Finset.Nat
/-
Property C65 (interleave.hh): a burst on the channel is spread evenly over the rows.
-/
namespace Verif.Interleave
variable {α : Type}

/-- Row `j` of a block whose rows have `L` symbols (row by row, as it is given to the interleaver). -/
def row (L : Nat) (l : List α) (j : Nat) : List α := (l.drop (j * L)).take L

/-- The positions in which two lists differ. -/
def differ [DecidableEq α] (a b : List α) : Finset Nat := (Finset.range (max a.length b.length)).filter fun i => a[i]? ≠ b[i]?

theorem row_getElem? (L : Nat) (l : List α) (j i : Nat) (hi : i < L) : (row L l j)[i]? = l[j * L + i]? := by
  unfold row
  rw [List.getElem?_take_of_lt hi, List.getElem?_drop]

theorem row_length (L ORDER : Nat) (l : List α) (j : Nat) (hj : j < ORDER) (hl : l.length = ORDER * L) :
    (row L l j).length = L := by
  unfold row
  rw [List.length_take, List.length_drop, hl]
  have : (j + 1) * L ≤ ORDER * L := Nat.mul_le_mul_right _ hj
  rw [Nat.add_mul] at this
  omega

/-- **C65.** `ORDER` rows of `L` symbols are interleaved and sent; the received block differs from the sent one only in a
window of `b` consecutive symbols.  After deinterleaving, every row differs from its original in at most
`b / ORDER` (rounded up) positions. -/
theorem C65_burst [DecidableEq α] (ORDER L : Nat) (hO : 0 < ORDER) (rows out air air' out' : List α)
    (hrows : rows.length = ORDER * L) (hout : out.length = ORDER * L) (hout' : out'.length = ORDER * L)
    (hair : interleave (ORDER * L) ORDER out rows = some air) (hlen : air'.length = ORDER * L)
    (k b : Nat) (hwin : ∀ i ∈ differ air' air, k ≤ i ∧ i < k + b) :
    ∃ got, deinterleave (ORDER * L) ORDER out' air' = some got ∧ got.length = ORDER * L ∧
      ∀ j < ORDER, (differ (row L got j) (row L rows j)).card ≤ (b + ORDER - 1) / ORDER := by
  obtain ⟨r, h1, h2, _, h4, _⟩ := C12_interleave (ORDER * L) ORDER hO (Dvd.intro _ rfl) rows out out' hrows hout hout'
  rw [hair] at h1
  cases h1
  obtain ⟨got, g1, g2, _, g4, _⟩ := C12_deinterleave (ORDER * L) ORDER hO (Dvd.intro _ rfl) air' out' out hlen hout' hout
  rw [Nat.mul_div_cancel_left _ hO] at h4 g4
  refine ⟨got, g1, g2, ?_⟩
  intro j hj
  have hsub : differ (row L got j) (row L rows j) ⊆
      (Finset.Ico ((k + ORDER - 1 - j) / ORDER) ((k + b + ORDER - 1 - j) / ORDER)) := by
    intro i hi
    rw [differ, Finset.mem_filter, row_length L ORDER got j hj g2, row_length L ORDER rows j hj hrows, max_self,
      Finset.mem_range] at hi
    obtain ⟨hiL, hne⟩ := hi
    rw [row_getElem? _ _ _ _ hiL, row_getElem? _ _ _ _ hiL] at hne
    have hk : j * L + i < ORDER * L := by
      have : (j + 1) * L ≤ ORDER * L := Nat.mul_le_mul_right _ hj
      rw [Nat.add_mul] at this
      omega
    have e1 : (j * L + i) % L = i := by rw [Nat.mul_comm, Nat.mul_add_mod, Nat.mod_eq_of_lt hiL]
    have e2 : (j * L + i) / L = j := by
      rw [Nat.mul_comm, Nat.mul_add_div (by omega), Nat.div_eq_of_lt hiL, Nat.add_zero]
    have a1 := g4 _ hk
    have a2 := h4 _ hk
    rw [e1, e2] at a1 a2
    rw [a1, ← a2] at hne
    have hpos : ORDER * i + j < ORDER * L := by
      have : ORDER * (i + 1) ≤ ORDER * L := Nat.mul_le_mul_left _ hiL
      rw [Nat.mul_add] at this
      omega
    have := hwin (ORDER * i + j) (by
      rw [differ, Finset.mem_filter, Finset.mem_range, hlen, h2, max_self]
      exact ⟨hpos, hne⟩)
    rw [Finset.mem_Ico]
    constructor
    · rw [Nat.div_le_iff_le_mul_add_pred hO]; omega
    · rw [← Nat.succ_le_iff, Nat.le_div_iff_mul_le hO, Nat.succ_mul, Nat.mul_comm]; omega
  refine (Finset.card_le_card hsub).trans ?_
  rw [Nat.card_Ico, Nat.sub_le_iff_le_add, ← Nat.lt_add_one_iff, Nat.div_lt_iff_lt_mul hO]
  have m1 := Nat.div_add_mod (b + ORDER - 1) ORDER
  have m2 := Nat.div_add_mod (k + ORDER - 1 - j) ORDER
  have m3 := Nat.mod_lt (b + ORDER - 1) hO
  have m4 := Nat.mod_lt (k + ORDER - 1 - j) hO
  generalize (b + ORDER - 1) / ORDER = x at *
  generalize (k + ORDER - 1 - j) / ORDER = y at *
  have : (x + y + 1) * ORDER = ORDER * x + ORDER * y + ORDER := by ring
  omega

/-- Three rows of four symbols, a burst of five symbols: two, two and one errors. -/
example : ∃ air, interleave 12 3 (List.replicate 12 0) [1, 2, 3, 4, 11, 12, 13, 14, 21, 22, 23, 24] = some air ∧
    (∀ i ∈ differ ((air.take 3) ++ [0, 0, 0, 0, 0] ++ air.drop 8) air, 3 ≤ i ∧ i < 3 + 5) ∧
    ((deinterleave 12 3 (List.replicate 12 0) ((air.take 3) ++ [0, 0, 0, 0, 0] ++ air.drop 8)).map fun got =>
      (List.range 3).map fun j => (differ (row 4 got j) (row 4 [1, 2, 3, 4, 11, 12, 13, 14, 21, 22, 23, 24] j)).card) =
        some [2, 2, 1] := by decide

end Verif.Interleave
