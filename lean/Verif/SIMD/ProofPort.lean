import Verif.SIMD.Templates
import Verif.SIMD.LaneLemmas
/- The loops of the portable templates, and the numbers in their lanes. -/
namespace Verif.SIMD.T
variable {w u W : Nat}

theorem each_some {tmp : List (BitVec u)} {f : Nat → Option (BitVec u)} {g : Nat → BitVec u} (hl : tmp.length = W) (h : ∀ k, k < W → f k = some (g k)) :
    each W tmp f = some ((List.range W).map g) := by
  unfold each
  rw [forUp_fill (g := g) (by omega)]
  · rw [← hl, List.drop_length, List.append_nil]
  · intro j l hj hll
    rw [h j hj, Option.bind_some, wr, if_pos (by omega)]

theorem forN_none {σ : Type} {f : Nat → σ → Option σ} {k : Nat} (h : ∀ s, f k s = none) : ∀ (n lo : Nat) (s : σ), lo ≤ k → k < lo + n → forN n lo s f = none
  | 0, lo, s, h1, h2 => by omega
  | n + 1, lo, s, h1, h2 => by
    unfold forN
    rcases Nat.lt_or_ge lo k with hk | hk
    · cases hf : f lo s with
      | none => rfl
      | some t => exact forN_none h n (lo + 1) t (by omega) (by omega)
    · have : lo = k := by omega
      subst this
      rw [h s]; rfl

theorem each_none {tmp : List (BitVec u)} {f : Nat → Option (BitVec u)} {k : Nat} (hk : k < W) (h : f k = none) : each W tmp f = none :=
  forN_none (f := fun i tmp => (f i).bind (wr tmp i)) (fun s => by rw [h]; rfl) (W - 0) 0 tmp (by omega) (by omega)

theorem rd_lt {a : List (BitVec w)} {k : Nat} (ha : a.length = W) (hk : k < W) : rd a k = some (a.getD k 0) := by
  unfold rd
  rw [List.getElem?_eq_getElem (by omega), getElem_eq_getD _ 0]

theorem range_getD {α : Type} {g : Nat → α} {d : α} {k : Nat} (hk : k < W) : ((List.range W).map g).getD k d = g k := by simp [hk]

/-- A number that fits keeps its value. -/
theorem toInt_conv (hw : 0 < w) {x : Int} (h1 : -2 ^ (w - 1) ≤ x) (h2 : x < 2 ^ (w - 1)) : (conv w x).toInt = x := by
  unfold conv
  rw [BitVec.toInt_ofInt]
  obtain ⟨n, rfl⟩ : ∃ n, w = n + 1 := ⟨w - 1, by omega⟩
  simp only [Nat.add_sub_cancel] at h1 h2
  have e : ((2 ^ (n + 1) : Nat) : Int) = 2 * 2 ^ n := by push_cast; ring
  exact Int.bmod_eq_of_le (by rw [e]; omega) (by rw [e]; omega)

theorem toInt_range (hw : 0 < w) (x : BitVec w) : -2 ^ (w - 1) ≤ x.toInt ∧ x.toInt < 2 ^ (w - 1) := ⟨BitVec.le_toInt x, BitVec.toInt_lt⟩

theorem minus_true : minus w true = BitVec.allOnes w := by
  show BitVec.ofInt w (-(1 : Int)) = _
  rw [BitVec.ofInt_neg, show BitVec.ofInt w 1 = 1 by simp]
  exact BitVec.neg_one_eq_allOnes
theorem minus_false : minus w false = 0 := by unfold minus conv; simp

theorem minus_eq (c : Bool) : minus w c = mask w c := by
  cases c
  · rw [minus_false]; rfl
  · rw [minus_true]; rfl

end Verif.SIMD.T
