import Verif.Hadamard.Model
import Verif.RS.Search
import Mathlib.Algebra.BigOperators.Ring.Finset
import Mathlib.Algebra.Order.BigOperators.Ring.Finset
import Mathlib.Algebra.BigOperators.Intervals
import Mathlib.Tactic.Ring
import Mathlib.Tactic.Linarith
import Mathlib.Tactic.IntervalCases
/- The fast transform and the search for the best message. -/
namespace Verif.Hadamard
open Finset
open Verif.RS (sb)

theorem chk_ok {x : Int} (h : |x| < 2 ^ 31) : chk x = some x := by
  unfold chk
  rw [abs_lt] at h
  rw [if_pos (by omega)]

/-- The sign of a bit. -/
def sg (b : Bool) : Int := if b then -1 else 1

theorem sg_xor (a b : Bool) : sg (a ^^ b) = sg a * sg b := by cases a <;> cases b <;> rfl
theorem sg_abs (b : Bool) : |sg b| = 1 := by cases b <;> rfl
theorem sg_sq (b : Bool) : sg b * sg b = 1 := by cases b <;> rfl
theorem sg_false : sg false = 1 := rfl

/-- The sign `(-1) ^ (number of common ones of r and t below bit n)`. -/
def chi (n r t : Nat) : Int := ∏ b ∈ range n, sg (r.testBit b && t.testBit b)

theorem chi_abs (n r t : Nat) : |chi n r t| = 1 := by
  unfold chi
  rw [abs_prod]
  exact prod_eq_one fun b _ => sg_abs _

theorem chi_comm (n r t : Nat) : chi n r t = chi n t r := by
  unfold chi
  exact prod_congr rfl fun b _ => by rw [Bool.and_comm]

theorem chi_sq (n r t : Nat) : chi n r t * chi n r t = 1 := by
  unfold chi
  rw [← prod_mul_distrib]
  exact prod_eq_one fun b _ => sg_sq _

theorem chi_succ (n r t : Nat) : chi (n + 1) r t = chi n r t * sg (r.testBit n && t.testBit n) := prod_range_succ _ _

theorem chi_congr {n r r' t t' : Nat} (h : ∀ b, b < n → r.testBit b = r'.testBit b) (h' : ∀ b, b < n → t.testBit b = t'.testBit b) :
    chi n r t = chi n r' t' := prod_congr rfl fun b hb => by rw [h b (mem_range.1 hb), h' b (mem_range.1 hb)]

theorem chi_xor (n r s t : Nat) : chi n (r ^^^ s) t = chi n r t * chi n s t := by
  unfold chi
  rw [← prod_mul_distrib]
  refine prod_congr rfl fun b _ => ?_
  rw [← sg_xor, Nat.testBit_xor]
  congr 1
  cases r.testBit b <;> cases s.testBit b <;> cases t.testBit b <;> rfl

theorem chi_high (n r t : Nat) : chi n (2 ^ n + r) t = chi n r t :=
  chi_congr (fun b hb => Nat.testBit_two_pow_add_gt hb r) fun _ _ => rfl

theorem chi_high' (n r t : Nat) : chi n r (2 ^ n + t) = chi n r t := by rw [chi_comm, chi_high, chi_comm]

/-- The transform of `2 ^ s` values. -/
def tr (s r : Nat) (y : Nat → Int) : Int := ∑ t ∈ range (2 ^ s), chi s r t * y t

theorem tr_succ_low {s r : Nat} (hr : r < 2 ^ s) (y : Nat → Int) :
    tr (s + 1) r y = tr s r y + tr s r (fun t => y (2 ^ s + t)) := by
  unfold tr
  rw [pow_succ, mul_two, sum_range_add]
  congr 1
  · refine sum_congr rfl fun t ht => ?_
    rw [chi_succ, Nat.testBit_eq_false_of_lt hr, Bool.false_and, sg_false, mul_one]
  · refine sum_congr rfl fun t ht => ?_
    rw [chi_succ, Nat.testBit_eq_false_of_lt hr, Bool.false_and, sg_false, mul_one, chi_high']

theorem tr_succ_high {s r : Nat} (hr : r < 2 ^ s) (y : Nat → Int) :
    tr (s + 1) (2 ^ s + r) y = tr s r y - tr s r (fun t => y (2 ^ s + t)) := by
  unfold tr
  have hb : (2 ^ s + r).testBit s = true := by rw [Nat.testBit_two_pow_add_eq, Nat.testBit_eq_false_of_lt hr]; rfl
  rw [pow_succ, mul_two, sum_range_add, sub_eq_add_neg, ← sum_neg_distrib]
  congr 1
  · refine sum_congr rfl fun t ht => ?_
    rw [chi_succ, Nat.testBit_eq_false_of_lt (mem_range.1 ht), Bool.and_false, sg_false, mul_one, chi_high]
  · refine sum_congr rfl fun t ht => ?_
    have ht' : (2 ^ s + t).testBit s = true := by
      rw [Nat.testBit_two_pow_add_eq, Nat.testBit_eq_false_of_lt (mem_range.1 ht)]; rfl
    rw [chi_succ, hb, ht', chi_high, chi_high']
    simp [sg]

theorem tr_abs {s r B : Nat} {y : Nat → Int} (hy : ∀ t, |y t| ≤ B) : |tr s r y| ≤ 2 ^ s * B := by
  unfold tr
  calc |∑ t ∈ range (2 ^ s), chi s r t * y t| ≤ ∑ t ∈ range (2 ^ s), |chi s r t * y t| := abs_sum_le_sum_abs _ _
    _ ≤ ∑ t ∈ range (2 ^ s), (B : Int) := sum_le_sum fun t _ => by rw [abs_mul, chi_abs, one_mul]; exact hy t
    _ = 2 ^ s * B := by rw [sum_const, card_range, nsmul_eq_mul]; push_cast; rfl

/-- The state of the array after the stage with `2 * h = 2 ^ s`. -/
def Stage (k s : Nat) (y : Nat → Int) (sum : List Int) : Prop :=
  sum.length = 2 ^ k ∧ ∀ b r, b < 2 ^ (k - s) → r < 2 ^ s → sum.getD (2 ^ s * b + r) 0 = tr s r (fun t => y (2 ^ s * b + t))

theorem blk_lt {h n b r : Nat} (hb : b < n) (hr : r < h) : h * b + r < h * n := by
  have : h * (b + 1) ≤ h * n := Nat.mul_le_mul_left _ hb
  rw [Nat.mul_succ] at this
  omega

theorem butterfly_ok {sum : List Int} {h j B : Nat} (hj : j + h < sum.length) (h0 : 0 < h) (ha : |sum.getD j 0| ≤ B)
    (hb : |sum.getD (j + h) 0| ≤ B) (hB : 2 * B < 2 ^ 31) :
    butterfly h j sum = some ((sum.set j (sum.getD j 0 + sum.getD (j + h) 0)).set (j + h) (sum.getD j 0 - sum.getD (j + h) 0)) := by
  unfold butterfly
  have hB' : (2 * B : Int) < 2 ^ 31 := by exact_mod_cast hB
  have e1 : |sum.getD j 0 + sum.getD (j + h) 0| < 2 ^ 31 := by
    have := abs_add_le (sum.getD j 0) (sum.getD (j + h) 0)
    linarith
  have e2 : |sum.getD j 0 - sum.getD (j + h) 0| < 2 ^ 31 := by
    have := abs_sub (sum.getD j 0) (sum.getD (j + h) 0)
    linarith
  rw [rd_of_lt (by omega), sb, getElem_eq_getD _ 0, rd_of_lt hj, sb, getElem_eq_getD _ 0, chk_ok e1, sb, chk_ok e2, sb,
    wr_of_lt (by omega), sb, wr_of_lt (by rw [List.length_set]; omega)]

theorem stage_ok {k s B : Nat} {y : Nat → Int} {sum : List Int} (hs : s < k) (hy : ∀ t, |y t| ≤ B) (hB : 2 ^ (s + 1) * B < 2 ^ 31)
    (H : Stage k s y sum) : Ok (stage (2 ^ k) (2 ^ s) sum) (Stage k (s + 1) y) := by
  obtain ⟨hl, hv⟩ := H
  unfold stage
  set h := 2 ^ s with hh
  have h0 : 0 < h := by positivity
  have hn : 2 ^ k = 2 * h * 2 ^ (k - (s + 1)) := by
    rw [hh, ← pow_succ', ← pow_add]; congr 1; omega
  have hcnt : 2 ^ k / (2 * h) = 2 ^ (k - (s + 1)) := by rw [hn, Nat.mul_div_cancel_left _ (by omega)]
  have hhalf : 2 ^ (k - s) = 2 * 2 ^ (k - (s + 1)) := by rw [← pow_succ']; congr 1; omega
  rw [hcnt]
  have hB2 : 2 * (h * B) < 2 ^ 31 := by
    calc 2 * (h * B) = 2 ^ (s + 1) * B := by rw [pow_succ]; ring
      _ < _ := hB
  set m := 2 ^ (k - (s + 1)) with hm
  have vlow : ∀ b r, b < m → r < h → sum.getD (2 * h * b + r) 0 = tr s r (fun t => y (2 * h * b + t)) := by
    intro b r hb hr
    have := hv (2 * b) r (by omega) hr
    rw [show h * (2 * b) = 2 * h * b by ring] at this
    exact this
  have vhigh : ∀ b r, b < m → r < h → sum.getD (2 * h * b + r + h) 0 = tr s r (fun t => y (2 * h * b + (h + t))) := by
    intro b r hb hr
    have := hv (2 * b + 1) r (by omega) hr
    rw [show h * (2 * b + 1) + r = 2 * h * b + r + h by ring] at this
    rw [this]
    congr 1; funext t; congr 1; ring
  -- what the array contains once position `i` has been processed
  let new : Nat → Int := fun i => tr (s + 1) (i % (2 * h)) (fun t => y (2 * h * (i / (2 * h)) + t))
  have newlow : ∀ b r, b < m → r < h → new (2 * h * b + r) = sum.getD (2 * h * b + r) 0 + sum.getD (2 * h * b + r + h) 0 := by
    intro b r hb hr
    have e1 : (2 * h * b + r) % (2 * h) = r := by rw [Nat.mul_add_mod, Nat.mod_eq_of_lt (by omega)]
    have e2 : (2 * h * b + r) / (2 * h) = b := by
      rw [Nat.mul_add_div (by omega), Nat.div_eq_of_lt (by omega), add_zero]
    show tr (s + 1) _ _ = _
    rw [e1, e2, tr_succ_low hr, vlow b r hb hr, vhigh b r hb hr]
  have newhigh : ∀ b r, b < m → r < h → new (2 * h * b + r + h) = sum.getD (2 * h * b + r) 0 - sum.getD (2 * h * b + r + h) 0 := by
    intro b r hb hr
    have e1 : (2 * h * b + r + h) % (2 * h) = h + r := by
      rw [add_assoc, Nat.mul_add_mod, Nat.mod_eq_of_lt (by omega), add_comm]
    have e2 : (2 * h * b + r + h) / (2 * h) = b := by
      rw [add_assoc, Nat.mul_add_div (by omega), Nat.div_eq_of_lt (by omega), add_zero]
    show tr (s + 1) _ _ = _
    rw [e1, e2, tr_succ_high hr, vlow b r hb hr, vhigh b r hb hr]
  refine Ok.mono (forUp_inv (fun b (l : List Int) => l.length = 2 ^ k ∧ ∀ i, l.getD i 0 = if i < 2 * h * b then new i else sum.getD i 0)
    (Nat.zero_le _) ⟨hl, fun i => by simp⟩ ?_) ?_
  · rintro b l _ hb ⟨l1, l2⟩
    have hbm : 2 * h * b + 2 * h ≤ 2 ^ k := by
      rw [hn]; have := blk_lt (h := 2 * h) (r := 2 * h - 1) hb (by omega); omega
    refine Ok.mono (forUp_inv (fun j (l : List Int) => l.length = 2 ^ k ∧ ∀ i, l.getD i 0 =
      if i < j ∨ (2 * h * b + h ≤ i ∧ i < j + h) then new i else sum.getD i 0) (by omega) ⟨l1, fun i => ?_⟩ ?_) ?_
    · rw [l2]
      by_cases hi : i < 2 * h * b
      · rw [if_pos hi, if_pos (Or.inl hi)]
      · rw [if_neg hi, if_neg (by omega)]
    · rintro j l hj hj' ⟨m1, m2⟩
      obtain ⟨r, rfl⟩ : ∃ r, j = 2 * h * b + r := ⟨j - 2 * h * b, by omega⟩
      have hr : r < h := by omega
      have ea : l.getD (2 * h * b + r) 0 = sum.getD (2 * h * b + r) 0 := by rw [m2, if_neg (by omega)]
      have eb : l.getD (2 * h * b + r + h) 0 = sum.getD (2 * h * b + r + h) 0 := by rw [m2, if_neg (by omega)]
      have ha : |l.getD (2 * h * b + r) 0| ≤ (h * B : Nat) := by
        rw [ea, vlow b r hb hr]
        have := tr_abs (s := s) (r := r) (B := B) (y := fun t => y (2 * h * b + t)) (fun t => hy _)
        push_cast [hh]; exact this
      have hb' : |l.getD (2 * h * b + r + h) 0| ≤ (h * B : Nat) := by
        rw [eb, vhigh b r hb hr]
        have := tr_abs (s := s) (r := r) (B := B) (y := fun t => y (2 * h * b + (h + t))) (fun t => hy _)
        push_cast [hh]; exact this
      rw [butterfly_ok (by omega) h0 ha hb' hB2]
      refine Ok.some ⟨by rw [List.length_set, List.length_set, m1], fun i => ?_⟩
      rw [getD_set, List.length_set, getD_set, ea, eb]
      by_cases h1 : 2 * h * b + r + h = i
      · subst h1
        rw [if_pos ⟨rfl, by omega⟩, if_pos (by omega), newhigh b r hb hr]
      · rw [if_neg (by tauto)]
        by_cases h2 : 2 * h * b + r = i
        · subst h2
          rw [if_pos ⟨rfl, by omega⟩, if_pos (by omega), newlow b r hb hr]
        · rw [if_neg (by tauto), m2]
          by_cases h3 : i < 2 * h * b + r ∨ (2 * h * b + h ≤ i ∧ i < 2 * h * b + r + h)
          · rw [if_pos h3, if_pos (by omega)]
          · rw [if_neg h3, if_neg (by omega)]
    · rintro l ⟨m1, m2⟩
      refine ⟨m1, fun i => ?_⟩
      have e : 2 * h * (b + 1) = 2 * h * b + 2 * h := by ring
      rw [m2, e]
      by_cases h3 : i < 2 * h * b + 2 * h
      · rw [if_pos h3, if_pos (by omega)]
      · rw [if_neg h3, if_neg (by omega)]
  · rintro l ⟨l1, l2⟩
    refine ⟨l1, fun b r hb hr => ?_⟩
    have e : 2 ^ (s + 1) = 2 * h := by rw [pow_succ, mul_comm]
    rw [e] at hr ⊢
    rw [l2, if_pos (blk_lt hb hr)]
    show tr (s + 1) _ _ = _
    rw [Nat.mul_add_mod, Nat.mod_eq_of_lt hr, Nat.mul_add_div (by omega), Nat.div_eq_of_lt hr, add_zero]

theorem stages_ok {k B : Nat} {y : Nat → Int} {sum : List Int} (hk : 1 ≤ k) (hy : ∀ t, |y t| ≤ B) (hB : 2 ^ k * B < 2 ^ 31)
    (H : Stage k 1 y sum) : Ok (stages k sum) (fun l => l.length = 2 ^ k ∧ ∀ r, r < 2 ^ k → l.getD r 0 = tr k r y) := by
  unfold stages
  refine Ok.mono (forUp_inv (fun s l => Stage k s y l) hk H ?_) ?_
  · intro s l _ hs hS
    refine stage_ok hs hy (lt_of_le_of_lt (Nat.mul_le_mul_right _ (Nat.pow_le_pow_right (by norm_num) hs)) hB) hS
  · rintro l ⟨h1, h2⟩
    refine ⟨h1, fun r hr => ?_⟩
    have := h2 0 r (by positivity) hr
    simpa using this

/-! ### The search -/

/-- What the search knows after the first `k` candidates. -/
structure Best (mag : Nat → Int) (msg : Nat → Int) (k : Nat) (s : Int × Int × Int) : Prop where
  le : 0 ≤ s.2.2 ∧ s.2.2 ≤ s.2.1
  bound : ∀ i, i < k → mag i ≤ s.2.1
  first : 0 < s.2.1 → ∃ i, i < k ∧ s.1 = msg i ∧ mag i = s.2.1 ∧ (∀ j, j < k → j ≠ i → mag j ≤ s.2.2) ∧
    (0 < s.2.2 → ∃ j, j < k ∧ j ≠ i ∧ mag j = s.2.2)

theorem Best.zero (mag msg : Nat → Int) : Best mag msg 0 (0, 0, 0) :=
  ⟨⟨le_rfl, le_rfl⟩, by omega, fun h => absurd h (lt_irrefl _)⟩

theorem Best.step {mag msg : Nat → Int} {k : Nat} {s : Int × Int × Int} (h : Best mag msg k s) :
    Best mag msg (k + 1) (better s (mag k) (msg k)) := by
  obtain ⟨⟨h1, h2⟩, h3, h4⟩ := h
  unfold better
  split
  · rename_i hc
    refine ⟨⟨by dsimp only; omega, by dsimp only; omega⟩, fun i hi => ?_, fun _ => ⟨k, by omega, rfl, rfl, fun j hj hjk => ?_, fun hpos => ?_⟩⟩
    · by_cases hik : i = k
      · subst hik; exact le_rfl
      · have := h3 i (by omega); dsimp only; omega
    · exact h3 j (by omega)
    · obtain ⟨i, hi, _, hm, _⟩ := h4 hpos
      exact ⟨i, by omega, by omega, hm⟩
  · rename_i hc
    split
    · rename_i hc2
      refine ⟨⟨by dsimp only; omega, by dsimp only; omega⟩, fun i hi => ?_, fun hpos => ?_⟩
      · by_cases hik : i = k
        · subst hik; dsimp only; omega
        · exact h3 i (by omega)
      · obtain ⟨i, hi, hw, hm, ho, _⟩ := h4 hpos
        refine ⟨i, by omega, hw, hm, fun j hj hji => ?_, fun _ => ⟨k, by omega, by omega, rfl⟩⟩
        by_cases hjk : j = k
        · subst hjk; exact le_rfl
        · have := ho j (by omega) hji; dsimp only; omega
    · rename_i hc2
      refine ⟨⟨h1, h2⟩, fun i hi => ?_, fun hpos => ?_⟩
      · by_cases hik : i = k
        · subst hik; omega
        · exact h3 i (by omega)
      · obtain ⟨i, hi, hw, hm, ho, hn⟩ := h4 hpos
        refine ⟨i, by omega, hw, hm, fun j hj hji => ?_, fun hp => ?_⟩
        · by_cases hjk : j = k
          · subst hjk; omega
          · exact ho j (by omega) hji
        · obtain ⟨j, hj, h⟩ := hn hp
          exact ⟨j, by omega, h⟩

/-- The result of the search: either the message of the only candidate with the largest magnitude,
which is positive, or -1 and no such candidate exists. -/
theorem Best.result {mag msg : Nat → Int} {n : Nat} {s : Int × Int × Int} (h : Best mag msg n s) :
    (∃ i, i < n ∧ (if s.2.1 = s.2.2 then -1 else s.1) = msg i ∧ 0 < mag i ∧ ∀ j, j < n → j ≠ i → mag j < mag i) ∨
    ((if s.2.1 = s.2.2 then -1 else s.1) = -1 ∧
      ((∀ i, i < n → mag i ≤ 0) ∨ ∃ i j, i < n ∧ j < n ∧ i ≠ j ∧ mag i = mag j ∧ ∀ l, l < n → mag l ≤ mag i)) := by
  obtain ⟨⟨h1, h2⟩, h3, h4⟩ := h
  by_cases he : s.2.1 = s.2.2
  · right
    refine ⟨if_pos he, ?_⟩
    by_cases hpos : 0 < s.2.1
    · obtain ⟨i, hi, hw, hm, ho, hn⟩ := h4 hpos
      obtain ⟨j, hj, hji, hjm⟩ := hn (by omega)
      exact Or.inr ⟨i, j, hi, hj, Ne.symm hji, by omega, fun l hl => by rw [hm]; exact h3 l hl⟩
    · exact Or.inl fun i hi => by have := h3 i hi; omega
  · left
    obtain ⟨i, hi, hw, hm, ho, hn⟩ := h4 (by omega)
    refine ⟨i, hi, by rw [if_neg he]; exact hw, by omega, fun j hj hji => ?_⟩
    have := ho j hj hji
    rw [hm]
    exact lt_of_le_of_lt this (lt_of_le_of_ne h2 (Ne.symm he))

theorem hadPick_ok {n : Nat} {sum : List Int} (hl : n ≤ sum.length) (hb : ∀ i, i < n → |sum.getD i 0| < 2 ^ 31) (hn : 2 * n ≤ 2 ^ 31) :
    Ok (hadPick n sum) (fun r => ∃ s, Best (fun i => |sum.getD i 0|)
      (fun i => (i : Int) + n * (if sum.getD i 0 < 0 then 1 else 0)) n s ∧ r = if s.2.1 = s.2.2 then -1 else s.1) := by
  unfold hadPick
  refine Ok.bind' (P := Best (fun i => |sum.getD i 0|) (fun i => (i : Int) + n * (if sum.getD i 0 < 0 then 1 else 0)) n)
    (forUp_inv (fun k s => Best (fun i => |sum.getD i 0|) (fun i => (i : Int) + n * (if sum.getD i 0 < 0 then 1 else 0)) k s)
      (Nat.zero_le _) (Best.zero _ _) ?_) ?_
  · intro k s _ hk h
    have hn' : (2 * n : Int) ≤ 2 ^ 31 := by exact_mod_cast hn
    have e : (if sum.getD k 0 < 0 then -sum.getD k 0 else sum.getD k 0) = |sum.getD k 0| := by
      split
      · rename_i h; rw [abs_of_neg h]
      · rename_i h; rw [abs_of_nonneg (by omega)]
    have e2 : |((k : Int) + n * (if sum.getD k 0 < 0 then 1 else 0))| < 2 ^ 31 := by
      rw [abs_lt]; split <;> constructor <;> omega
    rw [rd_of_lt (by omega), sb, getElem_eq_getD _ 0, e, chk_ok (by rw [abs_abs]; exact hb k hk), sb, chk_ok e2, sb]
    exact Ok.some h.step
  · intro s hs
    exact Ok.some ⟨s, hs, rfl⟩

theorem simPick_ok {n : Nat} {sum : List Int} (hl : n ≤ sum.length) :
    Ok (simPick n sum) (fun r => ∃ s, Best (fun i => sum.getD i 0) (fun i => (i : Int)) n s ∧ r = if s.2.1 = s.2.2 then -1 else s.1) := by
  unfold simPick
  refine Ok.bind' (P := Best (fun i => sum.getD i 0) (fun i => (i : Int)) n)
    (forUp_inv (fun k s => Best (fun i => sum.getD i 0) (fun i => (i : Int)) k s) (Nat.zero_le _) (Best.zero _ _) ?_) ?_
  · intro k s _ hk h
    rw [rd_of_lt (by omega), sb, getElem_eq_getD _ 0]
    exact Ok.some (h.step (mag := fun i => sum.getD i 0) (msg := fun i => (i : Int)))
  · intro s hs
    exact Ok.some ⟨s, hs, rfl⟩

end Verif.Hadamard
