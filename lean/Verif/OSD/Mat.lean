import Verif.OSD.Model
import Verif.OSD.Alg
/- Matrices over GF(2) in byte arrays. -/
namespace Verif.OSD
open Finset

/-- The byte of a bit. -/
def bv (z : ZMod 2) : BitVec 8 := if z = 0 then 0#8 else 1#8

theorem bv_xor (a b : ZMod 2) : bv a ^^^ bv b = bv (a + b) := by revert a b; decide
theorem bv_and (a b : ZMod 2) : bv a &&& bv b = bv (a * b) := by revert a b; decide
theorem bv_ne (a : ZMod 2) : bv a ≠ 0#8 ↔ a = 1 := by revert a; decide
theorem bv_eq (a : ZMod 2) : bv a = 0#8 ↔ a = 0 := by revert a; decide
theorem bv_int (a : ZMod 2) : 1 - 2 * (bv a).toInt = if a = 0 then 1 else -1 := by revert a; decide

structure Rep (w n K : Nat) (g : List (BitVec 8)) (M : Nat → Nat → ZMod 2) : Prop where
  len : w * K ≤ g.length
  ent : ∀ j i, j < K → i < n → g.getD (w * j + i) 0 = bv (M j i)

theorem idx_lt {w K j i : Nat} (hj : j < K) (hi : i < w) : w * j + i < w * K := by
  have : w * (j + 1) ≤ w * K := Nat.mul_le_mul_left _ hj
  rw [Nat.mul_succ] at this; omega

theorem idx_inj {w j i a p : Nat} (hi : i < w) (hp : p < w) (h : w * j + i = w * a + p) : j = a ∧ i = p := by
  have hw : 0 < w := by omega
  have h1 : (w * j + i) / w = j := by rw [Nat.mul_add_div hw, Nat.div_eq_of_lt hi, Nat.add_zero]
  have h2 : (w * a + p) / w = a := by rw [Nat.mul_add_div hw, Nat.div_eq_of_lt hp, Nat.add_zero]
  have : j = a := by rw [← h1, ← h2, h]
  subst this
  exact ⟨rfl, by omega⟩

variable {w n K : Nat} {g : List (BitVec 8)} {M : Nat → Nat → ZMod 2}

theorem Rep.congr (R : Rep w n K g M) {M' : Nat → Nat → ZMod 2} (h : ∀ j i, j < K → i < n → M' j i = M j i) : Rep w n K g M' :=
  ⟨R.len, fun j i hj hi => by rw [R.ent j i hj hi, h j i hj hi]⟩

theorem Rep.rd (R : Rep w n K g M) (hn : n ≤ w) {j i : Nat} (hj : j < K) (hi : i < n) :
    rd g (w * j + i) = some (bv (M j i)) := by
  have : w * j + i < g.length := lt_of_lt_of_le (idx_lt hj (by omega)) R.len
  rw [rd_of_lt this, getElem_eq_getD this 0, R.ent j i hj hi]

theorem Rep.wr (R : Rep w n K g M) (hn : n ≤ w) {j i : Nat} (hj : j < K) (hi : i < n) (x : ZMod 2) :
    Ok (wr g (w * j + i) (bv x)) (fun g' => g'.length = g.length ∧
      Rep w n K g' (fun a p => if a = j ∧ p = i then x else M a p)) := by
  have : w * j + i < g.length := lt_of_lt_of_le (idx_lt hj (by omega)) R.len
  refine Ok.wr this ⟨List.length_set, by rw [List.length_set]; exact R.len, ?_⟩
  intro a p ha hp
  rw [getD_set]
  by_cases h : a = j ∧ p = i
  · obtain ⟨rfl, rfl⟩ := h
    rw [if_pos ⟨rfl, this⟩, if_pos ⟨rfl, rfl⟩]
  · rw [if_neg, if_neg h, R.ent a p ha hp]
    rintro ⟨h', _⟩
    have := idx_inj (by omega) (by omega) h'
    exact h ⟨this.1.symm, this.2.symm⟩

/-- The inner loop of the eliminations. -/
theorem addRow_ok (R : Rep w n K g M) (hn : n ≤ w) {j k : Nat} (hj : j < K) (hk : k < K) (hne : j ≠ k) (hkn : k ≤ n)
    (hz : ∀ i, i < k → M k i = 0) :
    Ok (forUp k n g fun i g => do
        let x ← Verif.rd g (w * j + i)
        let y ← Verif.rd g (w * k + i)
        Verif.wr g (w * j + i) (x ^^^ y))
      (fun g' => g'.length = g.length ∧ Rep w n K g' (addV M j k)) := by
  refine Ok.mono (forUp_inv (fun t g' => g'.length = g.length ∧ Rep w n K g'
    (fun a p => if a = j ∧ k ≤ p ∧ p < t then M j p + M k p else M a p)) hkn ⟨rfl, ?_⟩ ?_) ?_
  · exact R.congr fun a p _ _ => by rw [if_neg (by omega)]
  · rintro t g' h1 h2 ⟨hl, R'⟩
    rw [R'.rd hn hj h2, R'.rd hn hk h2]
    dsimp only [Option.bind_eq_bind, Option.bind_some]
    rw [bv_xor]
    refine (R'.wr hn hj h2 _).mono ?_
    rintro g'' ⟨hl', R''⟩
    refine ⟨hl'.trans hl, R''.congr ?_⟩
    intro a p _ _
    symm
    by_cases hap : a = j ∧ p = t
    · obtain ⟨rfl, rfl⟩ := hap
      rw [if_pos ⟨rfl, rfl⟩, if_neg (by omega), if_neg (by omega), if_pos ⟨rfl, h1, by omega⟩]
    · rw [if_neg hap]
      by_cases h3 : a = j ∧ k ≤ p ∧ p < t
      · rw [if_pos h3, if_pos ⟨h3.1, h3.2.1, by omega⟩]
      · rw [if_neg h3, if_neg (by omega)]
  · rintro g' ⟨hl, R'⟩
    refine ⟨hl, R'.congr ?_⟩
    intro a p _ hp
    unfold addV
    by_cases h : a = j
    · subst h
      rw [if_pos rfl]
      by_cases h2 : k ≤ p
      · rw [if_pos ⟨rfl, h2, hp⟩]
      · rw [if_neg (by omega), hz p (by omega), add_zero]
    · rw [if_neg h, if_neg (by omega)]

theorem swapAt_ok (R : Rep w n K g M) (hn : n ≤ w) {j i a p : Nat} (hj : j < K) (hi : i < n) (ha : a < K) (hp : p < n) :
    Ok (swapAt g (w * j + i) (w * a + p)) (fun g' => g'.length = g.length ∧
      Rep w n K g' (fun b q => if b = a ∧ q = p then M j i else if b = j ∧ q = i then M a p else M b q)) := by
  unfold swapAt
  rw [R.rd hn hj hi, R.rd hn ha hp]
  dsimp only [Option.bind_eq_bind, Option.bind_some]
  refine Ok.bind' (R.wr hn hj hi _) ?_
  rintro g1 ⟨l1, R1⟩
  refine (R1.wr hn ha hp _).mono ?_
  rintro g2 ⟨l2, R2⟩
  exact ⟨l2.trans l1, R2⟩

variable {N : Nat}

theorem N_le_W (N : Nat) : N ≤ W N := by unfold W; omega

theorem swapRows_ok (R : Rep (W N) N K g M) {j k : Nat} (hj : j < K) (hk : k < K) (hkn : k ≤ N)
    (hz : ∀ i, i < k → M j i = 0 ∧ M k i = 0) :
    Ok (swapRows N g j k) (fun g' => g'.length = g.length ∧ Rep (W N) N K g' (swapV M j k)) := by
  unfold swapRows
  by_cases hjk : j = k
  · subst hjk
    rw [if_neg (by simp)]
    refine Ok.some ⟨rfl, ?_⟩
    unfold swapV
    rw [Equiv.swap_self]; exact R
  · rw [if_pos hjk]
    refine Ok.mono (forUp_inv (fun t g' => g'.length = g.length ∧ Rep (W N) N K g'
      (fun a p => if k ≤ p ∧ p < t then swapV M j k a p else M a p)) hkn ⟨rfl, ?_⟩ ?_) ?_
    · exact R.congr fun a p _ _ => by rw [if_neg (by omega)]
    · rintro t g' h1 h2 ⟨hl, R'⟩
      refine (swapAt_ok R' (N_le_W N) hj h2 hk h2).mono ?_
      rintro g'' ⟨hl', R''⟩
      refine ⟨hl'.trans hl, R''.congr ?_⟩
      intro a p _ _
      symm
      have e : ¬ (k ≤ t ∧ t < t) := by omega
      simp only [e, if_false]
      unfold swapV
      by_cases hpt : p = t
      · subst hpt
        rw [if_pos (show k ≤ p ∧ p < p + 1 from ⟨h1, by omega⟩), Equiv.swap_apply_def]
        by_cases hak : a = k
        · subst hak
          rw [if_pos ⟨rfl, rfl⟩, if_neg (fun h => hjk h.symm), if_pos rfl]
        · rw [if_neg (by omega)]
          by_cases haj : a = j
          · subst haj
            rw [if_pos ⟨rfl, rfl⟩, if_pos rfl]
          · rw [if_neg (by omega), if_neg haj, if_neg hak, if_neg (by omega)]
      · rw [if_neg (show ¬ (a = k ∧ p = t) by omega), if_neg (show ¬ (a = j ∧ p = t) by omega)]
        by_cases h3 : k ≤ p ∧ p < t
        · rw [if_pos h3, if_pos ⟨h3.1, by omega⟩]
        · rw [if_neg h3, if_neg (by omega)]
    · rintro g' ⟨hl, R'⟩
      refine ⟨hl, R'.congr ?_⟩
      intro a p _ hp
      by_cases h2 : k ≤ p
      · rw [if_pos ⟨h2, hp⟩]
      · rw [if_neg (by omega)]
        unfold swapV
        rw [Equiv.swap_apply_def]
        have := hz p (by omega)
        split
        · rename_i h; subst h; rw [this.1, this.2]
        · split
          · rename_i h; subst h; rw [this.1, this.2]
          · rfl

/-- Exchange of two columns. -/
theorem swapCols_ok (R : Rep (W N) N K g M) {k j : Nat} (hk : k < N) (hj : j < N) (hkj : k ≠ j) :
    Ok (forUp 0 K g fun i G => swapAt G (W N * i + k) (W N * i + j)) (fun g' => g'.length = g.length ∧
      Rep (W N) N K g' (fun a p => M a (Equiv.swap k j p))) := by
  refine Ok.mono (forUp_inv (fun t g' => g'.length = g.length ∧ Rep (W N) N K g'
    (fun a p => if a < t then M a (Equiv.swap k j p) else M a p)) (Nat.zero_le _) ⟨rfl, ?_⟩ ?_) ?_
  · exact R.congr fun a p _ _ => by rw [if_neg (by omega)]
  · rintro t g' h1 h2 ⟨hl, R'⟩
    refine (swapAt_ok R' (N_le_W N) h2 hk h2 hj).mono ?_
    rintro g'' ⟨hl', R''⟩
    refine ⟨hl'.trans hl, R''.congr ?_⟩
    intro a p _ _
    symm
    simp only [Nat.lt_irrefl, if_false]
    by_cases hat : a = t
    · subst hat
      rw [if_pos (Nat.lt_succ_self _), Equiv.swap_apply_def]
      by_cases hpj : p = j
      · subst hpj
        rw [if_pos ⟨rfl, rfl⟩, if_neg (fun h => hkj h.symm), if_pos rfl]
      · by_cases hpk : p = k
        · subst hpk
          rw [if_neg (by omega), if_pos ⟨rfl, rfl⟩, if_pos rfl]
        · rw [if_neg (by omega), if_neg (by omega), if_neg (Nat.lt_irrefl _), if_neg hpk, if_neg hpj]
    · rw [if_neg (show ¬ (a = t ∧ p = j) by omega), if_neg (show ¬ (a = t ∧ p = k) by omega)]
      by_cases h3 : a < t
      · rw [if_pos h3, if_pos (by omega)]
      · rw [if_neg h3, if_neg (by omega)]
  · rintro g' ⟨hl, R'⟩
    exact ⟨hl, R'.congr fun a p ha _ => by rw [if_pos ha]⟩

end Verif.OSD
