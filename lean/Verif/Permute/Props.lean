import Verif.Permute.Model
import Mathlib.Data.Nat.Bitwise
import Mathlib.Data.List.GetD
import Mathlib.Tactic.NormNum
/- C13, C14 (permute.hh). -/
namespace Verif.Permute
open Xorshift
variable {α : Type}

/-! ### Lemmas -/

theorem swap_eq (a : List α) {i j : Nat} (hi : i < a.length) (hj : j < a.length) :
    swap a i j = some ((a.set i a[j]).set j a[i]) := by
  simp [swap, hi, hj]

theorem swap_ok (a : List α) {i j : Nat} (hi : i < a.length) (hj : j < a.length) :
    ∃ b, swap a i j = some b ∧ b.length = a.length ∧ b.Perm a ∧ swap b i j = some a ∧
      ∀ (d : α) p, b.getD p d = if p = i then a.getD j d else if p = j then a.getD i d else a.getD p d := by
  have hv : ∀ (d : α) p, ((a.set i a[j]).set j a[i]).getD p d =
      if p = i then a.getD j d else if p = j then a.getD i d else a.getD p d := by
    intro d p
    rw [getD_set, getD_set, getElem_eq_getD hi d, getElem_eq_getD hj d, List.length_set]
    by_cases h1 : p = i
    · subst h1
      by_cases h2 : j = p
      · subst h2; simp [hj]
      · simp [h2, hi]
    · by_cases h2 : p = j
      · subst h2; simp [hj, h1]
      · simp [h1, h2, Ne.symm h1, Ne.symm h2]
  refine ⟨_, swap_eq a hi hj, by simp, List.set_set_perm hi hj, ?_, hv⟩
  have hl : ((a.set i a[j]).set j a[i]).length = a.length := by simp
  generalize (a.set i a[j]).set j a[i] = b at hv hl
  have hi' : i < b.length := by omega
  have hj' : j < b.length := by omega
  rw [swap_eq b hi' hj', Option.some.injEq]
  have h1 := hv a[i] i
  have h2 := hv a[i] j
  rw [← getElem_eq_getD hi'] at h1
  rw [← getElem_eq_getD hj'] at h2
  rw [h1, h2]
  apply ext_getD a[i] (by simp [hl])
  intro p hp
  rw [getD_set, getD_set, hv]
  simp only [List.length_set]
  by_cases h1 : j = p
  · subst h1
    by_cases h2 : j = i
    · subst h2; simp [hl]
    · simp [hj']
  · by_cases h2 : i = p
    · subst h2
      simp [hi', h1, Ne.symm h1]
    · simp [h1, h2, Ne.symm h1, Ne.symm h2]

/-- Index drawn for position `i`. -/
def idx (SIZE i : Nat) : Nat :=
  i + (X32.next ((fun g => (X32.next g).1)^[i] X32.new)).2.toNat % (SIZE - i)

theorem idx_lt {SIZE i : Nat} (h : i < SIZE) : idx SIZE i < SIZE := by
  unfold idx
  have := Nat.mod_lt (X32.next ((fun g => (X32.next g).1)^[i] X32.new)).2.toNat (show 0 < SIZE - i by omega)
  omega

theorem forN_map_gen {σ τ : Type} {f : Nat → σ → Option σ} {h : Nat → τ → Option τ}
    (R : Nat → τ → σ) (hf : ∀ i s, f i (R i s) = (h i s).map (R (i + 1))) :
    ∀ n i s, forN n i (R i s) f = (forN n i s h).map (R (i + n)) := by
  intro n
  induction n with
  | zero => intro i s; rfl
  | succ n ih =>
    intro i s
    rw [forN, forN, hf]
    cases h i s with
    | none => rfl
    | some t =>
      simp only [Option.map_some, Option.bind_some]
      rw [ih, show i + 1 + n = i + (n + 1) by omega]

/-- The state of the generator is a function of the loop counter. -/
theorem forUp_prng {τ : Type} (n : Nat) (s : τ) (step : Nat → BitVec 32 → τ → Option τ) :
    (forUp 0 n (s, X32.new) fun i (p : τ × X32) => do
      let (prng, v) := p.2.next
      let t ← step i v p.1
      return (t, prng)).map (·.1) =
    forUp 0 n s fun i t => step i (X32.next ((fun g => (X32.next g).1)^[i] X32.new)).2 t := by
  unfold forUp
  have := forN_map_gen (σ := τ × X32) (τ := τ)
    (f := fun i (p : τ × X32) => do
      let (prng, v) := p.2.next
      let t ← step i v p.1
      return (t, prng))
    (h := fun i t => step i (X32.next ((fun g => (X32.next g).1)^[i] X32.new)).2 t)
    (fun i t => (t, (fun g => (X32.next g).1)^[i] X32.new))
    (fun i t => by
      dsimp only
      rw [Function.iterate_succ_apply']
      cases step i (X32.next ((fun g => (X32.next g).1)^[i] X32.new)).2 t <;> rfl)
    (n - 0) 0 s
  rw [Function.iterate_zero_apply] at this
  rw [this, Option.map_map]
  have : ((fun x : τ × X32 => x.1) ∘ fun t => (t, (fun g => (X32.next g).1)^[0 + (n - 0)] X32.new)) = id := rfl
  rw [this, Option.map_id, id]

theorem fisherYates_eq (SIZE : Nat) (a : List α) :
    fisherYates SIZE a = forUp 0 (SIZE - 1) a fun i a => swap a i (idx SIZE i) := by
  have := forUp_prng (SIZE - 1) a (fun i v a => swap a i (i + v.toNat % (SIZE - i)))
  unfold idx
  rw [← this]
  unfold fisherYates
  exact Option.map_eq_bind.symm

theorem reverseSeq_eq (SIZE : Nat) :
    reverseSeq SIZE = some ((List.range (SIZE - 1)).map (idx SIZE)) := by
  have := forUp_prng (SIZE - 1) (List.replicate (SIZE - 1) 0) (fun i v a => wr a i (i + v.toNat % (SIZE - i)))
  have h2 : reverseSeq SIZE = forUp 0 (SIZE - 1) (List.replicate (SIZE - 1) 0)
      fun i a => wr a i (idx SIZE i) := by
    unfold idx
    rw [← this]
    unfold reverseSeq
    exact Option.map_eq_bind.symm
  rw [h2, forUp_fill (g := idx SIZE) (by simp)]
  · simp
  · intro j l hj hl
    rw [wr_of_lt]
    rw [hl, List.length_replicate]; exact hj

theorem reverse_eq (SIZE : Nat) (a : List α) :
    reverseFisherYates SIZE ((List.range (SIZE - 1)).map (idx SIZE)) a =
      forDown 0 (SIZE - 1) a fun i a => swap a i (idx SIZE i) := by
  unfold reverseFisherYates
  have : ∀ n, n ≤ SIZE - 1 → ∀ a : List α, forDown 0 n a (fun i array => do
      let j ← rd ((List.range (SIZE - 1)).map (idx SIZE)) i
      swap array i j) = forDown 0 n a fun i a => swap a i (idx SIZE i) := by
    intro n
    induction n with
    | zero => intro _ a; rfl
    | succ n ih =>
      intro hn a
      rw [forDown, forDown]
      have h : rd ((List.range (SIZE - 1)).map (idx SIZE)) (0 + n) = some (idx SIZE (0 + n)) := by
        rw [rd_of_lt (by simp; omega)]; simp
      simp only [h, Option.bind_eq_bind, Option.bind_some]
      congr 1
      funext s
      exact ih (by omega) s
  exact this _ (Nat.le_refl _) a

theorem forN_snoc {σ : Type} (f : Nat → σ → Option σ) :
    ∀ n i s, forN (n + 1) i s f = (forN n i s f).bind fun s => f (i + n) s := by
  intro n
  induction n with
  | zero => intro i s; simp [forN]
  | succ n ih =>
    intro i s
    rw [forN]
    conv => rhs; rw [forN]
    cases f i s with
    | none => rfl
    | some t =>
      simp only [Option.bind_some]
      rw [ih, show i + 1 + n = i + (n + 1) by omega]

theorem swaps_undo (m : Nat) (t : Nat → Nat) (ht : ∀ i, i < m → t i < m) : ∀ n, n ≤ m → ∀ a : List α,
    a.length = m →
    (∃ b, forUp 0 n a (fun i a => swap a i (t i)) = some b ∧ b.length = m ∧ b.Perm a ∧
      forDown 0 n b (fun i a => swap a i (t i)) = some a) ∧
    (∃ b, forDown 0 n a (fun i a => swap a i (t i)) = some b ∧ b.length = m ∧ b.Perm a ∧
      forUp 0 n b (fun i a => swap a i (t i)) = some a) := by
  intro n
  induction n with
  | zero => intro _ a ha; exact ⟨⟨a, rfl, ha, .rfl, rfl⟩, ⟨a, rfl, ha, .rfl, rfl⟩⟩
  | succ n ih =>
    intro hn a ha
    have hup : ∀ s : List α, forUp 0 (n + 1) s (fun i a => swap a i (t i)) =
        (forUp 0 n s (fun i a => swap a i (t i))).bind fun s => swap s n (t n) := by
      intro s
      unfold forUp
      rw [Nat.sub_zero, Nat.sub_zero, forN_snoc, Nat.zero_add]
    have hdn : ∀ s : List α, forDown 0 (n + 1) s (fun i a => swap a i (t i)) =
        (swap s n (t n)).bind fun s => forDown 0 n s (fun i a => swap a i (t i)) := by
      intro s; rw [forDown, Nat.zero_add]
    constructor
    · obtain ⟨b, h1, h2, h3, h4⟩ := (ih (by omega) a ha).1
      obtain ⟨c, h5, h6, h7, h8, _⟩ := swap_ok b (i := n) (j := t n) (by omega)
        (by rw [h2]; exact ht n (by omega))
      refine ⟨c, ?_, by omega, h7.trans h3, ?_⟩
      · rw [hup, h1, Option.bind_some, h5]
      · rw [hdn, h8, Option.bind_some, h4]
    · obtain ⟨c, h5, h6, h7, h8, _⟩ := swap_ok a (i := n) (j := t n) (by omega)
        (by rw [ha]; exact ht n (by omega))
      obtain ⟨b, h1, h2, h3, h4⟩ := (ih (by omega) c (by omega)).2
      refine ⟨b, ?_, h2, h3.trans h7, ?_⟩
      · rw [hdn, h5, Option.bind_some, h1]
      · rw [hup, h4, Option.bind_some, h8]

/-! ### C13 -/

/-- Constructing the reverse object never fails, and for every array of `SIZE` elements both
orders of shuffle and reverse shuffle are defined, permute the array and cancel. -/
theorem C13_roundtrip (SIZE : Nat) :
    ∃ seq, reverseSeq SIZE = some seq ∧ ∀ a : List α, a.length = SIZE →
      (∃ b, fisherYates SIZE a = some b ∧ b.Perm a ∧ reverseFisherYates SIZE seq b = some a) ∧
      (∃ b, reverseFisherYates SIZE seq a = some b ∧ b.Perm a ∧ fisherYates SIZE b = some a) := by
  refine ⟨_, reverseSeq_eq SIZE, fun a ha => ?_⟩
  obtain ⟨⟨b, h1, _, h2, h3⟩, ⟨c, h4, _, h5, h6⟩⟩ := swaps_undo SIZE (idx SIZE) (fun i hi => idx_lt hi)
    (SIZE - 1) (by omega) a ha
  refine ⟨⟨b, ?_, h2, ?_⟩, ⟨c, ?_, h5, ?_⟩⟩
  · rw [fisherYates_eq, h1]
  · rw [reverse_eq, h3]
  · rw [reverse_eq, h4]
  · rw [fisherYates_eq, h6]

/-- Every index the reverse object stores for position `i` lies in `i..SIZE-1`. -/
theorem C13_indices_in_bounds (SIZE : Nat) :
    ∃ seq, reverseSeq SIZE = some seq ∧ seq.length = SIZE - 1 ∧
      ∀ i (h : i < seq.length), i ≤ seq[i] ∧ seq[i] < SIZE := by
  refine ⟨_, reverseSeq_eq SIZE, by simp, fun i h => ?_⟩
  simp only [List.length_map, List.length_range] at h
  simp only [List.getElem_map, List.getElem_range]
  exact ⟨by unfold idx; omega, idx_lt (by omega)⟩

/-- The shuffle is not the identity (a concrete array). -/
example : ∃ b, fisherYates 4 [0, 1, 2, 3] = some b ∧ b ≠ [0, 1, 2, 3] := by
  refine ⟨_, rfl, by decide⟩

/-! ### C14 -/

/-- Bit reversal of `K` bits. -/
def rev : Nat → Nat → Nat
  | 0, _ => 0
  | K + 1, n => (n % 2) * 2 ^ K + rev K (n / 2)

theorem rev_lt (K n : Nat) : rev K n < 2 ^ K := by
  induction K generalizing n with
  | zero => simp [rev]
  | succ K ih =>
    have h1 := ih (n / 2)
    have h2 : n % 2 * 2 ^ K ≤ 1 * 2 ^ K := Nat.mul_le_mul_right _ (by omega)
    rw [rev, pow_succ]; omega

theorem testBit_rev (K n b : Nat) : (rev K n).testBit b = (decide (b < K) && n.testBit (K - 1 - b)) := by
  induction K generalizing n with
  | zero => simp [rev]
  | succ K ih =>
    rw [rev, Nat.mul_comm, Nat.testBit_two_pow_mul_add _ (rev_lt K (n / 2))]
    by_cases h : b < K
    · rw [if_pos h, ih]
      have : K + 1 - 1 - b = (K - 1 - b) + 1 := by omega
      rw [this, Nat.testBit_succ]
      simp [h, show b < K + 1 by omega]
    · rw [if_neg h]
      by_cases h2 : b = K
      · subst h2
        simp only [Nat.sub_self, Nat.testBit_zero, Nat.add_sub_cancel, Nat.mod_mod]
        simp
      · rw [Nat.testBit_eq_false_of_lt]
        · simp [show ¬ b < K + 1 by omega]
        · calc n % 2 < 2 := Nat.mod_lt _ (by norm_num)
            _ = 2 ^ 1 := rfl
            _ ≤ 2 ^ (b - K) := Nat.pow_le_pow_right (by norm_num) (by omega)

theorem rev_unique {K i j : Nat} (hj : j < 2 ^ K)
    (h : ∀ b, b < K → j.testBit b = i.testBit (K - 1 - b)) : rev K i = j := by
  apply Nat.eq_of_testBit_eq
  intro b
  rw [testBit_rev]
  by_cases hb : b < K
  · simp [hb, h b hb]
  · rw [Nat.testBit_eq_false_of_lt (n := j)]
    · simp [hb]
    · exact lt_of_lt_of_le hj (Nat.pow_le_pow_right (by norm_num) (by omega))

theorem rev_rev {K i : Nat} (hi : i < 2 ^ K) : rev K (rev K i) = i := by
  apply rev_unique hi
  intro b hb
  rw [testBit_rev]
  simp [show K - 1 - b < K by omega, show K - 1 - (K - 1 - b) = b by omega]

theorem and_two_pow_add {K r b : Nat} (hr : r < 2 ^ K) (hb : b < 2) :
    (b * 2 ^ K + r) &&& 2 ^ K = b * 2 ^ K := by
  have h : (b * 2 ^ K + r).testBit K = decide (b = 1) := by
    rw [Nat.mul_comm, Nat.testBit_two_pow_mul_add _ hr, if_neg (by omega), Nat.sub_self, Nat.testBit_zero]
    have : b = 0 ∨ b = 1 := by omega
    rcases this with rfl | rfl <;> rfl
  rw [Nat.and_two_pow, h]
  have : b = 0 ∨ b = 1 := by omega
  rcases this with rfl | rfl <;> simp

theorem xor_two_pow_add {K r b : Nat} (hr : r < 2 ^ K) (hb : b < 2) :
    (b * 2 ^ K + r) ^^^ 2 ^ K = (1 - b) * 2 ^ K + r := by
  apply Nat.eq_of_testBit_eq
  intro i
  rw [Nat.testBit_xor, Nat.mul_comm b, Nat.mul_comm (1 - b), Nat.testBit_two_pow_mul_add _ hr,
    Nat.testBit_two_pow_mul_add _ hr, Nat.testBit_two_pow]
  by_cases h : i < K
  · simp [h, show ¬ K = i by omega]
  · by_cases h2 : K = i
    · subst h2
      have : b = 0 ∨ b = 1 := by omega
      rcases this with rfl | rfl <;> simp
    · obtain ⟨m, hm⟩ : ∃ m, i - K = m + 1 := ⟨i - K - 1, by omega⟩
      rw [hm]
      have : b = 0 ∨ b = 1 := by omega
      rcases this with rfl | rfl <;> simp [h, h2, Nat.testBit_succ]

theorem inner_loop : ∀ (K f n : Nat), K < f → n + 1 < 2 ^ K →
    ∃ jk : Nat × Nat, whileF f (fun (j, k) => decide (j &&& k ≠ 0))
      (fun (j, k) => some (j ^^^ k, k >>> 1)) (rev K n, 2 ^ K >>> 1) = some jk ∧
      jk.1 ^^^ jk.2 = rev K (n + 1) := by
  intro K
  induction K with
  | zero => intro f n _ h; simp at h
  | succ K ih =>
    intro f n hf hn
    obtain ⟨f, rfl⟩ : ∃ g, f = g + 1 := ⟨f - 1, by omega⟩
    have hs : (2 : Nat) ^ (K + 1) >>> 1 = 2 ^ K := by
      rw [Nat.shiftRight_eq_div_pow, pow_one, pow_succ]; simp
    have hr := rev_lt K (n / 2)
    have hc : ((rev (K + 1) n) &&& 2 ^ K) = n % 2 * 2 ^ K :=
      and_two_pow_add hr (Nat.mod_lt _ (by norm_num))
    have hx : ((rev (K + 1) n) ^^^ 2 ^ K) = (1 - n % 2) * 2 ^ K + rev K (n / 2) :=
      xor_two_pow_add hr (Nat.mod_lt _ (by norm_num))
    rw [whileF, hs]
    simp only [hc, hx]
    rcases Nat.mod_two_eq_zero_or_one n with h | h
    · rw [h]
      refine ⟨_, by rw [if_neg (by simp)], ?_⟩
      dsimp only
      rw [hx, h, rev, show (n + 1) % 2 = 1 by omega, show (n + 1) / 2 = n / 2 by omega]
    · rw [h, if_pos (by simp)]
      simp only [Option.bind_some, Nat.sub_self, Nat.zero_mul, Nat.zero_add]
      obtain ⟨jk, h1, h2⟩ := ih f (n / 2) (by omega) (by rw [pow_succ] at hn; omega)
      refine ⟨jk, h1, ?_⟩
      rw [h2, rev, show (n + 1) % 2 = 0 by omega, show (n + 1) / 2 = n / 2 + 1 by omega]
      simp

theorem nextRev_eq {K n : Nat} (h : n + 1 < 2 ^ K) : nextRev (2 ^ K) (rev K n) = some (rev K (n + 1)) := by
  obtain ⟨jk, h1, h2⟩ := inner_loop K (2 ^ K + 1) n (by have := Nat.lt_two_pow_self (n := K); omega) h
  unfold nextRev
  dsimp only
  rw [h1]
  simp [h2]

theorem bitReversal_ok (K : Nat) (a : List α) (d : α) (ha : a.length = 2 ^ K) :
    ∃ b, bitReversalPermute (2 ^ K) a = some b ∧ b.length = 2 ^ K ∧
      b.Perm a ∧ ∀ p, p < 2 ^ K → b.getD p d = a.getD (rev K p) d := by
  have hpos := Nat.two_pow_pos K
  have hand : 2 ^ K &&& (2 ^ K - 1) = 0 := by
    rw [Nat.and_two_pow_sub_one_eq_mod, Nat.mod_self]
  have main := forUp_inv (lo := 0) (hi := 2 ^ K - 1) (s := (a, 0))
    (f := fun i (array, j) => do
      let array ← (if i < j then swap array i j else some array)
      let j ← nextRev (2 ^ K) j
      return (array, j))
    (fun i s => s.2 = rev K i ∧ s.1.length = 2 ^ K ∧ s.1.Perm a ∧ ∀ p, p < 2 ^ K →
      s.1.getD p d = if min p (rev K p) < i then a.getD (rev K p) d else a.getD p d)
    (Nat.zero_le _) ⟨by
      have : rev K 0 = 0 := by
        apply rev_unique hpos; simp
      exact this.symm, ha, .rfl, fun p _ => by simp⟩ (by
      rintro i ⟨arr, j⟩ _ hi ⟨hj, hl, hp, hv⟩
      dsimp only at *
      subst hj
      have hnext := nextRev_eq (K := K) (n := i) (by omega)
      have hri := rev_lt K i
      have hmin : ∀ p, p < 2 ^ K → min p (rev K p) < i + 1 → ¬ min p (rev K p) < i →
          (p = i ∨ p = rev K i) := by
        intro p hp h1 h2
        have : p = i ∨ rev K p = i := by omega
        rcases this with h | h
        · exact Or.inl h
        · right; rw [← h, rev_rev hp]
      by_cases hij : i < rev K i
      · obtain ⟨b, hb, hbl, hbp, _, hbv⟩ := swap_ok arr (i := i) (j := rev K i) (by omega) (by omega)
        simp only [if_pos hij, hb, hnext, Option.bind_eq_bind, Option.bind_some]
        refine Ok.pure ⟨rfl, by dsimp only; omega, hbp.trans hp, fun p hp => ?_⟩
        dsimp only
        rw [hbv]
        have hvi := hv i (by omega)
        have hvr := hv (rev K i) hri
        rw [rev_rev (by omega : i < 2 ^ K)] at hvr
        rw [if_neg (by omega)] at hvi hvr
        by_cases h1 : p = i
        · subst h1; rw [if_pos rfl, if_pos (by omega), hvr]
        · rw [if_neg h1]
          by_cases h2 : p = rev K i
          · subst h2
            rw [if_pos rfl, rev_rev (by omega : i < 2 ^ K), if_pos (by omega), hvi]
          · rw [if_neg h2, hv p hp]
            by_cases h3 : min p (rev K p) < i
            · rw [if_pos h3, if_pos (by omega)]
            · rw [if_neg h3, if_neg]
              intro h4
              rcases hmin p hp h4 h3 with h | h
              · exact h1 h
              · exact h2 h
      · simp only [if_neg hij, hnext, Option.bind_eq_bind, Option.bind_some]
        refine Ok.pure ⟨rfl, hl, hp, fun p hp => ?_⟩
        dsimp only
        rw [hv p hp]
        by_cases h3 : min p (rev K p) < i
        · rw [if_pos h3, if_pos (by omega)]
        · rw [if_neg h3]
          by_cases h4 : min p (rev K p) < i + 1
          · rw [if_pos h4]
            rcases hmin p hp h4 h3 with h | h
            · subst h
              have : rev K p = p := by omega
              rw [this]
            · subst h
              rw [rev_rev (by omega : i < 2 ^ K)] at h3 h4 ⊢
              have : rev K i = i := by omega
              rw [this]
          · rw [if_neg h4])
  obtain ⟨⟨b, j⟩, h1, h2, h3, h4, h5⟩ := main
  refine ⟨b, ?_, h3, h4, fun p hp => ?_⟩
  · unfold bitReversalPermute
    simp only [assertUB, if_pos (show 2 ^ K > 0 ∧ 2 ^ K &&& (2 ^ K - 1) = 0 from ⟨hpos, hand⟩),
      Option.bind_eq_bind, Option.bind_some]
    simp only [Option.bind_eq_bind] at h1
    rw [h1]; rfl
  · have := h5 p hp
    dsimp only at this
    rw [this]
    by_cases h : min p (rev K p) < 2 ^ K - 1
    · rw [if_pos h]
    · rw [if_neg h]
      have h1 := rev_lt K p
      have : rev K p = p := by omega
      rw [this]

/-- For `SIZE = 2^K` and every array the permutation is defined (all accesses in bounds, inner
loop terminates); it is a permutation and the element at index `i` ends at the index `j` whose
`K`-bit expansion is that of `i` reversed. -/
theorem C14_bit_reversal (K : Nat) (a : List α) (ha : a.length = 2 ^ K) :
    ∃ b, bitReversalPermute (2 ^ K) a = some b ∧ b.length = 2 ^ K ∧ b.Perm a ∧
      ∀ i j, i < 2 ^ K → j < 2 ^ K → (∀ t, t < K → j.testBit t = i.testBit (K - 1 - t)) →
        b[j]? = a[i]? := by
  have hne : 0 < a.length := by rw [ha]; exact Nat.two_pow_pos K
  obtain ⟨b, h1, h2, h3, h4⟩ := bitReversal_ok K a a[0] ha
  refine ⟨b, h1, h2, h3, fun i j hi hj h => ?_⟩
  have hij : rev K i = j := rev_unique hj h
  have hji : rev K j = i := by rw [← hij, rev_rev hi]
  have := h4 j hj
  rw [hji, ← getElem_eq_getD (by omega), ← getElem_eq_getD (by omega)] at this
  rw [List.getElem?_eq_getElem (by omega), List.getElem?_eq_getElem (by omega), this]

/-- Applying it twice restores the array. -/
theorem C14_involution (K : Nat) (a : List α) (ha : a.length = 2 ^ K) :
    ((bitReversalPermute (2 ^ K) a).bind fun b => bitReversalPermute (2 ^ K) b) = some a := by
  have hne : 0 < a.length := by rw [ha]; exact Nat.two_pow_pos K
  obtain ⟨b, h1, h2, h3, h4⟩ := bitReversal_ok K a a[0] ha
  obtain ⟨c, g1, g2, g3, g4⟩ := bitReversal_ok K b a[0] h2
  rw [h1, Option.bind_some, g1, Option.some.injEq]
  apply ext_getD a[0] (by omega)
  intro p hp
  rw [g4 p (by omega), h4 _ (rev_lt K p), rev_rev (by omega)]

example : bitReversalPermute 8 [0, 1, 2, 3, 4, 5, 6, 7] = some [0, 4, 2, 6, 1, 5, 3, 7] := by decide

end Verif.Permute
