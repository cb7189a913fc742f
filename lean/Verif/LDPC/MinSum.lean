import Verif.LDPC.Run
import Verif.LDPC.SpecDec
/- The lane arithmetic of `update` is `combine` and `corr`. -/
namespace Verif.LDPC
open Verif.RS (sb)
open Verif.PolarHelper (t8 sgn vqabs vqadd vsign vmin vmax)

/-- In the range of `int8_t`. -/
def I8 (x : Int) : Prop := -128 ≤ x ∧ x ≤ 127

theorem t8_id {x : Int} (h : I8 x) : t8 x = x := by
  unfold t8
  obtain ⟨h1, h2⟩ := h
  rw [Int.bmod_eq_of_le (by omega) (by omega)]

theorem sat_I8 (x : Int) : I8 (sat x) := by
  unfold sat I8; omega

theorem vqsub_eq (a b : Int) : vqsub a b = sat (a - b) := by
  unfold vqsub
  rw [t8_id (by unfold I8; omega)]
  unfold sat; omega

theorem vqadd_eq (a b : Int) : vqadd a b = sat (a + b) := by
  unfold vqadd
  rw [t8_id (by unfold I8; omega)]
  unfold sat; omega

theorem toInt_bits {x : Int} (h : I8 x) : (bits x).toInt = x := by
  unfold bits
  rw [BitVec.toInt_ofInt]
  exact t8_id h

theorem bits_toInt (x : BitVec 8) : bits x.toInt = x := by
  unfold bits; exact BitVec.ofInt_toInt

theorem toInt_I8 (x : BitVec 8) : I8 x.toInt := by
  have := x.toInt_lt (w := 8)
  have := x.le_toInt (w := 8)
  unfold I8; omega

theorem toNat_bits {x : Int} (h0 : 0 ≤ x) (h1 : x ≤ 127) : ((bits x).toNat : Int) = x := by
  unfold bits
  rw [BitVec.toNat_ofInt]
  omega

theorem vqabs_eq {x : Int} (h : I8 x) : vqabs x = min |x| 127 := by
  unfold vqabs
  obtain ⟨h1, h2⟩ := h
  have : |max x (-127)| = min |x| 127 := by
    rcases abs_cases x with h3 | h3 <;> rcases abs_cases (max x (-127)) with h4 | h4 <;> omega
  rw [this, t8_id]
  have := abs_nonneg x
  unfold I8; omega

theorem magOf_eq {β x : Int} (h0 : 0 ≤ β) (h1 : β ≤ 127) (h : I8 x) : magOf β x = mag β x := by
  unfold magOf mag
  have ha := abs_nonneg x
  dsimp only
  rw [vqabs_eq h]
  by_cases hb : β ≠ 0
  · rw [if_pos hb]
    unfold vqsubU
    rw [t8_id (x := β) ⟨by omega, h1⟩, toNat_bits (by omega) (by omega), toNat_bits h0 h1, t8_id]
    unfold I8; omega
  · rw [if_neg hb]
    omega

theorem mag_bounds {β x : Int} (h0 : 0 ≤ β) : 0 ≤ mag β x ∧ mag β x ≤ 127 := by
  unfold mag; omega

theorem msb_bits {x : Int} (h : I8 x) : (bits x).msb = decide (x < 0) := by
  rw [BitVec.msb_eq_toInt, toInt_bits h]

theorem eor_I8 (a b : Int) : I8 (eor a b) := toInt_I8 _

theorem eor_neg {a b : Int} (ha : I8 a) (hb : I8 b) : eor a b < 0 ↔ ¬ (a < 0 ↔ b < 0) := by
  unfold eor
  have : ((bits a ^^^ bits b).toInt < 0) ↔ (bits a ^^^ bits b).msb = true := by
    rw [BitVec.msb_eq_toInt]; simp
  rw [this, BitVec.msb_xor, msb_bits ha, msb_bits hb]
  by_cases h1 : a < 0 <;> by_cases h2 : b < 0 <;> simp [h1, h2]

theorem orr127 : ∀ x : BitVec 8, (x ||| 127#8).toInt = if x.msb then -1 else 127 := by decide +kernel

theorem mine_eq {a b : Int} (ha : I8 a) (hb : I8 b) : mine a b = if (a < 0 ↔ b < 0) then 127 else -1 := by
  unfold mine orr
  rw [show bits 127 = 127#8 from rfl, orr127, show (bits (eor a b)).msb = decide (eor a b < 0) from msb_bits (eor_I8 _ _)]
  by_cases h : (a < 0 ↔ b < 0)
  · rw [if_pos h, if_neg]
    rw [decide_eq_true_eq, eor_neg ha hb]
    exact fun hh => hh h
  · rw [if_neg h, if_pos]
    rw [decide_eq_true_eq, eor_neg ha hb]
    exact h

theorem msk_true : msk true = BitVec.allOnes 8 := rfl
theorem msk_false : msk false = 0#8 := rfl

theorem vbsl_msk (c : Bool) (a b : BitVec 8) : vbsl (msk c) a b = if c then a else b := by
  unfold vbsl
  cases c
  · rw [msk_false, show (~~~ 0#8 : BitVec 8) = BitVec.allOnes 8 from rfl, BitVec.allOnes_and]; simp
  · rw [msk_true, BitVec.allOnes_and, BitVec.not_allOnes]; simp

theorem other_eq {a b c : Int} (hb : I8 b) (hc : I8 c) : other a b c = if a = b then c else b := by
  unfold other
  rw [vbsl_msk]
  by_cases h : a = b
  · rw [if_pos (by simpa using h), if_pos h, toInt_bits hc]
  · rw [if_neg (by simpa using h), if_neg h, toInt_bits hb]

theorem and_msk (x : BitVec 8) (c : Bool) : x &&& msk c = if c then x else 0#8 := by
  cases c
  · rw [msk_false]; simp
  · rw [msk_true, BitVec.and_allOnes]; simp

theorem msk_or_xor (p q r : Bool) : msk p ||| (msk q ^^^ msk r) = msk (p || (q != r)) := by
  cases p <;> cases q <;> cases r <;> rfl

theorem selfcorr_eq {a b : Int} (hb : I8 b) : selfcorr a b = corr a b := by
  unfold selfcorr
  rw [msk_or_xor, and_msk]
  unfold corr
  have h0 := toInt_bits hb
  by_cases h : (decide (a = 0) || (decide (a > 0) != decide (b < 0))) = true
  · rw [if_pos h, h0]
    rw [Bool.or_eq_true, decide_eq_true_eq, bne_iff_ne, ne_eq, decide_eq_decide] at h
    rw [if_neg]
    omega
  · rw [if_neg h, show (0#8).toInt = 0 from rfl]
    rw [Bool.or_eq_true, decide_eq_true_eq, bne_iff_ne, ne_eq, decide_eq_decide] at h
    by_cases h2 : b = 0
    · subst h2; split <;> rfl
    · rw [if_pos]
      omega

/-- The two smallest of the magnitudes (with 127). -/
def two (l : List Int) : Int × Int := l.foldl (fun s x => (min s.1 x, min s.2 (max s.1 x))) (127, 127)

theorem two_snoc (l : List Int) (x : Int) : two (l ++ [x]) = (min (two l).1 x, min (two l).2 (max (two l).1 x)) := by
  unfold two; rw [List.foldl_append]; rfl

/-- The minimum, with an upper limit. -/
theorem foldl_min (l : List Int) : ∀ a b : Int, l.foldl min (min a b) = min a (l.foldl min b) := by
  induction l with
  | nil => intro a b; rfl
  | cons x l ih => intro a b; rw [List.foldl_cons, List.foldl_cons, min_assoc, ih]

theorem two_ok (l : List Int) : (two l).1 = l.foldl min 127 ∧ (two l).1 ≤ (two l).2 ∧ ∀ k (hk : k < l.length),
    (two l).1 ≤ l[k] ∧ (if l[k] = (two l).1 then (two l).2 else (two l).1) = (l.eraseIdx k).foldl min 127 := by
  induction l using List.reverseRecOn with
  | nil => exact ⟨rfl, le_rfl, fun k hk => absurd hk (by simp)⟩
  | append_singleton l x ih =>
    obtain ⟨h1, h2, h3⟩ := ih
    rw [two_snoc]
    dsimp only
    refine ⟨by rw [List.foldl_append, h1]; rfl, by omega, fun k hk => ?_⟩
    rw [List.length_append, List.length_singleton] at hk
    by_cases hkl : k < l.length
    · obtain ⟨g1, g2⟩ := h3 k hkl
      rw [List.getElem_append_left hkl, List.eraseIdx_append_of_lt_length hkl, List.foldl_append, ← g2]
      refine ⟨by omega, ?_⟩
      show _ = min _ x
      split_ifs <;> omega
    · have hkk : k = l.length := by omega
      subst hkk
      rw [List.getElem_concat_length rfl, List.eraseIdx_append_of_length_le (by omega), Nat.sub_self]
      rw [show ([x] : List Int).eraseIdx 0 = [] from rfl, List.append_nil, ← h1]
      refine ⟨by omega, ?_⟩
      split_ifs <;> omega

theorem foldl_min_nonneg (l : List Int) : ∀ a : Int, 0 ≤ a → (∀ x ∈ l, 0 ≤ x) → 0 ≤ l.foldl min a := by
  induction l with
  | nil => intro a h _; exact h
  | cons x l ih =>
    intro a h1 h2
    rw [List.foldl_cons]
    exact ih _ (by have := h2 x (by simp); omega) fun y hy => h2 y (List.mem_cons_of_mem _ hy)

theorem foldl_min_le (l : List Int) (a : Int) : l.foldl min a ≤ a := by
  have := foldl_min l a a
  rw [min_self] at this
  omega

theorem two_bounds (l : List Int) (h : ∀ x ∈ l, 0 ≤ x) : (0 ≤ (two l).1 ∧ (two l).1 ≤ 127) ∧ 0 ≤ (two l).2 ∧ (two l).2 ≤ 127 := by
  induction l using List.reverseRecOn with
  | nil => exact ⟨⟨by decide, by decide⟩, by decide, by decide⟩
  | append_singleton l x ih =>
    obtain ⟨⟨h1, h2⟩, h3, h4⟩ := ih fun y hy => h y (by simp [hy])
    have := h x (by simp)
    rw [two_snoc]
    dsimp only
    omega

/-- The accumulated signs. -/
def sgns (l : List Int) : Int := l.foldl eor 127

theorem sgns_snoc (l : List Int) (x : Int) : sgns (l ++ [x]) = eor (sgns l) x := by
  unfold sgns; rw [List.foldl_append]; rfl

theorem neg_cases (x : Int) : (x < 0 ∧ neg x = -1) ∨ (¬ x < 0 ∧ neg x = 1) := by
  unfold neg; by_cases h : x < 0
  · exact Or.inl ⟨h, if_pos h⟩
  · exact Or.inr ⟨h, if_neg h⟩

theorem neg_prod (l : List Int) : (l.map neg).prod = 1 ∨ (l.map neg).prod = -1 := by
  induction l with
  | nil => left; rfl
  | cons x l ih =>
    rw [List.map_cons, List.prod_cons]
    rcases neg_cases x with h | h <;> rcases ih with g | g <;> rw [h.2, g] <;> simp

theorem sgns_ok (l : List Int) (h : ∀ x ∈ l, I8 x) : I8 (sgns l) ∧ (sgns l < 0 ↔ (l.map neg).prod = -1) := by
  induction l using List.reverseRecOn with
  | nil => exact ⟨⟨by decide, by decide⟩, by decide⟩
  | append_singleton l x ih =>
    obtain ⟨h1, h2⟩ := ih fun y hy => h y (by simp [hy])
    rw [sgns_snoc]
    refine ⟨eor_I8 _ _, ?_⟩
    rw [eor_neg h1 (h x (by simp)), h2, List.map_append, List.prod_append]
    rcases neg_prod l with g | g <;> rcases neg_cases x with k | k <;> simp [g, k]

theorem erase_prod (l : List Int) (k : Nat) (hk : k < l.length) : (l.map neg).prod = ((l.eraseIdx k).map neg).prod * neg l[k] := by
  have hp : (l[k] :: l.eraseIdx k).Perm l := List.getElem_cons_eraseIdx_perm hk
  have := (hp.map neg).prod_eq
  rw [List.map_cons, List.prod_cons] at this
  rw [← this, mul_comm]

/-- The message of link `k` before self-correction. -/
theorem out_lane (β : Int) (h0 : 0 ≤ β) (l : List Int) (hl : ∀ x ∈ l, I8 x) (k : Nat) (hk : k < l.length) :
    vclamp (vsign (other (mag β l[k]) (two (l.map (mag β))).1 (two (l.map (mag β))).2) (mine (sgns l) l[k])) (-31) 31 =
      combine β (l.eraseIdx k) := by
  have hn : ∀ x ∈ l.map (mag β), 0 ≤ x := by
    intro x hx
    obtain ⟨y, _, rfl⟩ := List.mem_map.1 hx
    exact (mag_bounds h0).1
  obtain ⟨⟨b1, b2⟩, b3, b4⟩ := two_bounds _ hn
  have hkm : k < (l.map (mag β)).length := by simpa using hk
  obtain ⟨_, g2⟩ := (two_ok (l.map (mag β))).2.2 k hkm
  rw [List.getElem_map, List.eraseIdx_map] at g2
  rw [other_eq ⟨by omega, by omega⟩ ⟨by omega, by omega⟩, g2]
  obtain ⟨s1, s2⟩ := sgns_ok l hl
  have hx := hl _ (List.getElem_mem hk)
  rw [mine_eq s1 hx]
  simp only [s2]
  rw [erase_prod l k hk]
  unfold combine
  have hm : ((l.eraseIdx k).map (mag β)).foldl min 31 = min 31 (((l.eraseIdx k).map (mag β)).foldl min 127) := by
    rw [← foldl_min]; rfl
  have hnn : 0 ≤ ((l.eraseIdx k).map (mag β)).foldl min 127 := foldl_min_nonneg _ _ (by omega) fun x hx => by
    obtain ⟨y, _, rfl⟩ := List.mem_map.1 hx
    exact (mag_bounds h0).1
  have hle := foldl_min_le ((l.eraseIdx k).map (mag β)) 127
  rw [hm]
  generalize ((l.eraseIdx k).map (mag β)).foldl min 127 = m at hnn hle ⊢
  have hv1 : vsign m 127 = m := by
    unfold vsign
    rw [show sgn 127 = 1 by decide, one_mul, t8_id ⟨by omega, by omega⟩]
  have hv2 : vsign m (-1) = -m := by
    unfold vsign
    rw [show sgn (-1) = -1 by decide, neg_one_mul, t8_id ⟨by omega, by omega⟩]
  have key : ∀ P : Int, (P = 1 ∨ P = -1) →
      vclamp (vsign m (if P * neg l[k] = -1 ↔ l[k] < 0 then 127 else -1)) (-31) 31 = P * min 31 m := by
    intro P hP
    rcases neg_cases l[k] with q | q <;> rcases hP with p | p <;> rw [p, q.2]
    · rw [if_pos (by simp [q.1]), hv1]; unfold vclamp; omega
    · rw [if_neg (by simp [q.1]), hv2]; unfold vclamp; omega
    · rw [if_pos (by simp [q.1]), hv1]; unfold vclamp; omega
    · rw [if_neg (by simp [q.1]), hv2]; unfold vclamp; omega
  exact key _ (neg_prod _)

theorem combine_bounds (β : Int) (h0 : 0 ≤ β) (l : List Int) : -31 ≤ combine β l ∧ combine β l ≤ 31 := by
  unfold combine
  have h1 : 0 ≤ (l.map (mag β)).foldl min 31 := foldl_min_nonneg _ _ (by omega) fun x hx => by
    obtain ⟨y, _, rfl⟩ := List.mem_map.1 hx
    exact (mag_bounds h0).1
  have h2 := foldl_min_le (l.map (mag β)) 31
  rcases neg_prod l with h | h <;> rw [h] <;> constructor <;> omega

theorem corr_bounds {a b m : Int} (hm : 0 ≤ m) (h : -m ≤ b ∧ b ≤ m) : -m ≤ corr a b ∧ corr a b ≤ m := by
  unfold corr; split <;> omega

theorem combine_perm (β : Int) {l l' : List Int} (h : l.Perm l') : combine β l = combine β l' := by
  unfold combine
  rw [(h.map neg).prod_eq]
  congr 1
  exact List.Perm.foldl_eq (h.map (mag β)) _

end Verif.LDPC
