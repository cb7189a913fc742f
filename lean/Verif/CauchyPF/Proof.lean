import Verif.CauchyPF.Model
import Verif.PrimeField.Props
import Verif.Cauchy.Math
import Verif.RS.Search
import Verif.BCH.Lfsr
/- The Cauchy code over a prime field. -/
namespace Verif.CauchyPF
open Verif.PrimeField Verif.Cauchy Finset
open Verif.RS (sb)

variable {w P wio L : Nat}

/-- The type is wide enough for the lazy reductions. -/
structure Wide (w P : Nat) : Prop where
  prime : P.Prime
  five : 5 ≤ P
  wide : (P - 1) * ((P - 1) * (P - 2) * (P - 3)) < 2 ^ w

theorem Wide.fits (h : Wide w P) : Fits w P := by
  have h5 := h.five
  have h1 : (P - 1) * (P - 1) ≤ (P - 1) * ((P - 1) * (P - 2) * (P - 3)) := by
    refine Nat.mul_le_mul_left _ ?_
    calc P - 1 = (P - 1) * 1 * 1 := by ring
      _ ≤ _ := Nat.mul_le_mul (Nat.mul_le_mul_left _ (by omega)) (by omega)
  have h2 : P ≤ (P - 1) * (P - 1) := by
    calc P ≤ (P - 1) * 2 := by omega
      _ ≤ _ := Nat.mul_le_mul_left _ (by omega)
  have := h.wide
  exact ⟨h.prime, by omega, by omega⟩

theorem pf_eq (h : Wide w P) {v : Nat} (hv : v < P) : pf w v = v :=
  Nat.mod_eq_of_lt (lt_trans hv h.fits.fits)

theorem sub_val (h : Wide w P) {a b : Nat} (ha : a < P) (hb : b < P) :
    sub w P a b = if a < b then a + P - b else a - b := by
  have hf := h.fits.fits
  unfold sub
  split
  · rw [show a + 2 ^ w - b + P = (a + P - b) + 2 ^ w by omega, Nat.add_mod_right, Nat.mod_eq_of_lt (by omega)]
  · rw [show a + 2 ^ w - b + 0 = (a - b) + 2 ^ w by omega, Nat.add_mod_right, Nat.mod_eq_of_lt (by omega)]

theorem sub_cast (h : Wide w P) {a b : Nat} (ha : a < P) (hb : b < P) : ((sub w P a b : Nat) : ZMod P) = (a : ZMod P) - b := by
  rw [sub_val h ha hb, eq_sub_iff_add_eq]
  split
  · rw [← Nat.cast_add, show a + P - b + b = a + P by omega]; simp
  · rw [← Nat.cast_add, show a - b + b = a by omega]

/-- Three distinct values below `P`. -/
theorem mul3_le {x y z : Nat} (hx : x ≤ P - 1) (hy : y ≤ P - 1) (hz : z ≤ P - 1) (hxy : x ≠ y) (hxz : x ≠ z) (hyz : y ≠ z) :
    x * y * z ≤ (P - 1) * (P - 2) * (P - 3) := by
  have key : ∀ a b c, a < b → b < c → c ≤ P - 1 → c * b * a ≤ (P - 1) * (P - 2) * (P - 3) := fun a b c h1 h2 h3 =>
    Nat.mul_le_mul (Nat.mul_le_mul h3 (by omega)) (by omega)
  rcases lt_or_gt_of_ne hxy with h1 | h1 <;> rcases lt_or_gt_of_ne hxz with h2 | h2 <;> rcases lt_or_gt_of_ne hyz with h3 | h3
  · have := key x y z h1 h3 hz; nlinarith
  · have := key x z y h2 h3 hy; nlinarith
  · omega
  · have := key z x y h2 h1 hy; nlinarith
  · have := key y x z h1 h2 hz; nlinarith
  · omega
  · have := key y z x h3 h2 hx; nlinarith
  · have := key z y x h3 h1 hx; nlinarith

theorem mul2_le {x y : Nat} (h5 : 5 ≤ P) (hx : x ≤ P - 1) (hy : y ≤ P - 1) (hxy : x ≠ y) :
    x * y ≤ (P - 1) * (P - 2) * (P - 3) := by
  have key : ∀ a b, a < b → b ≤ P - 1 → b * a ≤ (P - 1) * (P - 2) * (P - 3) := fun a b h1 h2 => by
    calc b * a = b * a * 1 := by ring
      _ ≤ _ := Nat.mul_le_mul (Nat.mul_le_mul h2 (by omega)) (by omega)
  rcases lt_or_gt_of_ne hxy with h1 | h1
  · have := key x y h1 hy; nlinarith
  · exact key y x h1 hx

theorem mul1_le {x : Nat} (h5 : 5 ≤ P) (hx : x ≤ P - 1) : x ≤ (P - 1) * (P - 2) * (P - 3) := by
  calc x = x * 1 * 1 := by ring
    _ ≤ _ := Nat.mul_le_mul (Nat.mul_le_mul hx (by omega)) (by omega)

/-- The factors of the denominator. -/
def fac (g : Nat → Nat) (skip k : Nat) : Nat := if k ≠ skip then g k else 1

structure Factors (P n skip : Nat) (f g : Nat → Nat) : Prop where
  num : ∀ k, k < n → f k ≤ P - 4
  den : ∀ k, k < n → k ≠ skip → g k ≤ P - 1
  distinct : ∀ k l, k < n → l < n → k ≠ skip → l ≠ skip → k ≠ l → g k ≠ g l

theorem Factors.fac1 {n skip : Nat} {f g : Nat → Nat} (F : Factors P n skip f g) (h5 : 5 ≤ P) {k : Nat} (hk : k < n) :
    fac g skip k ≤ (P - 1) * (P - 2) * (P - 3) := by
  unfold fac
  split
  · rename_i h; exact mul1_le h5 (F.den k hk h)
  · exact mul1_le h5 (by omega)

theorem Factors.fac2 {n skip : Nat} {f g : Nat → Nat} (F : Factors P n skip f g) (h5 : 5 ≤ P) {k l : Nat} (hk : k < n)
    (hl : l < n) (hkl : k ≠ l) : fac g skip k * fac g skip l ≤ (P - 1) * (P - 2) * (P - 3) := by
  by_cases h1 : k ≠ skip
  · by_cases h2 : l ≠ skip
    · unfold fac; rw [if_pos h1, if_pos h2]
      exact mul2_le h5 (F.den k hk h1) (F.den l hl h2) (F.distinct k l hk hl h1 h2 hkl)
    · have : fac g skip l = 1 := if_neg h2
      rw [this, mul_one]; exact F.fac1 h5 hk
  · have : fac g skip k = 1 := if_neg h1
    rw [this, one_mul]; exact F.fac1 h5 hl

theorem Factors.fac3 {n skip : Nat} {f g : Nat → Nat} (F : Factors P n skip f g) (h5 : 5 ≤ P) {k l m : Nat} (hk : k < n)
    (hl : l < n) (hm : m < n) (hkl : k ≠ l) (hkm : k ≠ m) (hlm : l ≠ m) :
    fac g skip k * fac g skip l * fac g skip m ≤ (P - 1) * (P - 2) * (P - 3) := by
  by_cases h1 : k ≠ skip
  · by_cases h2 : l ≠ skip
    · by_cases h3 : m ≠ skip
      · unfold fac; rw [if_pos h1, if_pos h2, if_pos h3]
        exact mul3_le (F.den k hk h1) (F.den l hl h2) (F.den m hm h3) (F.distinct k l hk hl h1 h2 hkl)
          (F.distinct k m hk hm h1 h3 hkm) (F.distinct l m hl hm h2 h3 hlm)
      · have : fac g skip m = 1 := if_neg h3
        rw [this, mul_one]; exact F.fac2 h5 hk hl hkl
    · have : fac g skip l = 1 := if_neg h2
      rw [this, mul_one]; exact F.fac2 h5 hk hm hkm
  · have : fac g skip k = 1 := if_neg h1
    rw [this, one_mul]; exact F.fac2 h5 hl hm hlm

/-- How far a lazily reduced product may have grown, `m` factors after the last reduction. -/
def Grown (P : Nat) (f : Nat → Nat) (k r x : Nat) : Prop :=
  (r = 2 ∧ x ≤ P - 1) ∨ (r = 1 ∧ 1 ≤ k ∧ x ≤ (P - 1) * f (k - 1)) ∨ (r = 0 ∧ 2 ≤ k ∧ x ≤ (P - 1) * (f (k - 2) * f (k - 1)))

/-- Multiplying by the next factor does not overflow. -/
theorem Grown.mul {f : Nat → Nat} {k n r x B : Nat} (h : Grown P f k r x) (hk : k < n)
    (b1 : ∀ a, a < n → f a ≤ B) (b2 : ∀ a b, a < n → b < n → a ≠ b → f a * f b ≤ B)
    (b3 : ∀ a b c, a < n → b < n → c < n → a ≠ b → a ≠ c → b ≠ c → f a * f b * f c ≤ B) :
    x * f k ≤ (P - 1) * B := by
  rcases h with ⟨_, h⟩ | ⟨_, hk1, h⟩ | ⟨_, hk2, h⟩
  · exact Nat.mul_le_mul h (b1 k hk)
  · calc x * f k ≤ (P - 1) * f (k - 1) * f k := Nat.mul_le_mul_right _ h
      _ = (P - 1) * (f (k - 1) * f k) := by ring
      _ ≤ _ := Nat.mul_le_mul_left _ (b2 _ _ (by omega) hk (by omega))
  · calc x * f k ≤ (P - 1) * (f (k - 2) * f (k - 1)) * f k := Nat.mul_le_mul_right _ h
      _ = (P - 1) * (f (k - 2) * f (k - 1) * f k) := by ring
      _ ≤ _ := Nat.mul_le_mul_left _ (b3 _ _ _ (by omega) (by omega) hk (by omega) (by omega) (by omega))

theorem Grown.next {f : Nat → Nat} {k r x : Nat} (h : Grown P f k r x) (hr : r ≠ 0) :
    Grown P f (k + 1) (r - 1) (x * f k) := by
  rcases h with ⟨rfl, h⟩ | ⟨rfl, hk1, h⟩ | ⟨rfl, hk2, h⟩
  · exact Or.inr (Or.inl ⟨rfl, by omega, Nat.mul_le_mul_right _ h⟩)
  · refine Or.inr (Or.inr ⟨rfl, by omega, ?_⟩)
    rw [show k + 1 - 2 = k - 1 by omega, Nat.add_sub_cancel, ← mul_assoc]
    exact Nat.mul_le_mul_right _ h
  · exact absurd rfl hr

theorem lazyLoop_ok (h : Wide w P) {n skip n0 d0 : Nat} {f g : Nat → Nat} (F : Factors P n skip f g) (hn0 : n0 < P) (hd0 : d0 < P) :
    Ok (forUp 0 n (n0, d0, 2) fun k s => some (tick P (mul w s.1 (f k), if k ≠ skip then mul w s.2.1 (g k) else s.2.1, s.2.2)))
      (fun s => ((s.1 : Nat) : ZMod P) = n0 * ∏ k ∈ range n, (f k : ZMod P) ∧
        ((s.2.1 : Nat) : ZMod P) = d0 * ∏ k ∈ (range n).erase skip, (g k : ZMod P)) := by
  have h5 := h.five
  refine Ok.mono (forUp_inv (fun k (s : Nat × Nat × Nat) => Grown P f k s.2.2 s.1 ∧ Grown P (fac g skip) k s.2.2 s.2.1 ∧
    ((s.1 : Nat) : ZMod P) = n0 * ∏ k ∈ range k, (f k : ZMod P) ∧
    ((s.2.1 : Nat) : ZMod P) = d0 * ∏ k ∈ (range k).erase skip, (g k : ZMod P)) (Nat.zero_le _)
    ⟨Or.inl ⟨rfl, by dsimp only; omega⟩, Or.inl ⟨rfl, by dsimp only; omega⟩, by simp, by simp⟩ ?_) (fun s hs => ⟨hs.2.2.1, hs.2.2.2⟩)
  rintro k ⟨num, den, r⟩ _ hk ⟨g1, g2, g3, g4⟩
  dsimp only at g1 g2 g3 g4 ⊢
  have fB : ∀ a, a < n → f a ≤ P - 4 := F.num
  have n1 : num * f k < 2 ^ w := by
    refine lt_of_le_of_lt (g1.mul hk (fun a ha => mul1_le h5 (by have := fB a ha; omega)) (fun a b ha hb _ => ?_)
      (fun a b c ha hb hc _ _ _ => ?_)) h.wide
    · calc f a * f b = f a * f b * 1 := by ring
        _ ≤ _ := Nat.mul_le_mul (Nat.mul_le_mul (by have := fB a ha; omega) (by have := fB b hb; omega)) (by omega)
    · exact Nat.mul_le_mul (Nat.mul_le_mul (by have := fB a ha; omega) (by have := fB b hb; omega)) (by have := fB c hc; omega)
  have n2 : den * fac g skip k < 2 ^ w :=
    lt_of_le_of_lt (g2.mul hk (fun a ha => F.fac1 h5 ha) (fun a b ha hb hab => F.fac2 h5 ha hb hab)
      (fun a b c ha hb hc h1 h2 h3 => F.fac3 h5 ha hb hc h1 h2 h3)) h.wide
  have e1 : mul w num (f k) = num * f k := Nat.mod_eq_of_lt n1
  have e2 : (if k ≠ skip then mul w den (g k) else den) = den * fac g skip k := by
    unfold fac at n2 ⊢
    split
    · rename_i hks
      rw [if_pos hks] at n2
      exact Nat.mod_eq_of_lt n2
    · rw [mul_one]
  have c1 : ((num * f k : Nat) : ZMod P) = n0 * ∏ k ∈ range (k + 1), (f k : ZMod P) := by
    rw [Nat.cast_mul, g3, prod_range_succ, mul_assoc]
  have c2 : ((den * fac g skip k : Nat) : ZMod P) = d0 * ∏ k ∈ (range (k + 1)).erase skip, (g k : ZMod P) := by
    rw [Nat.cast_mul, g4]
    unfold fac
    by_cases hks : k ≠ skip
    · rw [if_pos hks, range_add_one, erase_insert_of_ne hks, prod_insert (by simp)]; ring
    · rw [if_neg hks]
      push Not at hks
      subst hks
      rw [range_add_one, erase_insert (by simp), erase_eq_of_notMem (by simp)]; simp
  rw [e1, e2]
  unfold tick
  dsimp only
  refine Ok.some ?_
  have hP := h.prime.pos
  by_cases hr : r = 0
  · rw [if_pos hr]
    refine ⟨Or.inl ⟨rfl, ?_⟩, Or.inl ⟨rfl, ?_⟩, ?_, ?_⟩
    · have := Nat.mod_lt (num * f k) hP; dsimp only [reduce]; omega
    · have := Nat.mod_lt (den * fac g skip k) hP; dsimp only [reduce]; omega
    · dsimp only [reduce]; rw [ZMod.natCast_mod, c1]
    · dsimp only [reduce]; rw [ZMod.natCast_mod, c2]
  · rw [if_neg hr]
    exact ⟨g1.next hr, g2.next hr, c1, c2⟩

/-- The ids of the blocks: distinct, at least `n`, below `P / 2`. -/
structure Ids (P n : Nat) (rows : List Nat) : Prop where
  length : n ≤ rows.length
  low : ∀ k, k < n → n ≤ rows.getD k 0
  high : ∀ k, k < n → rows.getD k 0 < P / 2
  inj : ∀ k l, k < n → l < n → rows.getD k 0 = rows.getD l 0 → k = l

theorem odd_half (h : Wide w P) : 2 * (P / 2) = P - 1 := by
  have h5 := h.five
  rcases h.prime.eq_two_or_odd with h2 | h2 <;> omega

theorem reduce_cast {x : Nat} : ((reduce P x : Nat) : ZMod P) = x := by
  unfold reduce; exact ZMod.natCast_mod x P

/-- The members after the first call of a row. -/
def RowOK (P : Nat) (rows : List Nat) (i n : Nat) (s : Nat × Nat) : Prop :=
  s.1 < P ∧ s.2 < P ∧
      (s.1 : ZMod P) = ∏ k ∈ range n, ((rows.getD k 0 : ZMod P) + i) ∧
      (s.2 : ZMod P) = ∏ k ∈ (range n).erase i, ((i : ZMod P) - k)

theorem sub_range (h : Wide w P) {a b : Nat} (ha : a < P) (hb : b < P) (hne : a ≠ b) : sub w P a b ≤ P - 1 := by
  rw [sub_val h ha hb]; split <;> omega

theorem sub_inj (h : Wide w P) {a b c : Nat} (ha : a < P) (hb : b < P) (hc : c < P) (hbc : b ≠ c) : sub w P a b ≠ sub w P a c := by
  rw [sub_val h ha hb, sub_val h ha hc]; split <;> split <;> omega

theorem add_val (h : Wide w P) {a b : Nat} (hab : a < P) (hb : b < P) : add w a b = a + b :=
  Nat.mod_eq_of_lt (add_lt h.fits hab hb)

theorem rowProducts_ok (h : Wide w P) {rows : List Nat} {i n : Nat} (hr : Ids P n rows) (hi : i < n) :
    Ok (rowProducts w P rows i n) (RowOK P rows i n) := by
  have h5 := h.five
  have hP := h.prime.pos
  have hodd := odd_half h
  have hnP : n < P / 2 := lt_of_le_of_lt (hr.low i hi) (hr.high i hi)
  unfold rowProducts
  have e1 : pf w 1 = 1 := pf_eq h (by omega)
  rw [e1]
  have eq : forUp 0 n (1, 1, 2) (fun k s => do
      let row ← rd rows k
      let num := mul w s.1 (add w (pf w row) (pf w i))
      let den := if k ≠ i then mul w s.2.1 (sub w P (pf w i) (pf w k)) else s.2.1
      return tick P (num, den, s.2.2)) = forUp 0 n (1, 1, 2) fun k s =>
        some (tick P (mul w s.1 (rows.getD k 0 + i), if k ≠ i then mul w s.2.1 (sub w P i k) else s.2.1, s.2.2)) := by
    refine BCH.forUp_congr fun k s _ hk => ?_
    have hl := hr.length
    have hk' := hr.high k hk
    rw [rd_of_lt (by omega), sb, getElem_eq_getD _ 0, pf_eq h (show rows.getD k 0 < P by omega), pf_eq h (show i < P by omega),
      pf_eq h (show k < P by omega), add_val h (by omega) (by omega)]
    rfl
  rw [eq]
  refine Ok.bind' (lazyLoop_ok h (n0 := 1) (d0 := 1) (f := fun k => rows.getD k 0 + i) (g := fun k => sub w P i k) ⟨?_, ?_, ?_⟩
    (by omega) (by omega)) ?_
  · intro k hk
    have := hr.high k hk
    omega
  · intro k hk hki
    exact sub_range h (by omega) (by omega) (Ne.symm hki)
  · intro k l hk hl _ _ hkl
    exact sub_inj h (by omega) (by omega) (by omega) hkl
  · rintro ⟨num, den, r⟩ ⟨a1, a2⟩
    dsimp only at a1 a2 ⊢
    refine Ok.pure ⟨Nat.mod_lt _ hP, Nat.mod_lt _ hP, ?_, ?_⟩
    · dsimp only
      rw [reduce_cast, a1, Nat.cast_one, one_mul]
      exact prod_congr rfl fun k _ => by push_cast; rfl
    · dsimp only
      rw [reduce_cast, a2, Nat.cast_one, one_mul]
      exact prod_congr rfl fun k hk => by
        rw [mem_erase, mem_range] at hk
        rw [sub_cast h (by omega) (by omega)]

theorem inverseCauchy_ok (h : Wide w P) [Fact P.Prime] {rows : List Nat} {i j n : Nat} {st : Nat × Nat} (hr : Ids P n rows)
    (hi : i < n) (hj : j < n) (hst : j = 0 ∨ RowOK P rows i n st) :
    Ok (inverseCauchy w P st rows i j n) (fun r => r.1 < P ∧ RowOK P rows i n r.2 ∧
      (r.1 : ZMod P) = binv n (fun k => (rows.getD k 0 : ZMod P)) (fun k => (k : ZMod P)) i j) := by
  have h5 := h.five
  have hP := h.prime.pos
  have hodd := odd_half h
  have hl := hr.length
  have hnP : n < P / 2 := lt_of_le_of_lt (hr.low i hi) (hr.high i hi)
  have hjP := hr.high j hj
  have hjl := hr.low j hj
  unfold inverseCauchy
  rw [rd_of_lt (show j < rows.length by omega), sb, getElem_eq_getD _ 0]
  have hst' : Ok (rowInit w P st rows i j n) (RowOK P rows i n) := by
    unfold rowInit
    split
    · exact rowProducts_ok h hr hi
    · rename_i h
      exact Ok.some (hst.resolve_left h)
  refine Ok.bind' hst' ?_
  rintro ⟨rn, rd'⟩ hrow
  obtain ⟨q1, q2, q3, q4⟩ := id hrow
  dsimp only at q1 q2 q3 q4 ⊢
  have eq : forUp 0 n (rn, rd', 2) (fun k s => do
      let row ← rd rows k
      let num := mul w s.1 (add w (pf w (rows.getD j 0)) (pf w k))
      let den := if k ≠ j then mul w s.2.1 (sub w P (pf w (rows.getD j 0)) (pf w row)) else s.2.1
      return tick P (num, den, s.2.2)) = forUp 0 n (rn, rd', 2) fun k s =>
        some (tick P (mul w s.1 (rows.getD j 0 + k), if k ≠ j then mul w s.2.1 (sub w P (rows.getD j 0) (rows.getD k 0)) else s.2.1,
          s.2.2)) := by
    refine BCH.forUp_congr fun k s _ hk => ?_
    have hk' := hr.high k hk
    rw [rd_of_lt (by omega), sb, getElem_eq_getD _ 0, pf_eq h (show rows.getD k 0 < P by omega),
      pf_eq h (show rows.getD j 0 < P by omega), pf_eq h (show k < P by omega), add_val h (by omega) (by omega)]
    rfl
  rw [eq]
  refine Ok.bind' (lazyLoop_ok h (n0 := rn) (d0 := rd') (f := fun k => rows.getD j 0 + k)
    (g := fun k => sub w P (rows.getD j 0) (rows.getD k 0)) ⟨?_, ?_, ?_⟩ q1 q2) ?_
  · intro k hk
    omega
  · intro k hk hkj
    have := hr.high k hk
    exact sub_range h (by omega) (by omega) fun he => hkj (hr.inj _ _ hj hk he).symm
  · intro k l hk hl _ _ hkl
    have := hr.high k hk
    have := hr.high l hl
    exact sub_inj h (by omega) (by omega) (by omega) fun he => hkl (hr.inj _ _ hk hl he)
  · rintro ⟨num, den, r⟩ ⟨a1, a2⟩
    dsimp only at a1 a2 ⊢
    have b1 : reduce P num < P := Nat.mod_lt _ hP
    have b2 : reduce P den < P := Nat.mod_lt _ hP
    have e : add w (pf w (rows.getD j 0)) (pf w i) = rows.getD j 0 + i := by
      rw [pf_eq h (show rows.getD j 0 < P by omega), pf_eq h (show i < P by omega), add_val h (by omega) (by omega)]
    rw [e]
    obtain ⟨m1, m2⟩ := C21_mul h.fits (show rows.getD j 0 + i < P by omega) b2
    rw [reduce_cast, a2] at m2
    have cast_ne : ∀ a b : Nat, a < P → b < P → a ≠ b → (a : ZMod P) - b ≠ 0 := fun a b ha hb hab he =>
      hab ((C21_eq h.fits ha hb).2 (sub_eq_zero.1 he))
    have hd2 : (rd' : ZMod P) ≠ 0 := by
      rw [q4]
      refine prod_ne fun k hk => ?_
      rw [mem_erase, mem_range] at hk
      exact cast_ne i k (by omega) (by omega) (Ne.symm hk.1)
    have hx : ∏ k ∈ (range n).erase j, ((sub w P (rows.getD j 0) (rows.getD k 0) : Nat) : ZMod P) =
        ∏ k ∈ (range n).erase j, ((rows.getD j 0 : ZMod P) - rows.getD k 0) := prod_congr rfl fun k hk => by
      rw [mem_erase, mem_range] at hk
      have := hr.high k hk.2
      rw [sub_cast h (by omega) (by omega)]
    have hx0 : ∏ k ∈ (range n).erase j, ((rows.getD j 0 : ZMod P) - rows.getD k 0) ≠ 0 := by
      refine prod_ne fun k hk => ?_
      rw [mem_erase, mem_range] at hk
      have := hr.high k hk.2
      exact cast_ne _ _ (by omega) (by omega) fun he => hk.1 (hr.inj _ _ hj hk.2 he).symm
    have hs0 : ((rows.getD j 0 + i : Nat) : ZMod P) ≠ 0 := by
      have := cast_ne (rows.getD j 0 + i) 0 (by omega) (by omega) (by omega)
      simpa using this
    rw [hx] at m2
    have hq0 : opMul w P (rows.getD j 0 + i) (reduce P den) ≠ 0 := by
      intro h0
      rw [h0, Nat.cast_zero] at m2
      exact mul_ne_zero hs0 (mul_ne_zero hd2 hx0) m2.symm
    obtain ⟨d1, d2⟩ := C21_div h.fits b1 m1 hq0
    refine Ok.some ⟨d1, hrow, ?_⟩
    dsimp only
    rw [d2, m2, reduce_cast, a1, binv_eq, q3, q4]
    congr 1
    · congr 1
      exact prod_congr rfl fun k _ => by push_cast; rfl
    · push_cast; ring

end Verif.CauchyPF
