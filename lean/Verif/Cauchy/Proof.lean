import Verif.Cauchy.Model
import Verif.Cauchy.Math
import Verif.GF.Props
import Verif.RS.Search
/- The Cauchy Reed-Solomon code over the scalar kernel. -/
namespace Verif.Cauchy
open Verif.GF Verif.GF2 Finset
open Verif.RS (sb)

variable {w M P : Nat} {T : Tab}

theorem getD_le {l : List Nat} {m : Nat} (h : ∀ x ∈ l, x ≤ m) (i : Nat) : l.getD i 0 ≤ m := by
  by_cases hi : i < l.length
  · rw [← getElem_eq_getD hi 0]; exact h _ (List.getElem_mem hi)
  · rw [List.getD_eq_default _ _ (by omega)]; omega

theorem irr (R : Ready w M P T) : Fact (Irreducible (natPoly P)) :=
  ⟨irreducible_of_primitive R.built.hM R.built.deg R.built.prim⟩

theorem mkV_ok (R : Ready w M P T) {i : Nat} (hi : i ≤ 2 ^ M - 1) : mkValue w M i = some i :=
  mkValue_ok R.built (by have : 0 < 2 ^ M := by positivity
                         omega)

theorem toR_ne (R : Ready w M P T) {a b : Nat} (ha : a ≤ 2 ^ M - 1) (hb : b ≤ 2 ^ M - 1) (h : a ≠ b) :
    toR P a ≠ toR P b := fun he => by
  have : 0 < 2 ^ M := by positivity
  exact h (toR_inj R.built.deg (by omega) (by omega) he)

theorem toR_ne_zero (R : Ready w M P T) {a : Nat} (ha : a ≤ 2 ^ M - 1) (h : toR P a ≠ 0) : a ≠ 0 := by
  rintro rfl
  exact h (toR_zero P)

/-- In characteristic two a sum is zero only for equal elements. -/
theorem add_ne (R : Ready w M P T) {a b : Nat} (ha : a ≤ 2 ^ M - 1) (hb : b ≤ 2 ^ M - 1) (h : a ≠ b) :
    toR P a + toR P b ≠ 0 := fun he => by
  apply toR_ne R ha hb h
  have := toR_add_self (toR P b)
  calc toR P a = toR P a + (toR P b + toR P b) := by rw [this, add_zero]
    _ = (toR P a + toR P b) + toR P b := by ring
    _ = toR P b := by rw [he, zero_add]

/-- `index(a + b)` -/
theorem indexAdd (R : Ready w M P T) {a b : Nat} (ha : a ≤ 2 ^ M - 1) (hb : b ≤ 2 ^ M - 1) (h : a ≠ b) :
    Ok (addV w M a b >>= index w M T) (fun i => i < 2 ^ M - 1 ∧ xR P ^ i = toR P a + toR P b) := by
  obtain ⟨s, hs, hsl, hse⟩ := C19_add R ha hb
  rw [hs, sb, ← hse]
  exact C19_index R hsl (toR_ne_zero R hsl (by rw [hse]; exact add_ne R ha hb h))

/-- `index(a - b)` -/
theorem indexSub (R : Ready w M P T) {a b : Nat} (ha : a ≤ 2 ^ M - 1) (hb : b ≤ 2 ^ M - 1) (h : a ≠ b) :
    Ok (subV w M a b >>= index w M T) (fun i => i < 2 ^ M - 1 ∧ xR P ^ i = toR P a - toR P b) := by
  obtain ⟨s, hs, hsl, hse⟩ := C19_sub R ha hb
  rw [hs, sb, ← hse]
  exact C19_index R hsl (toR_ne_zero R hsl (by rw [hse]; exact sub_ne_zero.2 (toR_ne R ha hb h)))

theorem cauchyMatrix_ok (R : Ready w M P T) {i j : Nat} (hi : i ≤ 2 ^ M - 1) (hj : j ≤ 2 ^ M - 1) (h : i ≠ j) :
    letI := irr R
    Ok (cauchyMatrix w M T i j) (fun a => a < 2 ^ M - 1 ∧ xR P ^ a = (toR P i + toR P j)⁻¹) := by
  haveI := irr R
  unfold cauchyMatrix
  rw [mkV_ok R hi, sb, mkV_ok R hj, sb]
  obtain ⟨x, hx, hxl, hxe⟩ := indexAdd R hi hj h
  obtain ⟨a, ha, hal, hae⟩ := C19_rcpI R hxl
  refine ⟨a, ?_, hal, ?_⟩
  · rw [← bind_assoc, hx, sb, ha]
  · rw [← hxe]; exact eq_inv_of_mul_eq_one_left hae

theorem rowProducts_ok (R : Ready w M P T) {rows : List Nat} {i n : Nat} (hr : ∀ x ∈ rows, x ≤ 2 ^ M - 1) (hl : n ≤ rows.length)
    (hn : n ≤ 2 ^ M) (hi : i < n) (hlo : ∀ k, k < n → n ≤ rows.getD k 0) :
    Ok (rowProducts w M T rows i n) (fun s => s.1 < 2 ^ M - 1 ∧ s.2 < 2 ^ M - 1 ∧
      xR P ^ s.1 = ∏ k ∈ range n, (toR P (rows.getD k 0) + toR P i) ∧
      xR P ^ s.2 = ∏ k ∈ (range n).erase i, (toR P i - toR P k)) := by
  have hN : 0 < 2 ^ M - 1 := R.built.N
  unfold rowProducts
  rw [mkV_ok R (by omega), sb, mkIndex_ok R.built hN, sb]
  refine Ok.mono (forUp_inv (fun k (s : Nat × Nat) => s.1 < 2 ^ M - 1 ∧ s.2 < 2 ^ M - 1 ∧
      xR P ^ s.1 = ∏ k ∈ range k, (toR P (rows.getD k 0) + toR P i) ∧
      xR P ^ s.2 = ∏ k ∈ (range k).erase i, (toR P i - toR P k)) (Nat.zero_le _) ⟨hN, hN, by simp, by simp⟩ ?_) (fun _ h => h)
  rintro k ⟨num, den⟩ _ hk ⟨h1, h2, h3, h4⟩
  dsimp only at h1 h2 h3 h4 ⊢
  rw [mkV_ok R (by omega), sb, rd_of_lt (by omega), sb, getElem_eq_getD _ 0]
  have hrk := getD_le hr k
  have hlk := hlo k hk
  obtain ⟨x, hx, hxl, hxe⟩ := indexAdd R hrk (show i ≤ 2 ^ M - 1 by omega) (by omega)
  rw [← bind_assoc, hx, sb]
  obtain ⟨m, hm, hml, hme⟩ := C19_mulII R h1 hxl
  rw [hm, sb]
  have e1 : xR P ^ m = ∏ k ∈ range (k + 1), (toR P (rows.getD k 0) + toR P i) := by
    rw [prod_range_succ, ← h3, hme, hxe]
  by_cases hki : k ≠ i
  · rw [if_pos hki]
    obtain ⟨y, hy, hyl, hye⟩ := indexSub R (show i ≤ 2 ^ M - 1 by omega) (show k ≤ 2 ^ M - 1 by omega) (Ne.symm hki)
    rw [← bind_assoc, hy, sb]
    obtain ⟨d, hd, hdl, hde⟩ := C19_mulII R h2 hyl
    rw [hd, sb]
    refine Ok.some ⟨hml, hdl, e1, ?_⟩
    rw [range_add_one, erase_insert_of_ne hki, prod_insert (by simp), hde, hye, h4, mul_comm]
  · rw [if_neg hki]
    push Not at hki
    subst hki
    refine Ok.some ⟨hml, h2, e1, ?_⟩
    dsimp only
    rw [h4, range_add_one, erase_insert (by simp), erase_eq_of_notMem (by simp)]

/-- The members after the first call of a row. -/
def RowOK (P M : Nat) (rows : List Nat) (i n : Nat) (s : Nat × Nat) : Prop :=
  s.1 < 2 ^ M - 1 ∧ s.2 < 2 ^ M - 1 ∧
      xR P ^ s.1 = ∏ k ∈ range n, (toR P (rows.getD k 0) + toR P i) ∧
      xR P ^ s.2 = ∏ k ∈ (range n).erase i, (toR P i - toR P k)

theorem inverseCauchy_ok (R : Ready w M P T) {rows : List Nat} {i j n : Nat} {st : Nat × Nat} (hr : ∀ x ∈ rows, x ≤ 2 ^ M - 1)
    (hl : n ≤ rows.length) (hn : n ≤ 2 ^ M) (hi : i < n) (hj : j < n) (hlo : ∀ k, k < n → n ≤ rows.getD k 0)
    (hinj : ∀ k l, k < n → l < n → rows.getD k 0 = rows.getD l 0 → k = l) (hst : j = 0 ∨ RowOK P M rows i n st) :
    letI := irr R
    Ok (inverseCauchy w M T st rows i j n) (fun r => r.1 < 2 ^ M - 1 ∧ RowOK P M rows i n r.2 ∧
      xR P ^ r.1 = binv n (fun k => toR P (rows.getD k 0)) (fun k => toR P k) i j) := by
  haveI := irr R
  have hN : 0 < 2 ^ M - 1 := R.built.N
  unfold inverseCauchy
  rw [mkV_ok R (show i ≤ 2 ^ M - 1 by omega), sb]
  have hst' : Ok (rowInit w M T st rows i j n) (RowOK P M rows i n) := by
    unfold rowInit
    split
    · exact rowProducts_ok R hr hl hn hi hlo
    · rename_i h
      exact Ok.some (hst.resolve_left h)
  refine Ok.bind' hst' ?_
  rintro ⟨rn, rd'⟩ hrow
  rw [rd_of_lt (show j < rows.length by omega), sb, getElem_eq_getD _ 0]
  have hrj := getD_le hr j
  have hlj := hlo j hj
  obtain ⟨h1, h2, h3, h4⟩ := id hrow
  dsimp only at h1 h2 h3 h4
  refine Ok.bind' (P := fun s => s.1 < 2 ^ M - 1 ∧ s.2 < 2 ^ M - 1 ∧
      xR P ^ s.1 = xR P ^ rn * ∏ k ∈ range n, (toR P (rows.getD j 0) + toR P k) ∧
      xR P ^ s.2 = xR P ^ rd' * ∏ k ∈ (range n).erase j, (toR P (rows.getD j 0) - toR P (rows.getD k 0)))
    (forUp_inv (fun c (s : Nat × Nat) => s.1 < 2 ^ M - 1 ∧ s.2 < 2 ^ M - 1 ∧
      xR P ^ s.1 = xR P ^ rn * ∏ k ∈ range c, (toR P (rows.getD j 0) + toR P k) ∧
      xR P ^ s.2 = xR P ^ rd' * ∏ k ∈ (range c).erase j, (toR P (rows.getD j 0) - toR P (rows.getD k 0)))
      (Nat.zero_le _) ⟨h1, h2, by simp, by simp⟩ ?_) ?_
  · rintro k ⟨num, den⟩ _ hk ⟨g1, g2, g3, g4⟩
    dsimp only at g1 g2 g3 g4 ⊢
    rw [mkV_ok R (show k ≤ 2 ^ M - 1 by omega), sb]
    obtain ⟨x, hx, hxl, hxe⟩ := indexAdd R hrj (show k ≤ 2 ^ M - 1 by omega) (by omega)
    rw [← bind_assoc, hx, sb]
    obtain ⟨m, hm, hml, hme⟩ := C19_mulII R g1 hxl
    rw [hm, sb]
    have e1 : xR P ^ m = xR P ^ rn * ∏ k ∈ range (k + 1), (toR P (rows.getD j 0) + toR P k) := by
      rw [prod_range_succ, hme, hxe, g3, mul_assoc]
    by_cases hkj : k ≠ j
    · rw [if_pos hkj, rd_of_lt (show k < rows.length by omega), sb, getElem_eq_getD _ 0]
      obtain ⟨y, hy, hyl, hye⟩ := indexSub R hrj (getD_le hr k) (fun h => hkj (hinj _ _ hj hk h).symm)
      rw [← bind_assoc, hy, sb]
      obtain ⟨d, hd, hdl, hde⟩ := C19_mulII R g2 hyl
      rw [hd, sb]
      refine Ok.some ⟨hml, hdl, e1, ?_⟩
      rw [range_add_one, erase_insert_of_ne hkj, prod_insert (by simp), hde, hye, g4]
      ring
    · rw [if_neg hkj]
      push Not at hkj
      subst hkj
      refine Ok.some ⟨hml, g2, e1, ?_⟩
      dsimp only
      rw [g4, range_add_one, erase_insert (by simp), erase_eq_of_notMem (by simp)]
  · rintro ⟨num, den⟩ ⟨g1, g2, g3, g4⟩
    dsimp only at g1 g2 g3 g4 ⊢
    obtain ⟨x, hx, hxl, hxe⟩ := indexAdd R hrj (show i ≤ 2 ^ M - 1 by omega) (by omega)
    rw [← bind_assoc, hx, sb]
    obtain ⟨q, hq, hql, hqe⟩ := C19_mulII R hxl g2
    rw [hq, sb]
    obtain ⟨b, hb, hbl, hbe⟩ := C19_divII R g1 hql
    rw [hb, sb]
    refine Ok.some ⟨hbl, hrow, ?_⟩
    dsimp only
    have hq0 : xR P ^ q ≠ 0 := by
      have := root_pow_ne_zero R.built.hM R.built.deg R.built.prim q
      exact this
    rw [eq_div_of_mul_eq hq0 hbe]
    rw [binv_eq, hqe, g3, g4, hxe, h3, h4]

/-! ### The kernels -/

/-- What a multiply-accumulate kernel has to do. -/
structure MacPost (P M : Nat) (c a : List Nat) (off b len : Nat) (init : Bool) (c' : List Nat) : Prop where
  length : c'.length = c.length
  range : ∀ i, i < len → c'.getD i 0 ≤ 2 ^ M - 1
  value : ∀ i, i < len → toR P (c'.getD i 0) =
    xR P ^ b * toR P (a.getD (off + i) 0) + if init then 0 else toR P (c.getD i 0)
  rest : ∀ i, len ≤ i → c'.getD i 0 = c.getD i 0

theorem MacPost.unique (R : Ready w M P T) {c a : List Nat} {off b len : Nat} {init : Bool} {c₁ c₂ : List Nat}
    (h₁ : MacPost P M c a off b len init c₁) (h₂ : MacPost P M c a off b len init c₂) : c₁ = c₂ := by
  refine ext_getD 0 (h₁.length.trans h₂.length.symm) fun i _ => ?_
  have hQ : 0 < 2 ^ M := by positivity
  by_cases hi : i < len
  · have r1 := h₁.range i hi
    have r2 := h₂.range i hi
    exact toR_inj R.built.deg (by omega) (by omega) (by rw [h₁.value i hi, h₂.value i hi])
  · rw [h₁.rest i (by omega), h₂.rest i (by omega)]

theorem macScalar_ok (R : Ready w M P T) {c a : List Nat} {off b len : Nat} {init : Bool} (hb : b < 2 ^ M - 1)
    (ha : ∀ x ∈ a, x ≤ 2 ^ M - 1) (hal : off + len ≤ a.length) (hcl : len ≤ c.length)
    (hc : init = false → ∀ i, i < len → c.getD i 0 ≤ 2 ^ M - 1) :
    Ok (macScalar w M T c a off b len init) (MacPost P M c a off b len init) := by
  unfold macScalar
  have key : ∀ (f : Nat → List Nat → Option (List Nat)),
      (∀ i c', i < len → c'.length = c.length → c'.getD i 0 = c.getD i 0 → ∃ v, f i c' = wr c' i v ∧ v ≤ 2 ^ M - 1 ∧
        toR P v = xR P ^ b * toR P (a.getD (off + i) 0) + if init then 0 else toR P (c.getD i 0)) →
      Ok (forUp 0 len c f) (MacPost P M c a off b len init) := by
    intro f hf
    refine Ok.mono (forUp_inv (fun k (c' : List Nat) => c'.length = c.length ∧
      (∀ i, i < k → c'.getD i 0 ≤ 2 ^ M - 1 ∧ toR P (c'.getD i 0) =
        xR P ^ b * toR P (a.getD (off + i) 0) + if init then 0 else toR P (c.getD i 0)) ∧
      ∀ i, k ≤ i → c'.getD i 0 = c.getD i 0) (Nat.zero_le _) ⟨rfl, by omega, fun _ _ => rfl⟩ ?_) ?_
    · rintro k c' _ hk ⟨h1, h2, h3⟩
      obtain ⟨v, hv, hvl, hve⟩ := hf k c' hk h1 (h3 k le_rfl)
      rw [hv, wr_of_lt (by omega)]
      refine Ok.some ⟨by rw [List.length_set, h1], ?_, ?_⟩
      · intro i hi
        rw [getD_set]
        by_cases hik : k = i
        · subst hik
          rw [if_pos ⟨rfl, by omega⟩]
          exact ⟨hvl, hve⟩
        · rw [if_neg (by tauto)]
          exact h2 i (by omega)
      · intro i hi
        rw [getD_set, if_neg (by omega), h3 i (by omega)]
    · rintro c' ⟨h1, h2, h3⟩
      exact ⟨h1, fun i hi => (h2 i hi).1, fun i hi => (h2 i hi).2, h3⟩
  cases init with
  | true =>
    rw [if_pos rfl]
    refine key _ fun i c' hi hl _ => ?_
    obtain ⟨v, hv, hvl, hve⟩ := C19_mulIV R hb (getD_le ha (off + i))
    refine ⟨v, ?_, hvl, by rw [hve, if_pos rfl, add_zero]⟩
    rw [rd_of_lt (by omega), sb, getElem_eq_getD _ 0, hv, sb]
  | false =>
    rw [if_neg (by simp)]
    refine key _ fun i c' hi hl he => ?_
    obtain ⟨v, hv, hvl, hve⟩ := C19_fmaIV R hb (getD_le ha (off + i)) (hc rfl i hi)
    refine ⟨v, ?_, hvl, by rw [hve]; simp⟩
    rw [rd_of_lt (by omega), sb, getElem_eq_getD _ 0, rd_of_lt (by omega), sb, getElem_eq_getD _ 0, he, hv, sb]

end Verif.Cauchy
