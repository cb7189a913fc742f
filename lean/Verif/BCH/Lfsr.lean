import Verif.BCH.EncPacked
import Mathlib.Algebra.Polynomial.Degree.Lemmas
/- Binary polynomials of bit strings, and the division register of the encoders. -/
namespace Verif.BCH
open Polynomial Finset Verif.GF2 Verif.Bits

theorem getD_set_lt {α : Type} {a : List α} {i j : Nat} {v d : α} (h : i < a.length) :
    (a.set i v).getD j d = if j = i then v else a.getD j d := by
  rw [getD_set]
  by_cases hj : j = i
  · rw [if_pos hj, if_pos ⟨hj.symm, h⟩]
  · rw [if_neg hj, if_neg (fun h' => hj h'.1.symm)]

theorem forUp_congr {σ : Type} {lo hi : Nat} {s : σ} {f g : Nat → σ → Option σ}
    (h : ∀ j s, lo ≤ j → j < hi → f j s = g j s) : forUp lo hi s f = forUp lo hi s g := by
  unfold forUp
  have key : ∀ n i s, (∀ j s, i ≤ j → j < i + n → f j s = g j s) → forN n i s f = forN n i s g := by
    intro n
    induction n with
    | zero => intro i s _; rfl
    | succ n ih =>
      intro i s hh
      unfold forN
      rw [hh i s le_rfl (by omega)]
      congr 1
      funext s'
      exact ih (i + 1) s' fun j t h1 h2 => hh j t (by omega) (by omega)
  exact key _ _ _ fun j t h1 h2 => h j t h1 (by omega)

theorem bitPoly_nil : bitPoly [] = 0 := by simp [bitPoly]

theorem bitPoly_snoc (bs : List Bool) (b : Bool) : bitPoly (bs ++ [b]) = X * bitPoly bs + C (b2 b) := by
  unfold bitPoly
  rw [List.length_append, List.length_singleton, Finset.sum_range_succ, Finset.mul_sum]
  congr 1
  · refine Finset.sum_congr rfl fun j hj => ?_
    rw [Finset.mem_range] at hj
    rw [List.getD_append _ _ _ _ hj, show bs.length + 1 - 1 - j = (bs.length - 1 - j) + 1 by omega, pow_succ]
    ring
  · rw [List.getD_append_right _ _ _ _ le_rfl]
    simp

theorem bitPoly_append (as bs : List Bool) : bitPoly (as ++ bs) = bitPoly as * X ^ bs.length + bitPoly bs := by
  induction bs using List.reverseRecOn with
  | nil => simp [bitPoly_nil]
  | append_singleton bs b ih =>
    rw [← List.append_assoc, bitPoly_snoc, ih, bitPoly_snoc, List.length_append, List.length_singleton, pow_succ]
    ring

theorem length_bitsOf (f : Nat → Bool) (n : Nat) : (bitsOf f n).length = n := by simp [bitsOf]

theorem bitsOf_succ (f : Nat → Bool) (n : Nat) : bitsOf f (n + 1) = bitsOf f n ++ [f n] := by
  simp [bitsOf, List.range_succ]

theorem getD_bitsOf (f : Nat → Bool) {n j : Nat} (h : j < n) : (bitsOf f n).getD j false = f j := by
  rw [List.getD_eq_getElem _ _ (by rw [length_bitsOf]; exact h)]; simp [bitsOf]

theorem bitsOf_congr {f g : Nat → Bool} {n : Nat} (h : ∀ i, i < n → f i = g i) : bitsOf f n = bitsOf g n := by
  unfold bitsOf
  refine List.map_congr_left fun i hi => h i (List.mem_range.1 hi)

theorem bitsOf_inj {f g : Nat → Bool} {n : Nat} (h : bitsOf f n = bitsOf g n) : ∀ i, i < n → f i = g i := by
  intro i hi
  rw [← getD_bitsOf f hi, h, getD_bitsOf g hi]

theorem coeff_bitPoly (f : Nat → Bool) (n k : Nat) :
    (bitPoly (bitsOf f n)).coeff k = if k < n then b2 (f (n - 1 - k)) else 0 := by
  induction n generalizing k with
  | zero => rw [show bitsOf f 0 = [] from rfl, bitPoly_nil]; simp
  | succ n ih =>
    rw [bitsOf_succ, bitPoly_snoc, coeff_add, coeff_C]
    cases k with
    | zero => rw [coeff_X_mul_zero, if_pos rfl, if_pos (by omega), zero_add]; rfl
    | succ k =>
      rw [coeff_X_mul, ih, if_neg (show ¬ k + 1 = 0 by omega), add_zero]
      by_cases h : k < n
      · rw [if_pos h, if_pos (by omega)]; congr 2; omega
      · rw [if_neg h, if_neg (by omega)]

theorem natDegree_bitPoly_lt {f : Nat → Bool} {n : Nat} (h : 0 < n) : (bitPoly (bitsOf f n)).natDegree < n := by
  refine lt_of_le_of_lt (Polynomial.natDegree_le_iff_coeff_eq_zero.2 ?_ : _ ≤ n - 1) (by omega)
  intro k hk
  rw [coeff_bitPoly, if_neg (by omega)]

/-- One step of the register. -/
theorem lfsr_step {NP : Nat} (hNP : 0 < NP) {g : (ZMod 2)[X]} (hg : g.coeff NP = 1) (hgd : g.natDegree = NP)
    {gen p p' : Nat → Bool} {d : Bool} (hgen : ∀ i, i < NP → b2 (gen i) = g.coeff (NP - 1 - i))
    (hp : ∀ i, i < NP → p' i = (((d ^^ p 0) && gen i) ^^ (if i + 1 < NP then p (i + 1) else false))) :
    bitPoly (bitsOf p' NP) = X * bitPoly (bitsOf p NP) + C (b2 d) * X ^ NP + C (b2 (d ^^ p 0)) * g := by
  ext k
  rw [coeff_add, coeff_add, coeff_C_mul, coeff_C_mul, coeff_X_pow, coeff_bitPoly]
  have hand : ∀ a b, b2 (a && b) = b2 a * b2 b := by decide
  by_cases hk : k < NP
  · rw [if_pos hk, hp _ (by omega), b2_xor, hand, hgen _ (by omega), if_neg (show ¬ k = NP by omega), mul_zero, add_zero]
    rw [show NP - 1 - (NP - 1 - k) = k by omega]
    cases k with
    | zero => rw [coeff_X_mul_zero, if_neg (by omega), b2_false]; ring
    | succ k =>
      rw [coeff_X_mul, coeff_bitPoly, if_pos (by omega), if_pos (by omega)]
      rw [show NP - 1 - (k + 1) + 1 = NP - 1 - k by omega]
      ring
  · rw [if_neg hk]
    obtain ⟨k, rfl⟩ : ∃ k', k = k' + 1 := ⟨k - 1, by omega⟩
    rw [coeff_X_mul, coeff_bitPoly]
    by_cases hkN : k + 1 = NP
    · rw [if_pos (by omega), if_pos hkN, hkN, hg, show NP - 1 - k = 0 by omega, b2_xor]
      have h1 := z2 (b2 d)
      have h2 := z2 (b2 (p 0))
      linear_combination -h1 - h2
    · rw [if_neg (by omega), if_neg (by omega), coeff_eq_zero_of_natDegree_lt (by omega)]; ring

theorem lfsr_inv {NP : Nat} (hNP : 0 < NP) {g : (ZMod 2)[X]} (hg : g.coeff NP = 1) (hgd : g.natDegree = NP)
    {gen p p' : Nat → Bool} {data : Nat → Bool} {t : Nat} (hgen : ∀ i, i < NP → b2 (gen i) = g.coeff (NP - 1 - i))
    (hp : ∀ i, i < NP → p' i = (((data t ^^ p 0) && gen i) ^^ (if i + 1 < NP then p (i + 1) else false)))
    (h : g ∣ bitPoly (bitsOf data t ++ bitsOf p NP)) : g ∣ bitPoly (bitsOf data (t + 1) ++ bitsOf p' NP) := by
  obtain ⟨q, hq⟩ := h
  rw [bitPoly_append, length_bitsOf] at hq ⊢
  rw [bitsOf_succ, bitPoly_snoc, lfsr_step hNP hg hgd hgen hp]
  refine ⟨X * q + C (b2 (data t ^^ p 0)), ?_⟩
  have := p2 (C (b2 (data t)) * X ^ NP)
  linear_combination X * hq + this

/-- Two parities of the same data are equal. -/
theorem parity_unique {NP : Nat} {g : (ZMod 2)[X]} (hgd : g.natDegree = NP) {ds : List Bool}
    {p p' : Nat → Bool} (h : g ∣ bitPoly (ds ++ bitsOf p NP)) (h' : g ∣ bitPoly (ds ++ bitsOf p' NP)) :
    ∀ i, i < NP → p i = p' i := by
  rw [bitPoly_append, length_bitsOf] at h h'
  have hd := dvd_sub h h'
  rw [add_sub_add_left_eq_sub] at hd
  intro i hi
  have h0 : bitPoly (bitsOf p NP) - bitPoly (bitsOf p' NP) = 0 := by
    by_contra hne
    have h1 := natDegree_le_of_dvd hd hne
    have h2 := natDegree_sub_le (bitPoly (bitsOf p NP)) (bitPoly (bitsOf p' NP))
    have h3 := natDegree_bitPoly_lt (f := p) (n := NP) (by omega)
    have h4 := natDegree_bitPoly_lt (f := p') (n := NP) (by omega)
    have := max_lt h3 h4
    omega
  have h5 := congrArg (fun q => q.coeff (NP - 1 - i)) (sub_eq_zero.1 h0)
  rw [coeff_bitPoly, coeff_bitPoly, if_pos (by omega), if_pos (by omega), show NP - 1 - (NP - 1 - i) = i by omega] at h5
  cases h6 : p i <;> cases h7 : p' i <;> rw [h6, h7] at h5 <;> first | rfl | exact absurd h5 (by decide)

end Verif.BCH
