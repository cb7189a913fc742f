import Verif.RS.Spec
import Verif.RS.Table
import Verif.RS.Dec
/- Translation between the field of storage values and `GFR P`. -/
namespace Verif.RS
open Verif.GF Finset Polynomial

variable {w M P : Nat} {T : Tab}

/-- The block `data, parity` as numbers. -/
def blk {M : Nat} (data parity : List (Val M)) (dl NR : Nat) : List Nat :=
  (data.take dl ++ parity.take NR).map Val.v

theorem blk_length {data parity : List (Val M)} {dl NR : Nat} (hd : dl ≤ data.length) (hp : NR ≤ parity.length) :
    (blk data parity dl NR).length = dl + NR := by
  unfold blk; simp; omega

section
variable (R : Ready w M P T) (hM : 1 < M)

theorem val_zero_v : letI := valField R; (0 : Val M).v = 0 := by
  letI := valField R
  have h1 : toR P (0 : Val M).v = toR P 0 := by
    rw [toR_zero, ← valIso_apply R, map_zero]
  exact toR_inj R.deg (0 : Val M).lt (by positivity) h1

theorem blk_getD {data parity : List (Val M)} {dl NR j : Nat} (hd : dl ≤ data.length) (hp : NR ≤ parity.length)
    (hj : j < dl + NR) :
    letI := valField R
    (blk data parity dl NR).getD j 0 = (word data parity dl j).v := by
  letI := valField R
  have hl := blk_length hd hp
  rw [List.getD_eq_getElem _ _ (by omega)]
  unfold blk word
  rw [List.getElem_map, List.getElem_append]
  by_cases h : j < dl
  · rw [dif_pos (by simp; omega), if_pos h, List.getElem_take, List.getD_eq_getElem _ _ (by omega)]
  · rw [dif_neg (by simp; omega), if_neg h, List.getElem_take, List.getD_eq_getElem _ _ (by omega)]
    simp [Nat.min_eq_left hd]

theorem iso_al : letI := valField R; valIso R (valGf R hM).al = xR P := by
  letI := valField R
  exact (valIso R).apply_symm_apply _

theorem iso_loc (n j : Nat) : letI := valField R; valIso R (X' (valGf R hM) n j) = loc P n j := by
  letI := valField R
  unfold X' loc
  rw [map_pow, iso_al R hM]

theorem iso_ev {b : List Nat} {W : Nat → Val M} (h : ∀ j, j < b.length → b.getD j 0 = (W j).v) (k : Nat) :
    letI := valField R
    valIso R (ev b.length W ((valGf R hM).al ^ k)) = polyAt P b (xR P ^ k) := by
  letI := valField R
  unfold ev polyAt
  rw [map_sum]
  refine Finset.sum_congr rfl fun j hj => ?_
  rw [mem_range] at hj
  rw [map_mul, map_pow, map_pow, iso_al R hM, h j hj, valIso_apply]

theorem cw_iff {NR FCR : Nat} {b : List Nat} {W : Nat → Val M} (h : ∀ j, j < b.length → b.getD j 0 = (W j).v) :
    letI := valField R
    Cw (valGf R hM) NR FCR b.length W ↔ Codeword P NR FCR b := by
  letI := valField R
  unfold Cw Codeword
  refine forall_congr' fun i => imp_congr_right fun _ => ?_
  rw [← iso_ev R hM h, map_eq_zero_iff _ (valIso R).injective]

theorem exc'_iff {n : Nat} (hn : n ≤ 2 ^ M - 1) {A : Finset Nat} (hA : ∀ p ∈ A, p < n) :
    letI := valField R
    Exc' (valGf R hM) n A ↔ Excluded P M n A := by
  letI := valField R
  unfold Exc' Excluded
  refine exists_congr fun p => exists_congr fun q => and_congr_right fun hpq => and_congr_right fun hAe => ?_
  have hp := hA p (by rw [hAe]; simp)
  have hq := hA q (by rw [hAe]; simp)
  have hQ : 0 < 2 ^ M := by positivity
  have hs : X' (valGf R hM) n p + X' (valGf R hM) n q ≠ 0 := by
    intro h0
    have := (valGf R hM).eq_of_add h0
    unfold X' at this
    have := (valGf R hM).al_pow_inj (show n - 1 - p < 2 ^ M - 1 by omega) (show n - 1 - q < 2 ^ M - 1 by omega) this
    omega
  have hN : (valGf R hM).N < 2 ^ M := by
    show 2 ^ M - 1 < 2 ^ M
    omega
  constructor
  · intro h
    have h1 : X' (valGf R hM) n p * X' (valGf R hM) n q / ((X' (valGf R hM) n p + X' (valGf R hM) n q) *
        (X' (valGf R hM) n p + X' (valGf R hM) n q)) = (⟨2 ^ M - 1, by omega⟩ : Val M) := Val.ext' h
    rw [div_eq_iff (mul_ne_zero hs hs)] at h1
    have h2 := congrArg (valIso R) h1
    rw [map_mul, map_mul, map_mul, map_add, iso_loc R hM, iso_loc R hM, valIso_apply] at h2
    rw [h2, pow_two]
  · intro h
    have h1 : X' (valGf R hM) n p * X' (valGf R hM) n q / ((X' (valGf R hM) n p + X' (valGf R hM) n q) *
        (X' (valGf R hM) n p + X' (valGf R hM) n q)) = (⟨2 ^ M - 1, by omega⟩ : Val M) := by
      rw [div_eq_iff (mul_ne_zero hs hs)]
      apply (valIso R).injective
      rw [map_mul, map_mul, map_mul, map_add, iso_loc R hM, iso_loc R hM, valIso_apply, h, pow_two]
    rw [h1]; rfl

theorem recur_iff {NR n : Nat} {A : Finset Nat} (L : Nat) (s : Nat → Val M) (S : Nat → GFR P)
    (hS : letI := valField R; ∀ i, i < NR → valIso R (s i) = S i) :
    letI := valField R
    Recurs' (valGf R hM) NR n A s L ↔ Recurrence P NR n A S L := by
  letI := valField R
  have hpow : ∀ (c : Nat → Val M) (p : Nat),
      (∑ k ∈ range (L + 1), c k * (X' (valGf R hM) n p) ^ (L - k)) =
      X' (valGf R hM) n p ^ L * ∑ k ∈ range (L + 1), c k * (X' (valGf R hM) n p)⁻¹ ^ k := by
    intro c p
    have hx : X' (valGf R hM) n p ≠ 0 := (valGf R hM).al_pow_ne _
    rw [Finset.mul_sum]
    refine Finset.sum_congr rfl fun k hk => ?_
    rw [mem_range] at hk
    have : X' (valGf R hM) n p ^ L = X' (valGf R hM) n p ^ (L - k) * X' (valGf R hM) n p ^ k := by
      rw [← pow_add]; congr 1; omega
    rw [this, inv_pow]
    field_simp
  constructor
  · rintro ⟨c, h0, hd, hr, hs⟩
    refine ⟨fun k => valIso R (c.coeff k), by dsimp only; rw [h0, map_one], ?_, ?_⟩
    · intro p hp
      have h1 := hr p hp
      rw [eval_eq_sum_range' (n := L + 1) (by omega)] at h1
      have h2 := hpow (fun k => c.coeff k) p
      rw [h1, mul_zero] at h2
      have h3 := congrArg (valIso R) h2
      rw [map_sum, map_zero] at h3
      rw [← h3]
      refine Finset.sum_congr rfl fun k _ => ?_
      rw [map_mul, map_pow, iso_loc R hM]
    · intro j h1 h2
      have h3 := congrArg (valIso R) (hs j h1 h2)
      rw [map_sum, map_zero] at h3
      rw [← h3]
      refine Finset.sum_congr rfl fun k _ => ?_
      rw [map_mul, hS (j - k) (by omega)]
  · rintro ⟨c, h0, hr, hs⟩
    let c' : Nat → Val M := fun k => (valIso R).symm (c k)
    have hc' : ∀ k, valIso R (c' k) = c k := fun k => (valIso R).apply_symm_apply _
    let q : (Val M)[X] := ∑ k ∈ range (L + 1), monomial k (c' k)
    have hq : ∀ k, q.coeff k = if k < L + 1 then c' k else 0 := by
      intro k
      simp only [q, finsetSum_coeff, coeff_monomial, Finset.sum_ite_eq', mem_range]
    have hdeg : q.natDegree ≤ L := by
      rw [natDegree_le_iff_coeff_eq_zero]
      intro k hk
      rw [hq, if_neg (by omega)]
    refine ⟨q, ?_, hdeg, ?_, ?_⟩
    · rw [hq, if_pos (by omega)]
      apply (valIso R).injective
      rw [hc', h0, map_one]
    · intro p hp
      have h1 := hr p hp
      have h2 : ∑ k ∈ range (L + 1), c' k * (X' (valGf R hM) n p) ^ (L - k) = 0 := by
        apply (valIso R).injective
        rw [map_sum, map_zero, ← h1]
        refine Finset.sum_congr rfl fun k _ => ?_
        rw [map_mul, map_pow, iso_loc R hM, hc']
      rw [hpow] at h2
      rcases mul_eq_zero.1 h2 with h3 | h3
      · exact absurd h3 (pow_ne_zero _ ((valGf R hM).al_pow_ne _))
      · rw [eval_eq_sum_range' (n := L + 1) (by omega), ← h3]
        refine Finset.sum_congr rfl fun k hk => ?_
        rw [hq, if_pos (mem_range.1 hk)]
    · intro j h1 h2
      apply (valIso R).injective
      rw [map_sum, map_zero, ← hs j h1 h2]
      refine Finset.sum_congr rfl fun k hk => ?_
      rw [map_mul, hq, if_pos (mem_range.1 hk), hc', hS (j - k) (by omega)]

end
end Verif.RS
