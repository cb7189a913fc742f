import Verif.GF2.Period
import Mathlib.RingTheory.AdjoinRoot
import Mathlib.FieldTheory.Finiteness
import Mathlib.GroupTheory.OrderOfElement
import Mathlib.Tactic.LinearCombination
/- The quotient ring GF(2)[x]/(POLY) with elements written as natural numbers (specification side). -/
namespace Verif.GF
open Polynomial GF2

/-- The quotient ring `GF(2)[x]/(POLY)`. -/
abbrev GFR (POLY : Nat) := AdjoinRoot (natPoly POLY)

/-- The residue class of the polynomial whose coefficients are the bits of `v`. -/
noncomputable def toR (POLY v : Nat) : GFR POLY := AdjoinRoot.mk (natPoly POLY) (natPoly v)

/-- `POLY` has degree exactly `M` (the static assertion `Q == (POLY & ~N)`). -/
def HasDeg (M POLY : Nat) : Prop := 2 ^ M ≤ POLY ∧ POLY < 2 ^ (M + 1)

variable {M P : Nat}

theorem HasDeg.top (h : HasDeg M P) : P.testBit M = true := by
  by_contra hc
  have : P < 2 ^ M := by
    apply Nat.lt_pow_two_of_testBit
    intro i hi
    by_cases hin : i = M
    · subst hin; simpa using hc
    · apply Nat.testBit_eq_false_of_lt
      exact lt_of_lt_of_le h.2 (Nat.pow_le_pow_right (by norm_num) (by omega))
  have := h.1; omega

theorem HasDeg.natDegree (h : HasDeg M P) : (natPoly P).natDegree = M := natDegree_natPoly h.1 h.2

theorem HasDeg.ne_zero (h : HasDeg M P) : natPoly P ≠ 0 := by
  rw [Ne, natPoly_eq_zero]; have := h.1; have : 0 < 2 ^ M := by positivity
  omega

theorem HasDeg.monic (h : HasDeg M P) : (natPoly P).Monic := by
  unfold Monic leadingCoeff
  rw [h.natDegree, coeff_natPoly, h.top]; simp

theorem toR_xor (P a b : Nat) : toR P (a ^^^ b) = toR P a + toR P b := by
  unfold toR; rw [natPoly_xor, map_add]

theorem toR_zero (P : Nat) : toR P 0 = 0 := by unfold toR; rw [natPoly_zero, map_zero]
theorem toR_one (P : Nat) : toR P 1 = 1 := by unfold toR; rw [natPoly_one, map_one]

theorem toR_shift (P a n : Nat) : toR P (a <<< n) = AdjoinRoot.root (natPoly P) ^ n * toR P a := by
  unfold toR; rw [natPoly_shiftLeft, map_mul, map_pow, AdjoinRoot.mk_X]

theorem toR_self (P : Nat) : toR P P = 0 := AdjoinRoot.mk_self

theorem toR_two (P : Nat) : toR P 2 = AdjoinRoot.root (natPoly P) := by
  have := toR_shift P 1 1
  rw [toR_one, mul_one, pow_one] at this
  exact this

theorem toR_add_self (a : GFR P) : a + a = 0 := by
  obtain ⟨p, rfl⟩ := AdjoinRoot.mk_surjective a
  rw [← map_add, CharTwo.add_self_eq_zero, map_zero]

theorem toR_inj (h : HasDeg M P) {a b : Nat} (ha : a < 2 ^ M) (hb : b < 2 ^ M)
    (hab : toR P a = toR P b) : a = b := by
  unfold toR at hab
  rw [AdjoinRoot.mk_eq_mk, CharTwo.sub_eq_add] at hab
  · have hdvd : natPoly P ∣ natPoly (a ^^^ b) := by rw [natPoly_xor]; exact hab
    have hlt : a ^^^ b < 2 ^ M := Nat.xor_lt_two_pow ha hb
    have hz : natPoly (a ^^^ b) = 0 := by
      by_contra hne
      have h1 := natDegree_le_of_dvd hdvd hne
      have h2 := degree_natPoly_lt hlt
      rw [degree_eq_natDegree hne] at h2
      have h3 : (natPoly (a ^^^ b)).natDegree < M := by exact_mod_cast h2
      rw [h.natDegree] at h1; omega
    rw [natPoly_eq_zero] at hz
    exact Nat.xor_eq_zero_iff.1 hz

theorem toR_surj (h : HasDeg M P) (x : GFR P) : ∃ a, a < 2 ^ M ∧ toR P a = x := by
  obtain ⟨p, rfl⟩ := AdjoinRoot.mk_surjective x
  obtain ⟨a, ha⟩ := exists_natPoly (p %ₘ natPoly P)
  refine ⟨a, ?_, ?_⟩
  · apply lt_of_degree_natPoly_lt
    rw [ha, ← h.natDegree, ← degree_eq_natDegree h.ne_zero]
    exact degree_modByMonic_lt _ h.monic
  · unfold toR
    rw [ha, AdjoinRoot.mk_eq_mk]
    have := modByMonic_add_div p (natPoly P)
    refine ⟨-(p /ₘ natPoly P), ?_⟩
    linear_combination this

/-- The elements of the ring are the numbers below `2 ^ M`. -/
noncomputable def equivR (h : HasDeg M P) : Fin (2 ^ M) ≃ GFR P :=
  Equiv.ofBijective (fun v => toR P v.1)
    ⟨fun a b hab => Fin.ext (toR_inj h a.2 b.2 hab), fun x => by
      obtain ⟨a, ha, he⟩ := toR_surj h x
      exact ⟨⟨a, ha⟩, he⟩⟩

theorem card_R (h : HasDeg M P) : Nat.card (GFR P) = 2 ^ M := by
  rw [← Nat.card_congr (equivR h), Nat.card_eq_fintype_card, Fintype.card_fin]

/-- Multiplying by `x`. -/
theorem toR_xtime (P M a : Nat) : toR P (xtime P M a) = AdjoinRoot.root (natPoly P) * toR P a := by
  unfold xtime
  have h2 : toR P (2 * a) = AdjoinRoot.root (natPoly P) * toR P a := by
    have := toR_shift P a 1
    rw [Nat.shiftLeft_eq, pow_one, pow_one, Nat.mul_comm] at this
    exact this
  split
  · rw [toR_xor, h2, toR_self, add_zero]
  · exact h2

theorem toR_iter (P M k : Nat) : toR P ((xtime P M)^[k] 1) = AdjoinRoot.root (natPoly P) ^ k := by
  induction k with
  | zero => simp [toR_one]
  | succ k ih => rw [Function.iterate_succ_apply', toR_xtime, ih, pow_succ']

theorem iter_lt (h : HasDeg M P) (hM : 0 < M) (k : Nat) : (xtime P M)^[k] 1 < 2 ^ M := by
  induction k with
  | zero => exact Nat.one_lt_two_pow (by omega)
  | succ k ih => rw [Function.iterate_succ_apply']; exact xtime_lt h.top h.2 ih

/-- `POLY` is primitive: `x` has multiplicative order `2 ^ M - 1` in `GF(2)[x]/(POLY)`. -/
def Primitive (M POLY : Nat) : Prop := orderOf (AdjoinRoot.root (natPoly POLY)) = 2 ^ M - 1

theorem N_pos (hM : 0 < M) : 0 < 2 ^ M - 1 := by
  have : 1 < 2 ^ M := Nat.one_lt_two_pow (by omega)
  omega

theorem primitive_iff (h : HasDeg M P) (hM : 0 < M) : Primitive M P ↔
    (xtime P M)^[2 ^ M - 1] 1 = 1 ∧ ∀ i, 0 < i → i < 2 ^ M - 1 → (xtime P M)^[i] 1 ≠ 1 := by
  unfold Primitive
  rw [orderOf_eq_iff (N_pos hM)]
  have key : ∀ k, AdjoinRoot.root (natPoly P) ^ k = 1 ↔ (xtime P M)^[k] 1 = 1 := by
    intro k
    rw [← toR_iter P M, ← toR_one P]
    constructor
    · intro h'; exact toR_inj h (iter_lt h hM k) (Nat.one_lt_two_pow (by omega)) h'
    · intro h'; rw [h']
  rw [key]
  simp only [Ne, key]
  constructor
  · rintro ⟨h1, h2⟩; exact ⟨h1, fun i hi hi2 => h2 i hi2 hi⟩
  · rintro ⟨h1, h2⟩; exact ⟨h1, fun i hi hi2 => h2 i hi2 hi⟩

theorem root_pow_ne_zero (hM : 0 < M) (h : HasDeg M P) (hp : Primitive M P) (k : Nat) :
    AdjoinRoot.root (natPoly P) ^ k ≠ 0 := by
  intro hk
  have h1 : AdjoinRoot.root (natPoly P) ^ (2 ^ M - 1) = 1 := by rw [← hp]; exact pow_orderOf_eq_one _
  have h2 : (AdjoinRoot.root (natPoly P) ^ k) ^ (2 ^ M - 1) = 1 := by rw [← pow_mul, Nat.mul_comm, pow_mul, h1, one_pow]
  rw [hk, zero_pow (by have := N_pos hM; omega)] at h2
  have h3 : toR P 0 = toR P 1 := by rw [toR_zero, toR_one, h2]
  have := toR_inj h (by positivity) (Nat.one_lt_two_pow (by omega)) h3
  omega

/-- With a primitive polynomial, every non-zero element is a power of `x`. -/
theorem exists_pow (hM : 0 < M) (h : HasDeg M P) (hp : Primitive M P) {x : GFR P} (hx : x ≠ 0) :
    ∃ k, k < 2 ^ M - 1 ∧ AdjoinRoot.root (natPoly P) ^ k = x := by
  classical
  haveI : Finite (GFR P) := Nat.finite_of_card_ne_zero (by rw [card_R h]; positivity)
  haveI := Fintype.ofFinite (GFR P)
  let f : Fin (2 ^ M - 1) → {y : GFR P // y ≠ 0} :=
    fun k => ⟨AdjoinRoot.root (natPoly P) ^ k.1, root_pow_ne_zero hM h hp k.1⟩
  have hinj : Function.Injective f := by
    intro a b hab
    have hab' : AdjoinRoot.root (natPoly P) ^ a.1 = AdjoinRoot.root (natPoly P) ^ b.1 := congrArg Subtype.val hab
    have hu : IsUnit (AdjoinRoot.root (natPoly P)) := by
      have h1 : AdjoinRoot.root (natPoly P) ^ (2 ^ M - 1) = 1 := by rw [← hp]; exact pow_orderOf_eq_one _
      exact IsUnit.of_pow_eq_one h1 (by have := N_pos hM; omega)
    obtain ⟨u, hu⟩ := hu
    have ho : orderOf u = 2 ^ M - 1 := by rw [← orderOf_units, hu]; exact hp
    have huab : u ^ a.1 = u ^ b.1 := by
      ext; push_cast; rw [hu]; exact hab'
    have := pow_inj_mod.1 huab
    rw [ho, Nat.mod_eq_of_lt a.2, Nat.mod_eq_of_lt b.2] at this
    exact Fin.ext this
  have hcard : Fintype.card {y : GFR P // y ≠ 0} = Fintype.card (Fin (2 ^ M - 1)) := by
    rw [Fintype.card_subtype_compl, Fintype.card_subtype_eq, Fintype.card_fin,
      ← Nat.card_eq_fintype_card, card_R h]
  have hbij := (Fintype.bijective_iff_injective_and_card f).2 ⟨hinj, hcard.symm⟩
  obtain ⟨k, hk⟩ := hbij.2 ⟨x, hx⟩
  exact ⟨k.1, k.2, congrArg Subtype.val hk⟩

/-- A primitive polynomial is irreducible. -/
theorem irreducible_of_primitive (hM : 0 < M) (h : HasDeg M P) (hp : Primitive M P) :
    Irreducible (natPoly P) := by
  have hunit : ∀ x : GFR P, x ≠ 0 → IsUnit x := by
    intro x hx
    obtain ⟨k, _, rfl⟩ := exists_pow hM h hp hx
    have h1 : AdjoinRoot.root (natPoly P) ^ (2 ^ M - 1) = 1 := by rw [← hp]; exact pow_orderOf_eq_one _
    exact (IsUnit.of_pow_eq_one h1 (by have := N_pos hM; omega)).pow k
  refine ⟨?_, ?_⟩
  · intro hu
    have := natDegree_eq_zero_of_isUnit hu
    rw [h.natDegree] at this; omega
  · intro a b hab
    by_cases ha : AdjoinRoot.mk (natPoly P) a = 0
    · right
      rw [AdjoinRoot.mk_eq_zero] at ha
      obtain ⟨c, hc⟩ := ha
      have : a ≠ 0 := by rintro rfl; rw [zero_mul] at hab; exact h.ne_zero hab
      have h1 : a * 1 = a * (b * c) := by rw [mul_one, ← mul_assoc, ← hab]; exact hc
      have h2 := mul_left_cancel₀ this h1
      exact IsUnit.of_mul_eq_one _ h2.symm
    · left
      have h1 := hunit _ ha
      by_cases hb : AdjoinRoot.mk (natPoly P) b = 0
      · rw [AdjoinRoot.mk_eq_zero] at hb
        obtain ⟨c, hc⟩ := hb
        have : b ≠ 0 := by rintro rfl; rw [mul_zero] at hab; exact h.ne_zero hab
        have h2 : b * 1 = b * (a * c) := by rw [mul_one, ← mul_assoc, mul_comm b a, ← hab]; exact hc
        have h3 := mul_left_cancel₀ this h2
        exact IsUnit.of_mul_eq_one _ h3.symm
      · exfalso
        have h2 := (hunit _ ha).mul (hunit _ hb)
        rw [← map_mul, ← hab, AdjoinRoot.mk_self] at h2
        have h01 : (0 : GFR P) = 1 := isUnit_zero_iff.1 h2
        have h3 : toR P 0 = toR P 1 := by rw [toR_zero, toR_one, h01]
        have := toR_inj h (by positivity) (Nat.one_lt_two_pow (by omega)) h3
        omega

end Verif.GF
