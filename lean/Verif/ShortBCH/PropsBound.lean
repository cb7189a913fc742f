import Verif.ShortBCH.Props
import Verif.BCH.PropsExample
/- C31: the BCH bound for the short codes. -/
namespace Verif.ShortBCH
open Verif.GF Verif.GF2
open Verif.RS (C23_mds diff diffPos)
open Verif.BCH (bitPoly bitsOf syms coeff_bitPoly length_bitsOf getD_bitsOf syms_getD C28_code genPoly b2)
open Polynomial

/-- The bits of a word, the highest first. -/
def bitList (N c : Nat) : List Bool := bitsOf (fun j => c.testBit (N - 1 - j)) N

theorem bitPoly_bitList {N c : Nat} (hc : c < 2 ^ N) : bitPoly (bitList N c) = natPoly c := by
  ext k
  unfold bitList
  rw [coeff_bitPoly, coeff_natPoly]
  by_cases hk : k < N
  · rw [if_pos hk, show N - 1 - (N - 1 - k) = k by omega]
    cases c.testBit k <;> simp [b2]
  · rw [if_neg hk, Nat.testBit_lt_two_pow (lt_of_lt_of_le hc (Nat.pow_le_pow_right (by norm_num) (by omega)))]
    simp

theorem diff_bitList (N c c' : Nat) : diff (syms (bitList N c)) (syms (bitList N c')) = dist N c c' := by
  unfold diff diffPos dist
  have hl : (syms (bitList N c)).length = N := by unfold syms bitList; rw [List.length_map, length_bitsOf]
  have hg : ∀ (x j : Nat), j < N → (syms (bitList N x)).getD j 0 = (x.testBit (N - 1 - j)).toNat := by
    intro x j hj
    rw [syms_getD]
    unfold bitList
    rw [getD_bitsOf _ hj]
  rw [hl]
  refine Finset.card_nbij' (fun j => N - 1 - j) (fun j => N - 1 - j) ?_ ?_ ?_ ?_
  · intro j hj
    simp only [Finset.coe_filter, Finset.mem_range, Set.mem_setOf_eq] at hj ⊢
    rw [hg c j hj.1, hg c' j hj.1] at hj
    exact ⟨by omega, fun h => hj.2 (by rw [h])⟩
  · intro j hj
    simp only [Finset.coe_filter, Finset.mem_range, Set.mem_setOf_eq] at hj ⊢
    refine ⟨by omega, fun h => hj.2 ?_⟩
    rw [hg c _ (by omega), hg c' _ (by omega), show N - 1 - (N - 1 - j) = j by omega] at h
    cases h1 : c.testBit j <;> cases h2 : c'.testBit j <;> rw [h1, h2] at h <;> first | rfl | exact absurd h (by decide)
  · intro j hj
    simp only [Finset.coe_filter, Finset.mem_range, Set.mem_setOf_eq] at hj
    dsimp only
    omega
  · intro j hj
    simp only [Finset.coe_filter, Finset.mem_range, Set.mem_setOf_eq] at hj
    dsimp only
    omega

/-- **C31** (the BCH bound): if `NR` consecutive powers of a primitive element of GF(2^M) are roots of the generator polynomial, codewords of up to `2^M - 1` bits are at least `NR + 1` bits apart. -/
theorem C31_bch_bound {w M P NR FCR N G : Nat} {T : Tab} (R : Ready w M P T) (hM : 1 < M) (hN : N ≤ 2 ^ M - 1)
    (hroots : ∀ i, i < NR → (natPoly G).eval₂ (algebraMap (ZMod 2) (GFR P)) (xR P ^ (FCR + i)) = 0) : MinDist N G (NR + 1) := by
  have hg : genPoly [G] = natPoly G := by unfold genPoly; simp
  have hQ : 2 ≤ 2 ^ M := le_trans (by norm_num) (Nat.pow_le_pow_right (by norm_num : 0 < 2) (show 1 ≤ M by omega))
  have hlen : ∀ x, (syms (bitList N x)).length = N := by intro x; unfold syms bitList; rw [List.length_map, length_bitsOf]
  have hsmall : ∀ x, ∀ y ∈ syms (bitList N x), y < 2 ^ M := by
    intro x y hy
    unfold syms at hy
    obtain ⟨b, _, rfl⟩ := List.mem_map.1 hy
    have := Bool.toNat_le b
    omega
  have hcode : ∀ x, Codeword N G x → RS.Codeword P NR FCR (syms (bitList N x)) := by
    intro x hx
    refine C28_code (polys := [G]) (by rw [hg]; exact hroots) ?_
    rw [hg, bitPoly_bitList hx.1]
    exact hx.2
  intro c c' hc hc' hne
  rw [← diff_bitList]
  refine C23_mds R hM (by rw [hlen, hlen]) (by rw [hlen]; exact hN) (hsmall c) (hsmall c') (hcode c hc) (hcode c' hc') ?_
  intro h
  apply hne
  refine Nat.eq_of_testBit_eq fun i => ?_
  by_cases hi : i < N
  · have h' : (syms (bitList N c)).getD (N - 1 - i) 0 = (syms (bitList N c')).getD (N - 1 - i) 0 := by rw [h]
    rw [syms_getD, syms_getD] at h'
    unfold bitList at h'
    rw [getD_bitsOf _ (by omega), getD_bitsOf _ (by omega), show N - 1 - (N - 1 - i) = i by omega] at h'
    cases h1 : c.testBit i <;> cases h2 : c'.testBit i <;> rw [h1, h2] at h' <;> first | rfl | exact absurd h' (by decide)
  · rw [Nat.testBit_lt_two_pow (lt_of_lt_of_le hc.1 (Nat.pow_le_pow_right (by norm_num) (by omega))),
      Nat.testBit_lt_two_pow (lt_of_lt_of_le hc'.1 (Nat.pow_le_pow_right (by norm_num) (by omega)))]

/-- The roots, by evaluation. -/
def rootsOf (P M NR FCR f G : Nat) : Bool := (List.range NR).all fun i => BCH.Example.evalAt P M (FCR + i) f G == 0

theorem rootsOf_spec {P M NR FCR f G : Nat} (hG : G < 2 ^ f) (h : rootsOf P M NR FCR f G = true) :
    ∀ i, i < NR → (natPoly G).eval₂ (algebraMap (ZMod 2) (GFR P)) (xR P ^ (FCR + i)) = 0 := by
  intro i hi
  unfold rootsOf at h
  rw [List.all_eq_true] at h
  have h2 := h i (List.mem_range.2 hi)
  rw [beq_iff_eq] at h2
  rw [← BCH.Example.evalAt_spec P M (FCR + i) f G hG, h2, toR_zero]

theorem ready32 : ∃ T, Ready 8 5 0b100101 T := by
  have h : (tables 8 5 0b100101 ⟨List.replicate 32 0, List.replicate 32 0⟩).isSome = true := by decide +kernel
  obtain ⟨t, ht⟩ := Option.isSome_iff_exists.1 h
  exact ⟨t, by norm_num, by norm_num, by unfold HasDeg; norm_num, _, ⟨rfl, rfl⟩, ht⟩

/-- **C31** (instance): the (31, 16) code has minimum distance 7, so three errors are corrected. -/
theorem C31_bch31_minDist : MinDist 31 0b1000111110101111 7 := by
  obtain ⟨T, R⟩ := ready32
  exact C31_bch_bound (NR := 6) (FCR := 1) R (by norm_num) (by norm_num) (rootsOf_spec (M := 5) (f := 16) (by norm_num) (by decide +kernel))

theorem params_golay2 : Params 23 12 0b110001110101 := by constructor <;> decide

/-- **C31** (instance): the other Golay code. -/
theorem C31_golay2_minDist : MinDist 23 0b110001110101 7 :=
  minDist_of params_golay2 (allWeights_spec _ (by decide +kernel))

end Verif.ShortBCH
