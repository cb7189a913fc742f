import Verif.Trials.Proof
import Verif.ShortBCH.PropsBound
/- C72, the trials of the test of the short BCH codes. -/
namespace Verif.Trials
open Verif.RS (sb)
open Verif.ShortBCH (Params MinDist Codeword dist dist_eq weight weight_xor_le mkPar mkDec hard int31)

theorem weight_bit {N p : Nat} : weight N (1 <<< p) ≤ 1 := by
  unfold weight
  rw [Finset.card_le_one]
  intro a ha b hb
  simp only [Finset.mem_filter, Nat.one_shiftLeft, Nat.testBit_two_pow, decide_eq_true_eq] at ha hb
  omega

/-- **C72** A trial with a short BCH code of minimum distance `2 * T + 1` passes. -/
theorem C72_short {N K G T message : Nat} {epar derr dpar : List Nat} {epos : Nat → Nat} (h : Params N K G) (hT : 1 ≤ T) (hT3 : T ≤ 3) (hd : MinDist N G (2 * T + 1))
    (he : epar.length = 2 ^ K) (hde : derr.length = 2 ^ (N - K)) (hdp : dpar.length = 2 ^ K) (hm : message < 2 ^ K) (hpos : ∀ i, epos i < N) :
    shortTrial N K G T epar derr dpar message epos = some () := by
  obtain ⟨cw, h1, h2, h3⟩ := ShortBCH.C30_systematic (par := epar) h he hm
  obtain ⟨par, hp, h1⟩ := bind_some h1
  have hdec : ∀ x, x < 2 ^ N → dist N x cw ≤ T → (mkDec N K G T derr dpar >>= fun d => hard (N - K) d.1 d.2 x) = some (cw : Int) :=
    fun x hx hxc => ShortBCH.C31_corrects h hT hT3 hde hdp hd h2 hx hxc
  have hself : dist N cw cw = 0 := by rw [dist_eq, Nat.xor_self]; unfold weight; simp
  obtain ⟨d, hd1, hd2⟩ := bind_some (hdec cw h2.1 (by omega))
  have hn := h.n31
  obtain ⟨x, hx, hx1, hx2⟩ := forUp_inv (f := fun i x => do
      let m ← int31 (1 <<< epos i)
      return x ^^^ m) (fun k x => x < 2 ^ N ∧ dist N x cw ≤ k) (Nat.zero_le T) (s := cw) ⟨h2.1, by omega⟩ (by
    rintro k x _ _ ⟨g1, g2⟩
    have hk := hpos k
    have hlt : 1 <<< epos k < 2 ^ N := by rw [Nat.one_shiftLeft]; exact Nat.pow_lt_pow_right (by norm_num) hk
    have h31 : 1 <<< epos k < 2 ^ 31 := lt_of_lt_of_le hlt (Nat.pow_le_pow_right (by norm_num) hn)
    unfold int31
    rw [if_pos h31, sb]
    refine ⟨_, rfl, Nat.xor_lt_two_pow g1 hlt, ?_⟩
    rw [dist_eq] at g2 ⊢
    have h5 := weight_xor_le N (x ^^^ cw) (1 <<< epos k)
    have h6 := weight_bit (N := N) (p := epos k)
    rw [show x ^^^ 1 <<< epos k ^^^ cw = x ^^^ cw ^^^ 1 <<< epos k by rw [Nat.xor_assoc, Nat.xor_comm (1 <<< epos k), ← Nat.xor_assoc]]
    omega)
  obtain ⟨d', hd1', hd2'⟩ := bind_some (hdec x hx1 hx2)
  rw [hd1] at hd1'
  cases hd1'
  unfold shortTrial
  rw [hp, sb, hd1, sb, h1, sb, show assertUB (cw >>> (N - K) = message) = some () from if_pos h3, sb, hd2, sb, show assertUB ((cw : Int) = cw) = some () from if_pos rfl, sb, hx, sb, hd2', sb]
  exact if_pos rfl

/-- Every trial with these parameters passes. -/
def ShortPasses (N K T G : Nat) : Prop :=
  ∀ (epar derr dpar : List Nat) (message : Nat) (epos : Nat → Nat), epar.length = 2 ^ K → derr.length = 2 ^ (N - K) → dpar.length = 2 ^ K → message < 2 ^ K → (∀ i, epos i < N) →
    shortTrial N K G T epar derr dpar message epos = some ()

/-- **C72** The four codes of the test. -/
theorem C72_short_tests : ShortPasses 23 12 3 0b101011100011 ∧ ShortPasses 23 12 3 0b110001110101 ∧ ShortPasses 15 5 3 0b10100110111 ∧ ShortPasses 31 16 3 0b1000111110101111 := by
  refine ⟨?_, ?_, ?_, ?_⟩ <;> intro epar derr dpar message epos h1 h2 h3 h4 h5
  · exact C72_short ShortBCH.params_golay (by norm_num) (by norm_num) ShortBCH.C31_golay_minDist h1 h2 h3 h4 h5
  · exact C72_short ShortBCH.params_golay2 (by norm_num) (by norm_num) ShortBCH.C31_golay2_minDist h1 h2 h3 h4 h5
  · exact C72_short ShortBCH.params_nasa (by norm_num) (by norm_num) ShortBCH.C31_nasa_minDist h1 h2 h3 h4 h5
  · exact C72_short ShortBCH.params_bch31 (by norm_num) (by norm_num) ShortBCH.C31_bch31_minDist h1 h2 h3 h4 h5

/-- A trial of the third code, run: two flips cancel, one remains. -/
example : shortTrial 15 5 0b10100110111 3 (List.replicate 32 9) (List.replicate 1024 9) (List.replicate 32 9) 21 (fun i => if i = 2 then 14 else 3) = some () :=
  C72_short_tests.2.2.1 _ _ _ _ _ (List.length_replicate ..) (List.length_replicate ..) (List.length_replicate ..) (by norm_num) (fun i => by split <;> norm_num)

end Verif.Trials
