import Verif.Trials.PropsSoft
import Verif.ShortBCH.PropsChase
/- C73, the trials of the test of the short BCH codes with soft values. -/
namespace Verif.Trials
open Verif.RS (sb)
open Verif.Polar (Fl Rounding)
open Verif.Hadamard (count)
open Verif.ShortBCH (dist Params MinDist Codeword Best mkDec soft)
open Finset (range)

variable {F : Rounding}

/-- The symbols of a word: -1 for a one. -/
def bpsk (c i : Nat) : Int := if c.testBit i then -1 else 1

theorem bpsk_pm (c i : Nat) : bpsk c i = 1 ∨ bpsk c i = -1 := by unfold bpsk; split <;> simp

/-- What a trial with a short BCH code counts: `enc` is the sent word, `noisy` are the received soft values. -/
structure BchCounts (N G : Nat) (enc : Nat) (noisy : List Int) (r : Counts) : Prop where
  awgn : r.awgn = count N fun i => noisy.getD i 0 * bpsk enc i < 0
  erasures : r.erasures = count N fun i => noisy.getD i 0 = 0
  /-- the decoder had no result and all bits count as wrong, or it had a codeword, which is compared with the sent one -/
  result : (r.uncorrected = N ∧ r.ambiguity = 1) ∨ ∃ c, Codeword N G c ∧ r.uncorrected = dist N enc c ∧ r.ambiguity = 0

theorem softTrial_eq {N K G T dat : Nat} {f : ℚ} {noise : Nat → ℚ} {epar derr dpar : List Nat} {code : List Int} {symb : List Fl} (h : Params N K G) (hT : 1 ≤ T)
    (he : epar.length = 2 ^ K) (hde : derr.length = 2 ^ (N - K)) (hdp : dpar.length = 2 ^ K) (hc : code.length = N) (hy : symb.length = N) (hdat : dat < 2 ^ K) (hf : 0 < f) :
    ∃ enc noisy dec, Codeword N G enc ∧ enc >>> (N - K) = dat ∧ Received F N f noise (bpsk enc) noisy ∧ (∀ x ∈ noisy, -128 ≤ x ∧ x ≤ 127) ∧
      (mkDec N K G T derr dpar >>= fun d => soft N K T d.1 d.2 noisy) = some dec ∧
      (dec = -1 ∨ ∃ c : Nat, dec = c ∧ Codeword N G c) ∧
      softTrial F N K G T epar derr dpar code symb (.fin f) (fun i => .fin (noise i)) dat = some ⟨count N fun i => noisy.getD i 0 * bpsk enc i < 0, count N fun i => noisy.getD i 0 = 0,
        if dec < 0 then N else dist N enc dec.toNat, if dec < 0 then 1 else 0⟩ := by
  obtain ⟨enc, h1, h2, h3⟩ := ShortBCH.C30_systematic (par := epar) h he hdat
  obtain ⟨enc', h1', h4⟩ := ShortBCH.C30_soft (code := code) h he hdat hc
  rw [h1] at h1'
  cases h1'
  obtain ⟨par, hpar, h4⟩ := bind_some h4
  obtain ⟨noisy, g1, g2, g3⟩ := channel_word (F := F) (noise := noise) (word := bpsk enc) (out := (List.range N).map (bpsk enc)) (symb := symb) hf.ne' (by simp) hy
  obtain ⟨dec, d1, d2⟩ : ∃ dec, (mkDec N K G T derr dpar >>= fun d => soft N K T d.1 d.2 noisy) = some dec ∧ (dec = -1 ∨ ∃ c : Nat, dec = c ∧ Codeword N G c) := by
    by_cases hK : K ≤ 4
    · obtain ⟨r, a, b, b'⟩ := ShortBCH.C32_maximum_likelihood h hT hde hdp hK g2.length g3
      refine ⟨r, a, ?_⟩
      by_cases hex : ∃ c, Best N G noisy c
      · obtain ⟨c, hc⟩ := hex
        exact Or.inr ⟨c, (b c).mpr hc, hc.1⟩
      · exact Or.inl (b'.mpr hex)
    · obtain ⟨err', par', worst, r, a1, -, a2, a3⟩ := ShortBCH.C32_chase h hT hde hdp (by omega) g2.length g3
      refine ⟨r, by rw [a1, sb]; exact a2, ?_⟩
      rcases a3 with a3 | ⟨c, a3, a4, -⟩
      · exact Or.inl a3
      · exact Or.inr ⟨c, a3, a4⟩
  refine ⟨enc, noisy, dec, h2, h3, g2, g3, d1, d2, ?_⟩
  obtain ⟨d, hd1, hd2⟩ := bind_some d1
  unfold softTrial
  have hlt : dec < 2 ^ N := by
    rcases d2 with rfl | ⟨c, rfl, hc⟩
    · exact lt_of_lt_of_le (by norm_num) (pow_nonneg (by norm_num) N)
    · exact_mod_cast hc.1
  have hn := h.n31
  rw [hpar, sb, hd1, sb, h4, sb]
  rw [show ((List.range N).map fun i => if enc.testBit i then (-1 : Int) else 1) = (List.range N).map (bpsk enc) from rfl]
  dsimp only
  rw [g1, sb, score_eq hd2 g2.length (by simp) (by omega) h2.1 hlt]
  have e : (count N fun i => noisy.getD i 0 * ((List.range N).map (bpsk enc)).getD i 0 < 0) = count N fun i => noisy.getD i 0 * bpsk enc i < 0 := by
    unfold count
    apply Finset.sum_congr rfl
    intro i hi
    simp only [getD_words (Finset.mem_range.mp hi)]
  rw [e]

/-- **C73** (short BCH codes): for every message, positive factor and finite noise a trial is defined; the wrong bits are counted against a codeword, so that - the codewords being at least
`d` apart - there are none, or at least `d`, or all `N` because the decoder had no result. -/
theorem C73_soft {N K G T d dat : Nat} {f : ℚ} {noise : Nat → ℚ} {epar derr dpar : List Nat} {code : List Int} {symb : List Fl} (h : Params N K G) (hT : 1 ≤ T) (hd : MinDist N G d)
    (he : epar.length = 2 ^ K) (hde : derr.length = 2 ^ (N - K)) (hdp : dpar.length = 2 ^ K) (hc : code.length = N) (hy : symb.length = N) (hdat : dat < 2 ^ K) (hf : 0 < f) :
    ∃ enc noisy r, Codeword N G enc ∧ enc >>> (N - K) = dat ∧ Received F N f noise (bpsk enc) noisy ∧
      softTrial F N K G T epar derr dpar code symb (.fin f) (fun i => .fin (noise i)) dat = some r ∧ BchCounts N G enc noisy r ∧
      (r.uncorrected = 0 ∨ d ≤ r.uncorrected ∨ r.ambiguity = 1) := by
  obtain ⟨enc, noisy, dec, h1, h2, h3, -, -, h5, h6⟩ := softTrial_eq (F := F) (noise := noise) h hT he hde hdp hc hy hdat hf
  refine ⟨enc, noisy, _, h1, h2, h3, h6, ⟨rfl, rfl, ?_⟩, ?_⟩
  · rcases h5 with rfl | ⟨c, rfl, hcw⟩
    · exact Or.inl ⟨rfl, rfl⟩
    · have : ¬ (c : Int) < 0 := by omega
      simp only [if_neg this, Int.toNat_natCast]
      exact Or.inr ⟨c, hcw, rfl, trivial⟩
  · rcases h5 with rfl | ⟨c, rfl, hcw⟩
    · exact Or.inr (Or.inr rfl)
    · have : ¬ (c : Int) < 0 := by omega
      simp only [if_neg this, Int.toNat_natCast]
      by_cases hec : enc = c
      · exact Or.inl ((dist_eq_zero h1.1 hcw.1).mpr hec)
      · exact Or.inr (Or.inl (hd _ _ h1 hcw hec))

/-- **C73** (short BCH codes): if at most `T` symbols are received with the wrong sign or erased, and the received values correlate strictly best with the sent word, no bit is wrong. -/
theorem C73_soft_corrects {N K G T dat : Nat} {f : ℚ} {noise : Nat → ℚ} {epar derr dpar : List Nat} {code : List Int} {symb : List Fl} (h : Params N K G) (hT : 1 ≤ T) (hT3 : T ≤ 3)
    (hd : MinDist N G (2 * T + 1)) (he : epar.length = 2 ^ K) (hde : derr.length = 2 ^ (N - K)) (hdp : dpar.length = 2 ^ K) (hc : code.length = N) (hy : symb.length = N)
    (hdat : dat < 2 ^ K) (hf : 0 < f) :
    ∃ enc noisy r, Codeword N G enc ∧ enc >>> (N - K) = dat ∧ Received F N f noise (bpsk enc) noisy ∧
      softTrial F N K G T epar derr dpar code symb (.fin f) (fun i => .fin (noise i)) dat = some r ∧
      (r.awgn + r.erasures ≤ T → Best N G noisy enc → r.uncorrected = 0 ∧ r.ambiguity = 0) := by
  obtain ⟨enc, noisy, dec, h1, h2, h3, h4, h5, -, h6⟩ := softTrial_eq (F := F) (noise := noise) h hT he hde hdp hc hy hdat hf
  refine ⟨enc, noisy, _, h1, h2, h3, h6, fun hw hb => ?_⟩
  have := ShortBCH.C32_radius h hT hT3 hde hdp h3.length h4 hd hb (by
    refine le_trans ?_ hw
    show _ ≤ count N _ + count N _
    unfold count
    rw [← Finset.sum_add_distrib, Finset.card_filter]
    apply Finset.sum_le_sum
    intro i _
    unfold bpsk
    beta_reduce
    generalize noisy.getD i 0 = y
    cases enc.testBit i <;> simp only [if_true, Bool.false_eq_true, if_false, mul_one, mul_neg] <;> by_cases hp : y < 0 <;> by_cases hz : y = 0 <;>
      by_cases hq : 0 < y <;> simp [hp, hz, hq] <;> omega)
  rw [h5] at this
  cases this
  have hn : ¬ (enc : Int) < 0 := by omega
  simp only [if_neg hn, Int.toNat_natCast]
  exact ⟨(dist_eq_zero h1.1 h1.1).mpr rfl, trivial⟩

/-- **C73** (short BCH codes): with weak noise nothing is counted. -/
theorem C73_soft_weak {N K G T dat : Nat} {f : ℚ} {noise : Nat → ℚ} {epar derr dpar : List Nat} {code : List Int} {symb : List Fl} (h : Params N K G) (hT : 1 ≤ T) (hT3 : T ≤ 3)
    (hd : MinDist N G (T + 1)) (he : epar.length = 2 ^ K) (hde : derr.length = 2 ^ (N - K)) (hdp : dpar.length = 2 ^ K) (hc : code.length = N) (hy : symb.length = N)
    (hdat : dat < 2 ^ K) (hf : 0 < f)
    (hw : ∀ enc, Codeword N G enc → enc >>> (N - K) = dat → ∀ i, i < N → Weak F f (bpsk enc i) (noise i)) :
    softTrial F N K G T epar derr dpar code symb (.fin f) (fun i => .fin (noise i)) dat = some ⟨0, 0, 0, 0⟩ := by
  obtain ⟨enc, noisy, dec, h1, h2, h3, h4, h5, -, h6⟩ := softTrial_eq (F := F) (noise := noise) h hT he hde hdp hc hy hdat hf
  have hs : ∀ i, i < N → 0 < bpsk enc i * noisy.getD i 0 := fun i hi => C73_channel_weak hf (bpsk_pm enc i) (hw enc h1 h2 i hi) (h3.value i hi)
  have := ShortBCH.C32_sign_codeword h hT hT3 hde hdp h3.length h4 hd h1 (fun i hi => by
    have := hs i hi
    unfold bpsk at this
    split
    · rename_i hb; rw [if_pos hb] at this; omega
    · rename_i hb; rw [if_neg hb] at this; omega)
  rw [h5] at this
  cases this
  rw [h6]
  have hn : ¬ (enc : Int) < 0 := by omega
  simp only [if_neg hn, Int.toNat_natCast, (dist_eq_zero h1.1 h1.1).mpr rfl]
  have e1 : (count N fun i => noisy.getD i 0 * bpsk enc i < 0) = 0 := Finset.sum_eq_zero fun i hi => if_neg (by
    have := hs i (Finset.mem_range.mp hi); rw [mul_comm] at this; simp only; omega)
  have e2 : (count N fun i => noisy.getD i 0 = 0) = 0 := Finset.sum_eq_zero fun i hi => if_neg (fun e => by
    have := hs i (Finset.mem_range.mp hi); rw [e, mul_zero] at this; omega)
  rw [e1, e2]

/-- A trial of a short BCH code counts fewer than `d` wrong bits only if it counts none. -/
def SoftGap (F : Rounding) (N K T G d : Nat) : Prop :=
  ∀ (epar derr dpar : List Nat) (code : List Int) (symb : List Fl) (f : ℚ) (noise : Nat → ℚ) (dat : Nat), epar.length = 2 ^ K → derr.length = 2 ^ (N - K) → dpar.length = 2 ^ K →
    code.length = N → symb.length = N → 0 < f → dat < 2 ^ K →
    ∃ r, softTrial F N K G T epar derr dpar code symb (.fin f) (fun i => .fin (noise i)) dat = some r ∧ (r.uncorrected = 0 ∨ d ≤ r.uncorrected)

theorem softGap {N K G T d : Nat} (h : Params N K G) (hT : 1 ≤ T) (hd : MinDist N G d) (hdN : d ≤ N) : SoftGap F N K T G d := by
  intro epar derr dpar code symb f noise dat he hde hdp hc hy hf hdat
  obtain ⟨enc, noisy, r, -, -, -, h1, h2, h3⟩ := C73_soft (F := F) (noise := noise) h hT hd he hde hdp hc hy hdat hf
  refine ⟨r, h1, ?_⟩
  rcases h3 with h3 | h3 | h3
  · exact Or.inl h3
  · exact Or.inr h3
  · rcases h2.result with ⟨a, -⟩ | ⟨c, -, -, b⟩
    · right; omega
    · omega

/-- **C73** The four codes of the test: wrong bits come in groups of at least 7. -/
theorem C73_soft_tests (F : Rounding) : SoftGap F 23 12 3 0b101011100011 7 ∧ SoftGap F 23 12 3 0b110001110101 7 ∧ SoftGap F 15 5 3 0b10100110111 7 ∧ SoftGap F 31 16 3 0b1000111110101111 7 :=
  ⟨softGap ShortBCH.params_golay (by norm_num) ShortBCH.C31_golay_minDist (by norm_num), softGap ShortBCH.params_golay2 (by norm_num) ShortBCH.C31_golay2_minDist (by norm_num),
    softGap ShortBCH.params_nasa (by norm_num) ShortBCH.C31_nasa_minDist (by norm_num), softGap ShortBCH.params_bch31 (by norm_num) ShortBCH.C31_bch31_minDist (by norm_num)⟩

/-- A trial of the third code in single precision at factor 4: noise of up to 3/4 in any direction does no harm. -/
example (noise : Nat → ℚ) (hn : ∀ i, |noise i| ≤ 3 / 4) : softTrial Polar.binary32 15 5 0b10100110111 3 (List.replicate 32 9) (List.replicate 1024 9) (List.replicate 32 9)
    (List.replicate 15 9) (List.replicate 15 .nan) (.fin 4) (fun i => .fin (noise i)) 21 = some ⟨0, 0, 0, 0⟩ :=
  C73_soft_weak ShortBCH.params_nasa (by norm_num) (by norm_num) (fun c c' h1 h2 h3 => le_trans (by norm_num) (ShortBCH.C31_nasa_minDist c c' h1 h2 h3)) (List.length_replicate ..)
    (List.length_replicate ..) (List.length_replicate ..) (List.length_replicate ..) (List.length_replicate ..) (by norm_num) (by norm_num) (fun enc _ _ i _ =>
      ⟨1 / 4, ⟨1, -2, by norm_num, by norm_num, by norm_num⟩, by norm_num, by
        have := abs_le.mp (hn i)
        rcases bpsk_pm enc i with e | e <;> rw [e] <;> push_cast <;> linarith⟩)

end Verif.Trials
