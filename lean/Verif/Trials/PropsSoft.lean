import Verif.Trials.PropsChannel
import Verif.Hadamard.Props
import Verif.ShortBCH.PropsBound
/- C73, the trials of the tests of the Hadamard, simplex and short BCH codes with soft values. -/
namespace Verif.Trials
open Verif.RS (sb)
open Verif.Polar (Fl Rounding)
open Verif.Hadamard (count StrictMax hadWord simWord)
open Verif.ShortBCH (weight dist dist_eq Params MinDist Codeword)
open Finset (range)

/-! ### `popcnt` -/

theorem weight_succ (N x : Nat) : weight (N + 1) x = weight N (x / 2) + x % 2 := by
  unfold weight
  rw [Finset.card_filter, Finset.card_filter, Finset.sum_range_succ']
  congr 1
  · apply Finset.sum_congr rfl
    intro i _
    rw [Nat.testBit_succ]
  · rw [Nat.testBit_zero]
    rcases Nat.mod_two_eq_zero_or_one x with h | h <;> simp [h]

theorem weight_clear : ∀ (N x : Nat), 0 < x → x < 2 ^ N → weight N (x &&& (x - 1)) + 1 = weight N x := by
  intro N
  induction N with
  | zero => intro x h1 h2; omega
  | succ N ih =>
    intro x h1 h2
    rw [weight_succ, weight_succ, Nat.and_div_two]
    rcases Nat.mod_two_eq_zero_or_one x with h | h
    · have e : (x - 1) / 2 = x / 2 - 1 := by omega
      have hm : (x &&& (x - 1)) % 2 = 0 := by rw [Nat.and_mod_two_pow (n := 1) (a := x) (b := x - 1), pow_one, h, Nat.zero_and]
      rw [e, hm, h, ← ih (x / 2) (by omega) (by rw [pow_succ] at h2; omega)]
    · have e : (x - 1) / 2 = x / 2 := by omega
      have hm : (x &&& (x - 1)) % 2 = 0 := by rw [Nat.and_mod_two_pow (n := 1) (a := x) (b := x - 1), pow_one, show (x - 1) % 2 = 0 by omega, Nat.and_zero]
      rw [e, hm, h, Nat.and_self]

theorem weight_zero (N : Nat) : weight N 0 = 0 := by unfold weight; simp

theorem weight_le (N x : Nat) : weight N x ≤ N := by
  unfold weight
  exact le_trans (Finset.card_filter_le _ _) (by rw [Finset.card_range])

theorem popcnt_eq (N : Nat) : ∀ (f x cnt : Nat), x < 2 ^ N → weight N x < f → popcnt f x cnt = some (cnt + weight N x) := by
  intro f
  induction f with
  | zero => intro x cnt _ h; omega
  | succ f ih =>
    intro x cnt h1 h2
    unfold popcnt
    split
    · rename_i h
      rw [h, weight_zero, Nat.add_zero]
    · rename_i h
      have hc := weight_clear N x (by omega) h1
      rw [ih _ _ (lt_of_le_of_lt Nat.and_le_left h1) (by omega)]
      congr 1
      omega

/-! ### Counting -/

theorem rd_getD {α : Type} {l : List α} {i : Nat} {d : α} (h : i < l.length) : rd l i = some (l.getD i d) := by
  unfold rd
  rw [List.getD_eq_getElem?_getD, List.getElem?_eq_getElem h, Option.getD_some]

theorem forUp_count {N : Nat} {p : Nat → Prop} [DecidablePred p] {f : Nat → Nat → Option Nat} (hf : ∀ i cnt, i < N → f i cnt = some (cnt + if p i then 1 else 0)) :
    forUp 0 N 0 f = some (count N p) := by
  obtain ⟨r, hr, h1⟩ := forUp_inv (f := f) (fun k c => c = count k p) (Nat.zero_le N) (s := 0) (by simp [count]) (by
    rintro k c - hk rfl
    refine ⟨_, hf k _ hk, ?_⟩
    unfold count
    rw [Finset.sum_range_succ])
  rw [hr, h1]

theorem wrongSigns_eq {N : Nat} {noisy orig : List Int} (h1 : noisy.length = N) (h2 : orig.length = N) :
    wrongSigns N noisy orig = some (count N fun i => noisy.getD i 0 * orig.getD i 0 < 0) := by
  apply forUp_count
  intro i cnt hi
  rw [rd_getD (d := 0) (by omega), sb, rd_getD (d := 0) (by omega), sb]
  rfl

theorem erased_eq {N : Nat} {noisy : List Int} (h1 : noisy.length = N) : erased N noisy = some (count N fun i => noisy.getD i 0 = 0) := by
  apply forUp_count
  intro i cnt hi
  rw [rd_getD (d := 0) (by omega), sb]
  rfl

theorem score_eq {N bits W want : Nat} {decode : List Int → Option Int} {orig code : List Int} {dec : Int} (hd : decode code = some dec) (h1 : code.length = N) (h2 : orig.length = N)
    (hW : W ≤ 32) (hw : want < 2 ^ W) (hdec : dec < 2 ^ W) :
    score N bits decode want orig code = some ⟨count N fun i => code.getD i 0 * orig.getD i 0 < 0, count N fun i => code.getD i 0 = 0,
      if dec < 0 then bits else dist W want dec.toNat, if dec < 0 then 1 else 0⟩ := by
  unfold score
  rw [hd, sb, wrongSigns_eq h1 h2, sb, erased_eq h1, sb]
  by_cases hn : dec < 0
  · simp only [if_pos hn]
    rfl
  · have hlt : dec.toNat < 2 ^ W := by
      have : ((2 ^ W : Nat) : Int) = 2 ^ W := by push_cast; rfl
      omega
    simp only [if_neg hn]
    rw [popcnt_eq W 33 _ 0 (Nat.xor_lt_two_pow hw hlt) (by have := weight_le W (want ^^^ dec.toNat); omega), sb, Nat.zero_add, dist_eq]
    rfl

/-! ### Maximum likelihood decoders -/

/-- What a trial with a maximum likelihood decoder counts.  `word m` is the codeword of message `m` (`N` symbols), `noisy` are the received soft values. -/
structure MlCounts (N K : Nat) (word : Nat → Nat → Int) (dat : Nat) (noisy : List Int) (r : Counts) : Prop where
  /-- wrong signs among the received values -/
  awgn : r.awgn = count N fun i => noisy.getD i 0 * word dat i < 0
  erasures : r.erasures = count N fun i => noisy.getD i 0 = 0
  /-- if one message fits better than all others, its bits are compared with the sent ones -/
  decided : ∀ m, StrictMax (2 ^ K) (fun m => Hadamard.corr N (word m) noisy) m → r.uncorrected = dist K dat m ∧ r.ambiguity = 0
  /-- otherwise all bits count as wrong -/
  undecided : (¬ ∃ m, StrictMax (2 ^ K) (fun m => Hadamard.corr N (word m) noisy) m) → r.uncorrected = K ∧ r.ambiguity = 1

theorem ml_score {N K dat : Nat} {word : Nat → Nat → Int} {decode : List Int → Option Int} {orig noisy : List Int} (hK : K ≤ 32) (hdat : dat < 2 ^ K) (h1 : noisy.length = N)
    (ho : orig = (List.range N).map (word dat))
    (hd : ∃ r, decode noisy = some r ∧ (∀ m : Nat, r = m ↔ StrictMax (2 ^ K) (fun m => Hadamard.corr N (word m) noisy) m) ∧
      (r = -1 ↔ ¬ ∃ m, StrictMax (2 ^ K) (fun m => Hadamard.corr N (word m) noisy) m)) :
    ∃ r, score N K decode dat orig noisy = some r ∧ MlCounts N K word dat noisy r := by
  obtain ⟨dec, hd1, hd2, hd3⟩ := hd
  have hlt : dec < 2 ^ K := by
    by_cases h : ∃ m, StrictMax (2 ^ K) (fun m => Hadamard.corr N (word m) noisy) m
    · obtain ⟨m, hm⟩ := h
      rw [(hd2 m).mpr hm]
      exact_mod_cast hm.1
    · rw [hd3.mpr h]
      exact lt_of_lt_of_le (by norm_num) (pow_nonneg (by norm_num) K)
  refine ⟨_, score_eq hd1 h1 (by rw [ho]; simp) hK hdat hlt, ?_, rfl, ?_, ?_⟩
  · show count N _ = count N _
    unfold count
    apply Finset.sum_congr rfl
    intro i hi
    simp only [ho]
    rw [List.getD_eq_getElem?_getD (l := List.map _ _), List.getElem?_map, List.getElem?_range (Finset.mem_range.mp hi)]
    rfl
  · intro m hm
    rw [(hd2 m).mpr hm]
    have : ¬ (m : Int) < 0 := by omega
    simp only [Int.toNat_natCast, if_neg this, and_self]
  · intro h
    rw [hd3.mpr h]
    exact ⟨rfl, rfl⟩

theorem dist_eq_zero {K a b : Nat} (ha : a < 2 ^ K) (hb : b < 2 ^ K) : dist K a b = 0 ↔ a = b := by
  rw [dist_eq]
  constructor
  · intro h
    by_contra hne
    have h0 : 0 < a ^^^ b := by
      rcases Nat.eq_zero_or_pos (a ^^^ b) with h | h
      · exact absurd (Nat.xor_eq_zero_iff.mp h) hne
      · exact h
    have := weight_clear K _ h0 (Nat.xor_lt_two_pow ha hb)
    omega
  · rintro rfl
    rw [Nat.xor_self, weight_zero]

theorem corr_diff {N : Nat} {u v : Nat → Int} {noisy : List Int} (hu : ∀ i, u i = 1 ∨ u i = -1) (hv : ∀ i, v i = 1 ∨ v i = -1) :
    Hadamard.corr N u noisy - Hadamard.corr N v noisy = 2 * ((range N).filter fun i => v i ≠ u i).sum fun i => u i * noisy.getD i 0 := by
  unfold Hadamard.corr
  rw [← Finset.sum_sub_distrib, Finset.sum_filter, Finset.mul_sum]
  apply Finset.sum_congr rfl
  intro i _
  rcases hu i with a | a <;> rcases hv i with b | b <;> rw [a, b] <;> simp <;> ring

/-- A trial with a maximum likelihood decoder counts no wrong bit exactly if against every other message the received values, where the codewords differ, speak for the sent one. -/
theorem MlCounts.clean {N K dat : Nat} {word : Nat → Nat → Int} {noisy : List Int} {r : Counts} (h : MlCounts N K word dat noisy r) (hK : 1 ≤ K) (hdat : dat < 2 ^ K)
    (hw : ∀ m i, word m i = 1 ∨ word m i = -1) :
    r.uncorrected = 0 ↔ ∀ m, m < 2 ^ K → m ≠ dat → 0 < ((range N).filter fun i => word m i ≠ word dat i).sum fun i => word dat i * noisy.getD i 0 := by
  have key : (∀ m, m < 2 ^ K → m ≠ dat → 0 < ((range N).filter fun i => word m i ≠ word dat i).sum fun i => word dat i * noisy.getD i 0) ↔
      StrictMax (2 ^ K) (fun m => Hadamard.corr N (word m) noisy) dat := by
    constructor
    · intro h
      refine ⟨hdat, fun m hm hne => ?_⟩
      have := h m hm hne
      have e := corr_diff (N := N) (noisy := noisy) (hw dat) (hw m)
      simp only
      omega
    · intro h m hm hne
      have := h.2 m hm hne
      have e := corr_diff (N := N) (noisy := noisy) (hw dat) (hw m)
      simp only at this
      omega
  rw [key]
  constructor
  · intro h0
    by_contra hno
    by_cases hex : ∃ m, StrictMax (2 ^ K) (fun m => Hadamard.corr N (word m) noisy) m
    · obtain ⟨m, hm⟩ := hex
      have := (h.decided m hm).1
      rw [h0, eq_comm, dist_eq_zero hdat hm.1] at this
      exact hno (this ▸ hm)
    · have := (h.undecided hex).1
      omega
  · intro hs
    rw [(h.decided dat hs).1, dist_eq_zero hdat hdat]

theorem MlCounts.quiet {N K dat : Nat} {word : Nat → Nat → Int} {noisy : List Int} {r : Counts} (h : MlCounts N K word dat noisy r) (hK : 1 ≤ K) (hdat : dat < 2 ^ K)
    (hw : ∀ m i, word m i = 1 ∨ word m i = -1) (hne : ∀ m, m < 2 ^ K → m ≠ dat → ∃ i, i < N ∧ word m i ≠ word dat i) (hn : ∀ i, i < N → 0 < word dat i * noisy.getD i 0) :
    r = ⟨0, 0, 0, 0⟩ := by
  have hc : r.uncorrected = 0 := by
    rw [h.clean hK hdat hw]
    intro m hm hmd
    obtain ⟨i, hi, hd⟩ := hne m hm hmd
    exact Finset.sum_pos (fun i hi => hn i (Finset.mem_range.mp (Finset.mem_filter.mp hi).1)) ⟨i, Finset.mem_filter.mpr ⟨Finset.mem_range.mpr hi, hd⟩⟩
  have h1 : r.awgn = 0 := by
    rw [h.awgn]
    exact Finset.sum_eq_zero fun i hi => if_neg (by have := hn i (Finset.mem_range.mp hi); rw [mul_comm] at this; simp only; omega)
  have h2 : r.erasures = 0 := by
    rw [h.erasures]
    exact Finset.sum_eq_zero fun i hi => if_neg (fun e => by have := hn i (Finset.mem_range.mp hi); rw [e, mul_zero] at this; omega)
  have h3 : r.ambiguity = 0 := by
    by_cases hex : ∃ m, StrictMax (2 ^ K) (fun m => Hadamard.corr N (word m) noisy) m
    · obtain ⟨m, hm⟩ := hex
      exact (h.decided m hm).2
    · have := (h.undecided hex).1
      omega
  cases r
  simp only at hc h1 h2 h3
  subst hc h1 h2 h3
  rfl

variable {F : Rounding}

/-- The received soft values of a codeword. -/
structure Received (F : Rounding) (N : Nat) (f : ℚ) (noise : Nat → ℚ) (word : Nat → Int) (noisy : List Int) : Prop where
  length : noisy.length = N
  value : ∀ i, i < N → Quantised (llr F (.fin f) (.fin (noise i)) (word i)) (noisy.getD i 0)

theorem channel_word {N : Nat} {f : ℚ} {noise : Nat → ℚ} {word : Nat → Int} {out : List Int} {symb : List Fl} (hf : f ≠ 0) (ho : out.length = N) (hy : symb.length = N) :
    ∃ noisy, channel F N (.fin f) (fun i => .fin (noise i)) ((List.range N).map word) out symb = some noisy ∧ Received F N f noise word noisy ∧
      ∀ x ∈ noisy, -128 ≤ x ∧ x ≤ 127 := by
  obtain ⟨noisy, h1, h2, h3⟩ := C73_channel (F := F) (noise := noise) (sent := (List.range N).map word) (out := out) (symb := symb) hf (by simp) ho hy
  refine ⟨noisy, h1, ⟨h2, fun i hi => ?_⟩, fun x hx => ?_⟩
  · have := (h3 i hi).1
    rwa [List.getD_eq_getElem?_getD (l := List.map _ _), List.getElem?_map, List.getElem?_range hi] at this
  · obtain ⟨i, hi, rfl⟩ := List.mem_iff_getElem.mp hx
    have := (h3 i (by omega)).2
    rw [List.getD_eq_getElem?_getD, List.getElem?_eq_getElem hi, Option.getD_some] at this
    omega

theorem hadWord_pm (K m i : Nat) : hadWord K m i = 1 ∨ hadWord K m i = -1 := neg_one_pow_eq_or Int _
theorem simWord_pm (K m i : Nat) : simWord K m i = 1 ∨ simWord K m i = -1 := neg_one_pow_eq_or Int _

/-- **C73** (Hadamard code): for every message, positive factor and finite noise a trial is defined; it counts the wrong signs and erasures among the received values and the wrong bits
of the most likely message - all `K` bits if there is no single most likely one. -/
theorem C73_hadamard {K dat : Nat} {f : ℚ} {noise : Nat → ℚ} {mod code sum : List Int} {symb : List Fl} (hK : 2 ≤ K) (hK' : K ≤ 24) (hm : mod.length = 2 ^ K)
    (hc : code.length = 2 ^ (K - 1)) (hs : sum.length = 2 ^ (K - 1)) (hy : symb.length = 2 ^ (K - 1)) (hdat : dat < 2 ^ K) (hf : 0 < f) :
    ∃ noisy r, Received F (2 ^ (K - 1)) f noise (hadWord K dat) noisy ∧ hadTrial F K mod code sum symb (.fin f) (fun i => .fin (noise i)) dat = some r ∧
      MlCounts (2 ^ (K - 1)) K (hadWord K) dat noisy r := by
  have henc := Hadamard.C33_encoder (mod := mod) (code := code) (by omega) (by omega) hm hc hdat
  obtain ⟨mod', hmod, henc⟩ := bind_some henc
  obtain ⟨noisy, h1, h2, h3⟩ := channel_word (F := F) (noise := noise) (word := hadWord K dat) (out := (List.range (2 ^ (K - 1))).map (hadWord K dat)) (symb := symb) hf.ne' (by simp) hy
  obtain ⟨r, hr, hml⟩ := ml_score (by omega) hdat h2.length rfl (Hadamard.C33_maximum_likelihood (sum := sum) hK hK' hs h2.length h3)
  refine ⟨noisy, r, h2, ?_, hml⟩
  unfold hadTrial
  rw [hmod, sb, henc, sb, h1, sb]
  exact hr

/-- **C73** (simplex code). -/
theorem C73_simplex {K dat : Nat} {f : ℚ} {noise : Nat → ℚ} {mod code sum : List Int} {symb : List Fl} (hK : 1 ≤ K) (hK' : K ≤ 23) (hm : mod.length = 2 ^ K)
    (hc : code.length = 2 ^ K - 1) (hs : sum.length = 2 ^ K) (hy : symb.length = 2 ^ K - 1) (hdat : dat < 2 ^ K) (hf : 0 < f) :
    ∃ noisy r, Received F (2 ^ K - 1) f noise (simWord K dat) noisy ∧ simTrial F K mod code sum symb (.fin f) (fun i => .fin (noise i)) dat = some r ∧
      MlCounts (2 ^ K - 1) K (simWord K) dat noisy r := by
  have henc := Hadamard.C34_encoder (mod := mod) (code := code) (by omega) hm hc hdat
  obtain ⟨mod', hmod, henc⟩ := bind_some henc
  obtain ⟨noisy, h1, h2, h3⟩ := channel_word (F := F) (noise := noise) (word := simWord K dat) (out := (List.range (2 ^ K - 1)).map (simWord K dat)) (symb := symb) hf.ne' (by simp) hy
  obtain ⟨r, hr, hml⟩ := ml_score (by omega) hdat h2.length rfl (Hadamard.C34_maximum_likelihood (sum := sum) hK hK' hs h2.length h3)
  refine ⟨noisy, r, h2, ?_, hml⟩
  unfold simTrial
  rw [hmod, sb, henc, sb, h1, sb]
  exact hr

/-- Codewords that can be told apart on a clean channel are different. -/
theorem differ_of_strict {N K dat : Nat} {word : Nat → Nat → Int} (h : StrictMax (2 ^ K) (fun m => Hadamard.corr N (word m) ((List.range N).map (word dat))) dat) :
    ∀ m, m < 2 ^ K → m ≠ dat → ∃ i, i < N ∧ word m i ≠ word dat i := by
  intro m hm hne
  by_contra hno
  have := h.2 m hm hne
  refine absurd this (not_lt.mpr (le_of_eq ?_))
  unfold Hadamard.corr
  apply Finset.sum_congr rfl
  intro i hi
  by_contra h2
  exact hno ⟨i, Finset.mem_range.mp hi, fun e => h2 (by rw [e])⟩

theorem getD_words {N i : Nat} {w : Nat → Int} (h : i < N) : ((List.range N).map w).getD i 0 = w i := by
  rw [List.getD_eq_getElem?_getD, List.getElem?_map, List.getElem?_range h]; rfl

theorem hadWord_differ {K dat : Nat} (hK : 2 ≤ K) (hK' : K ≤ 24) (hdat : dat < 2 ^ K) : ∀ m, m < 2 ^ K → m ≠ dat → ∃ i, i < 2 ^ (K - 1) ∧ hadWord K m i ≠ hadWord K dat i := by
  apply differ_of_strict
  obtain ⟨r, h1, h2, -⟩ := Hadamard.C33_maximum_likelihood (sum := List.replicate (2 ^ (K - 1)) 0) (code := (List.range (2 ^ (K - 1))).map (hadWord K dat)) hK hK' (by simp) (by simp) (by
    intro x hx
    obtain ⟨i, -, rfl⟩ := List.mem_map.mp hx
    rcases hadWord_pm K dat i with e | e <;> rw [e] <;> norm_num)
  have hw : ∀ i, i < 2 ^ (K - 1) → ((List.range (2 ^ (K - 1))).map (hadWord K dat)).getD i 0 = 1 * hadWord K dat i := fun i hi => by rw [getD_words hi, one_mul]
  have h3 := Hadamard.C33_corrects_errors (sum := List.replicate (2 ^ (K - 1)) 0) (code := (List.range (2 ^ (K - 1))).map (hadWord K dat)) (A := 1) hK hK' (by simp) (by simp) hdat
    (by norm_num) (by norm_num) (fun i hi => Or.inl (hw i hi)) (by
      have e1 : count (2 ^ (K - 1)) (fun i => ((List.range (2 ^ (K - 1))).map (hadWord K dat)).getD i 0 = -(1 * hadWord K dat i)) = 0 :=
        Finset.sum_eq_zero fun i hi => if_neg (by
          simp only [getD_words (Finset.mem_range.mp hi)]
          rcases hadWord_pm K dat i with e | e <;> rw [e] <;> norm_num)
      have e2 : count (2 ^ (K - 1)) (fun i => ((List.range (2 ^ (K - 1))).map (hadWord K dat)).getD i 0 = 0) = 0 :=
        Finset.sum_eq_zero fun i hi => if_neg (by
          simp only [getD_words (Finset.mem_range.mp hi)]
          rcases hadWord_pm K dat i with e | e <;> rw [e] <;> norm_num)
      rw [e1, e2]
      exact Nat.pow_pos (by norm_num))
  rw [h1] at h3
  exact (h2 dat).mp (Option.some.inj h3)

theorem simWord_differ {K dat : Nat} (hK : 1 ≤ K) (hK' : K ≤ 23) (hdat : dat < 2 ^ K) : ∀ m, m < 2 ^ K → m ≠ dat → ∃ i, i < 2 ^ K - 1 ∧ simWord K m i ≠ simWord K dat i := by
  apply differ_of_strict
  obtain ⟨r, h1, h2, -⟩ := Hadamard.C34_maximum_likelihood (sum := List.replicate (2 ^ K) 0) (code := (List.range (2 ^ K - 1)).map (simWord K dat)) hK hK' (by simp) (by simp) (by
    intro x hx
    obtain ⟨i, -, rfl⟩ := List.mem_map.mp hx
    rcases simWord_pm K dat i with e | e <;> rw [e] <;> norm_num)
  have hw : ∀ i, i < 2 ^ K - 1 → ((List.range (2 ^ K - 1)).map (simWord K dat)).getD i 0 = 1 * simWord K dat i := fun i hi => by rw [getD_words hi, one_mul]
  have h3 := Hadamard.C34_corrects_errors (sum := List.replicate (2 ^ K) 0) (code := (List.range (2 ^ K - 1)).map (simWord K dat)) (A := 1) hK hK' (by simp) (by simp) hdat
    (by norm_num) (by norm_num) (fun i hi => Or.inl (hw i hi)) (by
      have e1 : count (2 ^ K - 1) (fun i => ((List.range (2 ^ K - 1)).map (simWord K dat)).getD i 0 = -(1 * simWord K dat i)) = 0 :=
        Finset.sum_eq_zero fun i hi => if_neg (by
          simp only [getD_words (Finset.mem_range.mp hi)]
          rcases simWord_pm K dat i with e | e <;> rw [e] <;> norm_num)
      have e2 : count (2 ^ K - 1) (fun i => ((List.range (2 ^ K - 1)).map (simWord K dat)).getD i 0 = 0) = 0 :=
        Finset.sum_eq_zero fun i hi => if_neg (by
          simp only [getD_words (Finset.mem_range.mp hi)]
          rcases simWord_pm K dat i with e | e <;> rw [e] <;> norm_num)
      rw [e1, e2]
      exact Nat.pow_pos (by norm_num))
  rw [h1] at h3
  exact (h2 dat).mp (Option.some.inj h3)

/-- **C73** (Hadamard code): a trial counts no wrong bit exactly if, against every other message, the received values at the positions where the codewords differ sum up in favour of the
sent one. -/
theorem C73_hadamard_clean {K dat : Nat} {noisy : List Int} {r : Counts} (hK : 1 ≤ K) (hdat : dat < 2 ^ K) (h : MlCounts (2 ^ (K - 1)) K (hadWord K) dat noisy r) :
    r.uncorrected = 0 ↔ ∀ m, m < 2 ^ K → m ≠ dat → 0 < ((range (2 ^ (K - 1))).filter fun i => hadWord K m i ≠ hadWord K dat i).sum fun i => hadWord K dat i * noisy.getD i 0 :=
  h.clean hK hdat (hadWord_pm K)

/-- **C73** (simplex code). -/
theorem C73_simplex_clean {K dat : Nat} {noisy : List Int} {r : Counts} (hK : 1 ≤ K) (hdat : dat < 2 ^ K) (h : MlCounts (2 ^ K - 1) K (simWord K) dat noisy r) :
    r.uncorrected = 0 ↔ ∀ m, m < 2 ^ K → m ≠ dat → 0 < ((range (2 ^ K - 1)).filter fun i => simWord K m i ≠ simWord K dat i).sum fun i => simWord K dat i * noisy.getD i 0 :=
  h.clean hK hdat (simWord_pm K)

/-- **C73** (Hadamard code): with weak noise nothing is counted. -/
theorem C73_hadamard_weak {K dat : Nat} {f : ℚ} {noise : Nat → ℚ} {mod code sum : List Int} {symb : List Fl} (hK : 2 ≤ K) (hK' : K ≤ 24) (hm : mod.length = 2 ^ K)
    (hc : code.length = 2 ^ (K - 1)) (hs : sum.length = 2 ^ (K - 1)) (hy : symb.length = 2 ^ (K - 1)) (hdat : dat < 2 ^ K) (hf : 0 < f)
    (hw : ∀ i, i < 2 ^ (K - 1) → Weak F f (hadWord K dat i) (noise i)) :
    hadTrial F K mod code sum symb (.fin f) (fun i => .fin (noise i)) dat = some ⟨0, 0, 0, 0⟩ := by
  obtain ⟨noisy, r, h1, h2, h3⟩ := C73_hadamard (F := F) (noise := noise) hK hK' hm hc hs hy hdat hf
  rw [h2, h3.quiet (by omega) hdat (hadWord_pm K) (hadWord_differ hK hK' hdat) (fun i hi => C73_channel_weak hf (hadWord_pm K dat i) (hw i hi) (h1.value i hi))]

/-- **C73** (simplex code): with weak noise nothing is counted. -/
theorem C73_simplex_weak {K dat : Nat} {f : ℚ} {noise : Nat → ℚ} {mod code sum : List Int} {symb : List Fl} (hK : 1 ≤ K) (hK' : K ≤ 23) (hm : mod.length = 2 ^ K)
    (hc : code.length = 2 ^ K - 1) (hs : sum.length = 2 ^ K) (hy : symb.length = 2 ^ K - 1) (hdat : dat < 2 ^ K) (hf : 0 < f)
    (hw : ∀ i, i < 2 ^ K - 1 → Weak F f (simWord K dat i) (noise i)) :
    simTrial F K mod code sum symb (.fin f) (fun i => .fin (noise i)) dat = some ⟨0, 0, 0, 0⟩ := by
  obtain ⟨noisy, r, h1, h2, h3⟩ := C73_simplex (F := F) (noise := noise) hK hK' hm hc hs hy hdat hf
  rw [h2, h3.quiet (by omega) hdat (simWord_pm K) (simWord_differ hK hK' hdat) (fun i hi => C73_channel_weak hf (simWord_pm K dat i) (hw i hi) (h1.value i hi))]

/-- Arithmetic without rounding, for examples that can be evaluated. -/
def unrounded : Rounding where
  rep _ := True
  rnd q := q
  huge := 2 ^ 128
  zero := trivial
  one := trivial
  neg _ _ := trivial
  twice _ _ := trivial
  out _ := trivial
  exact _ _ := rfl
  mono _ _ h := h
  one_lt := by norm_num

/-- Trials of the test as it is (`K = 4`), run: one symbol turned and one erased are corrected; with two turned the decoder is undecided; and with three turned it takes a wrong message. -/
example : hadTrial unrounded 4 (List.replicate 16 9) (List.replicate 8 9) (List.replicate 8 9) (List.replicate 8 .nan) (.fin 4)
      (fun i => .fin (-(if i = 2 then 1 else if i = 5 then 3 / 2 else 1 / 8) * hadWord 4 11 i)) 11 = some ⟨1, 1, 0, 0⟩ ∧
    hadTrial unrounded 4 (List.replicate 16 9) (List.replicate 8 9) (List.replicate 8 9) (List.replicate 8 .nan) (.fin 4)
      (fun i => .fin (-(if i = 2 ∨ i = 5 then 2 else 0) * hadWord 4 11 i)) 11 = some ⟨2, 0, 4, 1⟩ ∧
    hadTrial unrounded 4 (List.replicate 16 9) (List.replicate 8 9) (List.replicate 8 9) (List.replicate 8 .nan) (.fin 4)
      (fun i => .fin (-(if i = 2 ∨ i = 5 ∨ i = 6 then 2 else 0) * hadWord 4 11 i)) 11 = some ⟨3, 0, 2, 0⟩ := by
  decide +kernel

end Verif.Trials
