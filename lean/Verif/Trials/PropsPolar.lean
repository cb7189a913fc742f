import Verif.Trials.Polar
import Verif.Trials.PropsSoft
import Verif.GF.Proof
import Verif.CrcPolar.Proof
import Verif.Polar.PropsScVal
import Verif.Polar.PropsSysIff
import Verif.Polar.PropsMl
/- C74, the trials of tests/polar_regression_test.cc. -/
namespace Verif.Trials
open Verif.RS (sb)
open Verif.Polar (Fl Rounding ph8 Frozen freeBelow symbolAt polar Closed Balanced Call Sym getBit getBit_eq fbit rank_eq free_lt freeBelow_succ Writes)
open Verif.Hadamard (count)
open Finset (range)

variable {F : Rounding}

/-! ### The loops -/

theorem copyTo_eq {N : Nat} {a b : List Int} (ha : a.length = N) (hb : b.length = N) : copyTo N a b = some b := by
  unfold copyTo
  rw [forUp_write (v := fun i => b.getD i 0) ha (by
    intro i o hi ho _
    rw [rd_getD (d := 0) (by omega), sb, wr_of_lt (by omega)])]
  congr 1
  refine List.ext_getElem (by simp [hb]) fun i h1 h2 => ?_
  simp [List.getD_eq_getElem?_getD, List.getElem?_eq_getElem h2]

theorem negSum_eq {N : Nat} {noisy orig : List Int} (h1 : noisy.length = N) (h2 : orig.length = N) :
    negSum N noisy orig = some (∑ i ∈ range N, if orig.getD i 0 < 0 then noisy.getD i 0 else 0) := by
  obtain ⟨r, hr, h⟩ := forUp_inv (f := fun i (s : Int) => do
    let a ← rd noisy i
    let b ← rd orig i
    return s + a * if b < 0 then 1 else 0) (fun k s => s = ∑ i ∈ range k, if orig.getD i 0 < 0 then noisy.getD i 0 else 0) (Nat.zero_le N) (s := 0) (by simp) (by
      rintro k s - hk rfl
      rw [rd_getD (d := 0) (by omega), sb, rd_getD (d := 0) (by omega), sb]
      refine ⟨_, rfl, ?_⟩
      rw [Finset.sum_range_succ]
      split <;> simp)
  subst h
  exact hr

theorem wrongOrZero_eq {K : Nat} {decoded message : List Int} (h1 : decoded.length = K) (h2 : message.length = K) :
    wrongOrZero K decoded message = some (count K fun j => decoded.getD j 0 * message.getD j 0 ≤ 0) := by
  apply forUp_count
  intro i cnt hi
  rw [rd_getD (d := 0) (by omega), sb, rd_getD (d := 0) (by omega), sb]
  rfl

theorem fbit_frozen (frozen : List Nat) (i : Nat) : fbit frozen i = decide (Frozen frozen i) := by
  by_cases h : Frozen frozen i
  · rw [decide_eq_true h]; exact h
  · rw [decide_eq_false h]
    exact Bool.eq_false_iff.2 h

theorem sysCheck_step {N i j : Nat} {codeword message : List Int} {frozen : List Nat} (hi : i < N) (hf : N ≤ 32 * frozen.length) (hc : codeword.length = N) (hj : ¬ Frozen frozen i → j < message.length) :
    (do let b ← getBit frozen i
        if b then return j
        else
          let c ← rd codeword i
          let m ← rd message j
          assertUB (c = m)
          return j + 1 : Option Nat) =
      if Frozen frozen i then some j else if codeword.getD i 0 = message.getD j 0 then some (j + 1) else none := by
  rw [getBit_eq (by omega), sb, fbit_frozen]
  by_cases h : Frozen frozen i
  · rw [if_pos h, decide_eq_true h]; rfl
  · rw [if_neg h, decide_eq_false h]
    simp only [Bool.false_eq_true, if_false]
    rw [rd_getD (d := 0) (by omega), sb, rd_getD (d := 0) (hj h), sb]
    unfold assertUB
    split
    · rfl
    · rfl

/-- The assertions of the systematic encoder's test hold exactly if the message is at the positions that are not frozen. -/
theorem sysCheck_iff {N : Nat} {codeword message : List Int} {frozen : List Nat} (hf : N ≤ 32 * frozen.length) (hc : codeword.length = N) (hm : freeBelow frozen N ≤ message.length) :
    sysCheck N codeword message frozen ≠ none ↔ ∀ i, i < N → ¬ Frozen frozen i → codeword.getD i 0 = message.getD (freeBelow frozen i) 0 := by
  constructor
  · intro h
    obtain ⟨r, hr⟩ := Option.ne_none_iff_exists'.1 h
    have := GF.forUp_some_inv (fun n j => j = freeBelow frozen n ∧ ∀ i, i < n → ¬ Frozen frozen i → codeword.getD i 0 = message.getD (freeBelow frozen i) 0) (Nat.zero_le N)
      ⟨by simp [freeBelow], fun i hi => absurd hi (by omega)⟩ hr (by
        rintro k j j' - hk ⟨rfl, g⟩ he
        rw [sysCheck_step hk hf hc (fun h => by have := free_lt hk h; omega)] at he
        by_cases hfr : Frozen frozen k
        · rw [if_pos hfr] at he
          cases he
          refine ⟨by rw [freeBelow_succ, if_pos hfr]; rfl, fun i hi hn => ?_⟩
          rcases Nat.lt_succ_iff_lt_or_eq.mp hi with hi | rfl
          · exact g i hi hn
          · exact absurd hfr hn
        · rw [if_neg hfr] at he
          split at he
          · rename_i heq
            cases he
            refine ⟨by rw [freeBelow_succ, if_neg hfr], fun i hi hn => ?_⟩
            rcases Nat.lt_succ_iff_lt_or_eq.mp hi with hi | rfl
            · exact g i hi hn
            · exact heq
          · cases he)
    exact this.2
  · intro h
    obtain ⟨r, hr, -⟩ := forUp_inv (f := fun i (j : Nat) => do
        let b ← getBit frozen i
        if b then return j
        else
          let c ← rd codeword i
          let m ← rd message j
          assertUB (c = m)
          return j + 1) (fun n j => j = freeBelow frozen n) (Nat.zero_le N) (s := 0) (by simp [freeBelow]) (by
        rintro k j - hk rfl
        rw [sysCheck_step hk hf hc (fun h => by have := free_lt hk h; omega)]
        by_cases hfr : Frozen frozen k
        · rw [if_pos hfr]
          exact ⟨_, rfl, by rw [freeBelow_succ, if_pos hfr]; rfl⟩
        · rw [if_neg hfr, if_pos (h k hk hfr)]
          exact ⟨_, rfl, by rw [freeBelow_succ, if_neg hfr]⟩)
    intro hn
    unfold sysCheck at hn
    rw [hr] at hn
    cases hn

/-- Counting the message symbols is counting the positions that are not frozen. -/
theorem count_free (frozen : List Nat) (p : Nat → Prop) [DecidablePred p] (N : Nat) :
    (count N fun i => ¬ Frozen frozen i ∧ p (freeBelow frozen i)) = count (freeBelow frozen N) p := by
  induction N with
  | zero => simp [count, freeBelow]
  | succ n ih =>
    have e : (count (n + 1) fun i => ¬ Frozen frozen i ∧ p (freeBelow frozen i)) = (count n fun i => ¬ Frozen frozen i ∧ p (freeBelow frozen i)) +
        if ¬ Frozen frozen n ∧ p (freeBelow frozen n) then 1 else 0 := by
      unfold count; rw [Finset.sum_range_succ]
    rw [e, ih, freeBelow_succ]
    by_cases h : Frozen frozen n
    · simp [h]
    · simp only [h, not_false_eq_true, true_and, if_false]
      unfold count; rw [Finset.sum_range_succ]

/-- Every message index belongs to a position. -/
theorem free_position (frozen : List Nat) : ∀ {N j : Nat}, j < freeBelow frozen N → ∃ i, i < N ∧ ¬ Frozen frozen i ∧ freeBelow frozen i = j := by
  intro N
  induction N with
  | zero => intro j h; simp [freeBelow] at h
  | succ n ih =>
    intro j h
    rw [freeBelow_succ] at h
    by_cases hfr : Frozen frozen n
    · rw [if_pos hfr] at h
      obtain ⟨i, h1, h2⟩ := ih h
      exact ⟨i, by omega, h2⟩
    · rw [if_neg hfr] at h
      by_cases hj : j = freeBelow frozen n
      · exact ⟨n, by omega, hfr, hj.symm⟩
      · obtain ⟨i, h1, h2⟩ := ih (j := j) (by omega)
        exact ⟨i, by omega, h2⟩

/-! ### The code -/

def Trit (x : Int) : Prop := x = -1 ∨ x = 0 ∨ x = 1

theorem trit_prod {ι : Type} (s : Finset ι) (u : ι → Int) (h : ∀ i ∈ s, Trit (u i)) : Trit (∏ i ∈ s, u i) := by
  classical
  induction s using Finset.induction_on with
  | empty => right; right; simp
  | insert a s ha ih =>
    rw [Finset.prod_insert ha]
    have h1 := h a (Finset.mem_insert_self a s)
    have h2 := ih fun i hi => h i (Finset.mem_insert_of_mem hi)
    unfold Trit at *
    rcases h1 with h1 | h1 | h1 <;> rcases h2 with h2 | h2 | h2 <;> rw [h1, h2] <;> simp

theorem symbolAt_trit {frozen : List Nat} {l : List Int} (h : ∀ x ∈ l, Trit x) (i : Nat) : Trit (symbolAt frozen l i) := by
  unfold symbolAt
  split
  · right; right; rfl
  · by_cases hi : freeBelow frozen i < l.length
    · rw [← getElem_eq_getD hi]; exact h _ (List.getElem_mem hi)
    · rw [List.getD_eq_default _ _ (by omega)]; right; right; rfl

theorem trit_t8 {x : Int} (h : Trit x) : PolarHelper.t8 x = x := by
  rcases h with rfl | rfl | rfl <;> decide

/-- On a balanced frozen set, transforming, resetting the frozen positions and transforming again gives the message back. -/
theorem sys_invol {frozen : List Nat} {level : Nat} {u : List Int} (hl : 1 ≤ level) (hf : 2 ^ level ≤ 32 * frozen.length) (hb : Balanced frozen level)
    (hu : u.length = freeBelow frozen (2 ^ level)) (hi : ∀ x ∈ u, x = 1 ∨ x = -1) {i : Nat} (hil : i < 2 ^ level) (hn : ¬ Frozen frozen i) :
    polar level (fun k => if Frozen frozen k then 1 else polar level (symbolAt frozen u) k) i = symbolAt frozen u i := by
  have hs := Polar.symbolAt_sym (frozen := frozen) hi
  obtain ⟨cw, e, h1⟩ := (Polar.C36_iff (List.replicate (2 ^ level) 0) frozen level hl hf (by simp)).2 hb u hu hi
  obtain ⟨cw', e', -, h2⟩ := Polar.sysEncode_ok (H := ph8) (message := u) (frozen := frozen) (k := level) (c := List.replicate (2 ^ level) 0) 0 hl hf (by rw [rank_eq]; omega) (by simp)
  rw [e] at e'
  cases e'
  have e1 : Polar.P ph8.qmul level (Polar.complete ph8.one (fbit frozen) u) = Polar.P (· * ·) level (symbolAt frozen u) := by
    funext j; rw [Polar.complete_eq, Polar.P8_sym _ _ hs]
  have hw : ∀ k, Sym (Polar.mask 1 (fbit frozen) (Polar.P (· * ·) level (symbolAt frozen u)) k) := by
    intro k
    show Sym (ite _ _ _)
    split
    · exact Or.inl rfl
    · exact Polar.P_sym _ _ hs k
  have h3 := h2 i
  rw [if_pos hil, e1] at h3
  rw [show ph8.one = 1 from rfl, Polar.P8_sym _ _ hw, Polar.P_prod level _ i hil, h1 i hil hn] at h3
  have h4 : symbolAt frozen u i = u.getD (freeBelow frozen i) 0 := by
    unfold symbolAt
    rw [if_neg hn]
    have := free_lt hil hn
    rw [← getElem_eq_getD (by omega), ← getElem_eq_getD (by omega)]
  rw [h4, h3]
  unfold polar
  refine Finset.prod_congr rfl fun k hk => ?_
  have hk := Finset.mem_range.1 (Finset.mem_filter.1 hk).1
  show _ = ite _ _ _
  beta_reduce
  have hfb : (fbit frozen k = true) ↔ Frozen frozen k := Iff.rfl
  by_cases hfr : Frozen frozen k
  · rw [if_pos hfr, if_pos (hfb.2 hfr)]
  · rw [if_neg hfr, if_neg (fun h => hfr (hfb.1 h)), Polar.P_prod level _ k hk]

theorem ext_free {frozen : List Nat} {N : Nat} {u v : List Int} (hu : u.length = freeBelow frozen N) (hv : v.length = freeBelow frozen N)
    (h : ∀ i, i < N → ¬ Frozen frozen i → symbolAt frozen u i = symbolAt frozen v i) : u = v := by
  refine List.ext_getElem (by omega) fun j h1 h2 => ?_
  obtain ⟨i, g1, g2, rfl⟩ := free_position frozen (N := N) (j := j) (by omega)
  have := h i g1 g2
  unfold symbolAt at this
  rw [if_neg g2, if_neg g2, ← getElem_eq_getD h1, ← getElem_eq_getD h2] at this
  exact this

/-- On a balanced frozen set the symbols of a codeword at the positions that are not frozen determine the message, also among words with erased symbols. -/
theorem balanced_unique {frozen : List Nat} {level : Nat} {u v : List Int} (hl : 1 ≤ level) (hf : 2 ^ level ≤ 32 * frozen.length) (hb : Balanced frozen level)
    (hu : u.length = freeBelow frozen (2 ^ level)) (hv : v.length = freeBelow frozen (2 ^ level)) (htu : ∀ x ∈ u, Trit x) (hsv : ∀ x ∈ v, x = 1 ∨ x = -1)
    (h : ∀ i, i < 2 ^ level → ¬ Frozen frozen i → polar level (symbolAt frozen u) i = polar level (symbolAt frozen v) i) : u = v := by
  have hs := Polar.symbolAt_sym (frozen := frozen) hsv
  have hsu : ∀ x ∈ u, x = 1 ∨ x = -1 := by
    intro x hx
    obtain ⟨j, hj, rfl⟩ := List.getElem_of_mem hx
    obtain ⟨i, g1, g2, g3⟩ := free_position frozen (N := 2 ^ level) (j := j) (by omega)
    rcases htu _ hx with e | e | e
    · exact Or.inr e
    · exfalso
      have hz : symbolAt frozen u i = 0 := by
        unfold symbolAt
        rw [if_neg g2, g3, ← getElem_eq_getD hj, e]
      have h0 : polar level (symbolAt frozen u) i = 0 := by
        unfold polar
        exact Finset.prod_eq_zero (Finset.mem_filter.2 ⟨Finset.mem_range.2 g1, Nat.and_self i⟩) hz
      have h1 : polar level (symbolAt frozen v) i ≠ 0 := by
        unfold polar
        refine Finset.prod_ne_zero_iff.2 fun k _ => ?_
        rcases hs k with e | e <;> rw [e] <;> decide
      exact h1 (by rw [← h i g1 g2, h0])
    · exact Or.inl e
  refine ext_free hu hv fun i hi hn => ?_
  rw [← sys_invol hl hf hb hu hsu hi hn, ← sys_invol hl hf hb hv hsv hi hn]
  unfold polar
  refine Finset.prod_congr rfl fun k hk => ?_
  have hk := Finset.mem_range.1 (Finset.mem_filter.1 hk).1
  beta_reduce
  by_cases hfr : Frozen frozen k
  · rw [if_pos hfr, if_pos hfr]
  · rw [if_neg hfr, if_neg hfr]
    exact h k hk hfr

/-! ### C74 -/

/-- The arrays have the sizes of the test, the decoder accepts the level and the mask, and there is a symbol for every position that is not frozen. -/
structure PolarCall (MAX_M level : Nat) (frozen : List Nat) (A : PolarArrays) (message : List Int) : Prop where
  max_le : MAX_M ≤ 20
  level_ge : 5 ≤ level
  level_le : level ≤ MAX_M
  frozen_len : 2 ^ level ≤ 32 * frozen.length
  frozen_words : ∀ w ∈ frozen, w < 2 ^ 32
  codeword : A.codeword.length = 2 ^ level
  temp : A.temp.length = 2 ^ level
  decoded : A.decoded.length = freeBelow frozen (2 ^ level)
  orig : A.orig.length = 2 ^ level
  noisy : A.noisy.length = 2 ^ level
  symb : A.symb.length = 2 ^ level
  soft : A.soft.length = 2 * 2 ^ MAX_M
  hard : A.hard.length = 2 ^ MAX_M
  message_len : message.length = freeBelow frozen (2 ^ level)
  message_val : ∀ x ∈ message, x = 1 ∨ x = -1

/-- `sent` are the symbols the encoder transforms: the message itself, or (systematic encoding) those whose codeword has the message at the positions that are not frozen. -/
def Encoded (systematic : Bool) (level : Nat) (frozen : List Nat) (message sent : List Int) : Prop :=
  sent.length = freeBelow frozen (2 ^ level) ∧ (∀ x ∈ sent, x = 1 ∨ x = -1) ∧
    if systematic then ∀ i, i < 2 ^ level → ¬ Frozen frozen i → polar level (symbolAt frozen sent) i = message.getD (freeBelow frozen i) 0 else sent = message

/-- What a trial counts: `sent` as above, `noisy` the received values, `dec` what the decoder decides. -/
structure PolarScore (systematic : Bool) (level : Nat) (frozen : List Nat) (sent noisy dec : List Int) (r : PolarCounts) : Prop where
  /-- not a number of errors, but the sum of the received values of the symbols -1 -/
  awgn : r.awgn = ∑ i ∈ range (2 ^ level), if polar level (symbolAt frozen sent) i < 0 then noisy.getD i 0 else 0
  erasures : r.erasures = count (2 ^ level) fun i => noisy.getD i 0 = 0
  /-- the data symbols that are not decided correctly -/
  uncorrected : r.uncorrected =
    if systematic then count (2 ^ level) fun i => ¬ Frozen frozen i ∧ polar level (symbolAt frozen dec) i ≠ polar level (symbolAt frozen sent) i
    else count (freeBelow frozen (2 ^ level)) fun j => dec.getD j 0 ≠ sent.getD j 0
  /-- the data symbols that are not decided at all -/
  ambiguity : r.ambiguity =
    if systematic then count (2 ^ level) fun i => ¬ Frozen frozen i ∧ polar level (symbolAt frozen dec) i = 0
    else count (freeBelow frozen (2 ^ level)) fun j => dec.getD j 0 = 0

theorem count_congr {N : Nat} {p q : Nat → Prop} [DecidablePred p] [DecidablePred q] (h : ∀ i, i < N → (p i ↔ q i)) : count N p = count N q := by
  unfold count
  refine Finset.sum_congr rfl fun i hi => ?_
  by_cases hp : p i
  · rw [if_pos hp, if_pos ((h i (Finset.mem_range.1 hi)).1 hp)]
  · rw [if_neg hp, if_neg fun hq => hp ((h i (Finset.mem_range.1 hi)).2 hq)]

theorem count_zero {N : Nat} {p : Nat → Prop} [DecidablePred p] : count N p = 0 ↔ ∀ i, i < N → ¬ p i := by
  unfold count
  rw [Finset.sum_eq_zero_iff]
  constructor
  · intro h i hi hp
    have := h i (Finset.mem_range.2 hi)
    rw [if_pos hp] at this
    cases this
  · intro h i hi
    exact if_neg (h i (Finset.mem_range.1 hi))

theorem wrong_iff {a b : Int} (ha : Trit a) (hb : b = 1 ∨ b = -1) : a * b ≤ 0 ↔ a ≠ b := by
  rcases ha with rfl | rfl | rfl <;> rcases hb with rfl | rfl <;> decide

theorem systematicSymbols_eq {level : Nat} {frozen : List Nat} {temp dec : List Int} (hl : 1 ≤ level) (hf : 2 ^ level ≤ 32 * frozen.length) (ht : temp.length = 2 ^ level)
    (hd : dec.length = freeBelow frozen (2 ^ level)) (hv : ∀ x ∈ dec, Trit x) :
    ∃ d, CrcPolar.systematicSymbols ph8 temp dec frozen level = some d ∧ d.length = dec.length ∧
      ∀ i, i < 2 ^ level → ¬ Frozen frozen i → d.getD (freeBelow frozen i) 0 = polar level (symbolAt frozen dec) i := by
  obtain ⟨t, e, h1, h2⟩ := Polar.C35_encode temp dec frozen level hl hf (by omega) (by omega) (fun x hx => by
    rcases hv x hx with rfl | rfl | rfl <;> exact ⟨by omega, by omega⟩)
  obtain ⟨⟨d, n⟩, e6, g1, g2, -⟩ := CrcPolar.gather_ok t dec frozen (2 ^ level) (0 : Int) hf (by omega) (by omega)
  refine ⟨d, ?_, g1, fun i hi hn => ?_⟩
  · unfold CrcPolar.systematicSymbols
    rw [e, sb]
    erw [e6]
    rfl
  · rw [g2 i hi hn, h2, if_pos hi]
    exact trit_t8 (trit_prod _ _ fun k _ => symbolAt_trit hv k)

/-- The encoder of a trial, if its assertions hold. -/
theorem trial_encode {systematic : Bool} {MAX_M level : Nat} {frozen : List Nat} {A : PolarArrays} {message : List Int} (h : PolarCall MAX_M level frozen A message)
    (hb : systematic = true → Balanced frozen level) :
    ∃ sent, Encoded systematic level frozen message sent ∧
      polarEncode systematic level frozen A.codeword message = some ((List.range (2 ^ level)).map (polar level (symbolAt frozen sent))) := by
  have hl : 1 ≤ level := by have := h.level_ge; omega
  have hml := h.message_len
  have hcl := h.codeword
  have hex : ∀ cw : List Int, ∀ g : Nat → Int, Writes A.codeword cw level g → cw = (List.range (2 ^ level)).map g := by
    intro cw g ⟨h1, h2⟩
    refine List.ext_getElem (by simp [h1, hcl]) fun i i1 i2 => ?_
    rw [getElem_eq_getD i1 0, h2, if_pos (by omega)]
    simp
  cases systematic with
  | false =>
    refine ⟨message, ⟨hml, h.message_val, by simp⟩, ?_⟩
    obtain ⟨cw, e, h1, -⟩ := Polar.C35_hard A.codeword message frozen level hl h.frozen_len (by omega) (by omega) h.message_val
    unfold polarEncode
    simp only [Bool.false_eq_true, if_false]
    rw [e, hex cw _ h1]
  | true =>
    obtain ⟨cw, e, h1⟩ := (Polar.C36_iff A.codeword frozen level hl h.frozen_len (by omega)).2 (hb rfl) message hml h.message_val
    obtain ⟨cw', e', h2, -, m', m1, m2, m3⟩ := Polar.C36_codeword A.codeword message frozen level hl h.frozen_len (by omega) (by omega) h.message_val
    rw [e] at e'
    cases e'
    obtain ⟨cw', e', h3, -⟩ := Polar.C35_hard A.codeword m' frozen level hl h.frozen_len (by omega) (by omega) m2
    rw [m3] at e'
    cases e'
    refine ⟨m', ⟨m1, m2, ?_⟩, ?_⟩
    · rw [if_pos rfl]
      intro i hi hn
      rw [← h1 i hi hn, h3.2, if_pos hi]
    · obtain ⟨r, hr⟩ := Option.ne_none_iff_exists'.1 ((sysCheck_iff h.frozen_len (by omega) (by omega)).2 h1)
      unfold polarEncode
      rw [if_pos rfl, e, sb, hr, sb, hex cw _ h3]

theorem polar_sym {level : Nat} {frozen : List Nat} {m : List Int} (hm : ∀ x ∈ m, x = 1 ∨ x = -1) (i : Nat) : polar level (symbolAt frozen m) i = 1 ∨ polar level (symbolAt frozen m) i = -1 := by
  have : Trit (polar level (symbolAt frozen m) i) ∧ polar level (symbolAt frozen m) i ≠ 0 := by
    refine ⟨trit_prod _ _ fun k _ => ?_, Finset.prod_ne_zero_iff.2 fun k _ => ?_⟩
    · rcases Polar.symbolAt_sym (frozen := frozen) hm k with e | e
      · exact Or.inr (Or.inr e)
      · exact Or.inl e
    · rcases Polar.symbolAt_sym (frozen := frozen) hm k with e | e <;> rw [e] <;> decide
  rcases this with ⟨e | e | e, h⟩
  · exact Or.inr e
  · exact absurd e h
  · exact Or.inl e

/-- **C74** (polar codes): for every message, factor other than 0 and finite noise - and, with systematic encoding, for every balanced frozen set - a trial is defined; the decoder gets the
quantised noisy symbols of the codeword, and the counters count what `PolarScore` says.  No data symbol counts as wrong exactly if the decoder has decided all transformed symbols
correctly. -/
theorem C74_polar {systematic : Bool} {MAX_M level : Nat} {frozen : List Nat} {A : PolarArrays} {message : List Int} {f : ℚ} {noise : Nat → ℚ} (hf : f ≠ 0)
    (h : PolarCall MAX_M level frozen A message) (hb : systematic = true → Balanced frozen level) :
    ∃ sent noisy dec r, Encoded systematic level frozen message sent ∧ Received F (2 ^ level) f noise (polar level (symbolAt frozen sent)) noisy ∧
      Polar.scDecode ph8 MAX_M A.soft A.hard A.decoded noisy frozen level = some dec ∧ dec.length = freeBelow frozen (2 ^ level) ∧ (∀ x ∈ dec, x = -1 ∨ x = 0 ∨ x = 1) ∧
      polarTrial F systematic MAX_M level (freeBelow frozen (2 ^ level)) frozen A (.fin f) (fun i => .fin (noise i)) message = some r ∧
      PolarScore systematic level frozen sent noisy dec r ∧ (r.uncorrected = 0 ↔ dec = sent) := by
  have hl : 1 ≤ level := by have := h.level_ge; omega
  have hcl := h.codeword
  obtain ⟨sent, hs, he⟩ := trial_encode (systematic := systematic) h hb
  obtain ⟨noisy, g1, g2, g3⟩ := channel_word (F := F) (noise := noise) (word := polar level (symbolAt frozen sent)) (out := (List.range (2 ^ level)).map (polar level (symbolAt frozen sent)))
    (symb := A.symb) hf (by simp) h.symb
  have hdl := h.decoded
  have hnl := g2.length
  obtain ⟨dec, d1, d2, d3⟩ := Polar.C37_values MAX_M A.soft A.hard noisy A.decoded frozen level
    ⟨h.max_le, h.level_ge, h.level_le, h.soft, h.hard, by omega, h.frozen_len, h.frozen_words⟩ (by omega)
  rw [List.drop_of_length_le (by omega), List.append_nil] at d3
  have hw := polar_sym (level := level) (frozen := frozen) hs.2.1
  have hsum : (∑ i ∈ range (2 ^ level), if ((List.range (2 ^ level)).map (polar level (symbolAt frozen sent))).getD i 0 < 0 then noisy.getD i 0 else 0) =
      ∑ i ∈ range (2 ^ level), if polar level (symbolAt frozen sent) i < 0 then noisy.getD i 0 else 0 :=
    Finset.sum_congr rfl fun i hi => by rw [getD_words (Finset.mem_range.1 hi)]
  have hml := h.message_len
  cases systematic with
  | false =>
    obtain ⟨s1, s2, s3⟩ := hs
    simp only [Bool.false_eq_true, if_false] at s3 he
    subst s3
    refine ⟨sent, noisy, dec, ⟨∑ i ∈ range (2 ^ level), if polar level (symbolAt frozen sent) i < 0 then noisy.getD i 0 else 0, count (2 ^ level) fun i => noisy.getD i 0 = 0,
      count (freeBelow frozen (2 ^ level)) fun j => dec.getD j 0 ≠ sent.getD j 0, count (freeBelow frozen (2 ^ level)) fun j => dec.getD j 0 = 0⟩, ⟨s1, s2, by simp⟩, g2, d3, d1, d2, ?_,
      ⟨rfl, rfl, rfl, rfl⟩, ?_⟩
    · unfold polarTrial
      simp only [Bool.false_eq_true, if_false]
      rw [he, sb, copyTo_eq h.orig (by simp), sb, g1, sb, copyTo_eq h.noisy hnl, sb, d3, sb, sb, negSum_eq hnl (by simp), sb, erased_eq hnl, sb, wrongOrZero_eq d1 s1, sb, erased_eq d1, sb, hsum]
      rw [show (count (freeBelow frozen (2 ^ level)) fun j => dec.getD j 0 * sent.getD j 0 ≤ 0) = count (freeBelow frozen (2 ^ level)) fun j => dec.getD j 0 ≠ sent.getD j 0 from
        count_congr fun j hj => wrong_iff (by rw [← getElem_eq_getD (by omega)]; exact d2 _ (List.getElem_mem _)) (by rw [← getElem_eq_getD (by omega)]; exact s2 _ (List.getElem_mem _))]
      rfl
    · simp only [Bool.false_eq_true, if_false]
      rw [count_zero]
      constructor
      · intro hh
        refine List.ext_getElem (by omega) fun j j1 j2 => ?_
        have := hh j (by omega)
        rw [not_not, ← getElem_eq_getD j1, ← getElem_eq_getD j2] at this
        exact this
      · rintro rfl j - hj
        exact hj rfl
  | true =>
    obtain ⟨s1, s2, s3⟩ := hs
    simp only [if_true] at s3 he
    obtain ⟨d, y1, y2, y3⟩ := systematicSymbols_eq hl h.frozen_len h.temp d1 d2
    have hpd : ∀ i, Trit (polar level (symbolAt frozen dec) i) := fun i => trit_prod _ _ fun k _ => symbolAt_trit d2 k
    refine ⟨sent, noisy, dec, ⟨∑ i ∈ range (2 ^ level), if polar level (symbolAt frozen sent) i < 0 then noisy.getD i 0 else 0, count (2 ^ level) fun i => noisy.getD i 0 = 0,
      count (2 ^ level) fun i => ¬ Frozen frozen i ∧ polar level (symbolAt frozen dec) i ≠ polar level (symbolAt frozen sent) i,
      count (2 ^ level) fun i => ¬ Frozen frozen i ∧ polar level (symbolAt frozen dec) i = 0⟩, ⟨s1, s2, by rw [if_pos rfl]; exact s3⟩, g2, d3, d1, d2, ?_, ⟨rfl, rfl, rfl, rfl⟩, ?_⟩
    · unfold polarTrial
      simp only [if_true]
      rw [he, sb, copyTo_eq h.orig (by simp), sb, g1, sb, copyTo_eq h.noisy hnl, sb, d3, sb, y1, sb, negSum_eq hnl (by simp), sb, erased_eq hnl, sb, wrongOrZero_eq (by omega) hml, sb,
        erased_eq (by omega), sb, hsum, ← count_free, ← count_free]
      rw [show (count (2 ^ level) fun i => ¬ Frozen frozen i ∧ d.getD (freeBelow frozen i) 0 * message.getD (freeBelow frozen i) 0 ≤ 0) =
          count (2 ^ level) fun i => ¬ Frozen frozen i ∧ polar level (symbolAt frozen dec) i ≠ polar level (symbolAt frozen sent) i from
        count_congr fun i hi => and_congr_right fun hn => by rw [y3 i hi hn, ← s3 i hi hn]; exact wrong_iff (hpd i) (hw i)]
      rw [show (count (2 ^ level) fun i => ¬ Frozen frozen i ∧ d.getD (freeBelow frozen i) 0 = 0) =
          count (2 ^ level) fun i => ¬ Frozen frozen i ∧ polar level (symbolAt frozen dec) i = 0 from
        count_congr fun i hi => and_congr_right fun hn => by rw [y3 i hi hn]]
      rfl
    · simp only [if_true]
      rw [count_zero]
      constructor
      · intro hh
        exact balanced_unique hl h.frozen_len (hb rfl) d1 s1 d2 s2 fun i hi hn => not_not.1 fun hne => hh i hi ⟨hn, hne⟩
      · rintro rfl i - ⟨-, hj⟩
        exact hj rfl

/-- **C74** (polar codes, the assertion on the systematic encoder): it holds in every trial exactly if the frozen set is balanced. -/
theorem C74_polar_assert {MAX_M level : Nat} {frozen : List Nat} {A : PolarArrays} {f : ℚ} {noise : Nat → ℚ} (hf : f ≠ 0) (hA : ∃ message, PolarCall MAX_M level frozen A message) :
    (∀ message, PolarCall MAX_M level frozen A message →
      polarTrial F true MAX_M level (freeBelow frozen (2 ^ level)) frozen A (.fin f) (fun i => .fin (noise i)) message ≠ none) ↔ Balanced frozen level := by
  constructor
  · intro hh
    obtain ⟨m0, h0⟩ := hA
    have hl : 1 ≤ level := by have := h0.level_ge; omega
    have hcl := h0.codeword
    refine (Polar.C36_iff A.codeword frozen level hl h0.frozen_len (by omega)).1 fun message hml hmv => ?_
    have h : PolarCall MAX_M level frozen A message := { h0 with message_len := hml, message_val := hmv }
    obtain ⟨cw, e, h2, -⟩ := Polar.C36_codeword A.codeword message frozen level hl h0.frozen_len (by omega) (by omega) hmv
    refine ⟨cw, e, (sysCheck_iff h0.frozen_len (by omega) (by omega)).1 fun hn => hh message h ?_⟩
    unfold polarTrial polarEncode
    simp only [if_true]
    rw [e, sb, hn]
    rfl
  · intro hb message h hn
    obtain ⟨_, _, _, r, _, _, _, _, _, hr, _⟩ := C74_polar (F := F) (noise := noise) (systematic := true) hf h fun _ => hb
    rw [hn] at hr
    cases hr

/-- **C74** (polar codes, weak noise): nothing is wrong, nothing erased; the first counter is negative unless the codeword is all 1. -/
theorem C74_polar_weak {systematic : Bool} {MAX_M level : Nat} {frozen : List Nat} {A : PolarArrays} {message : List Int} {f : ℚ} {noise : Nat → ℚ} (hf : 0 < f)
    (h : PolarCall MAX_M level frozen A message) (hb : systematic = true → Balanced frozen level) (hw : ∀ i, i < 2 ^ level → ∀ c : Int, c = 1 ∨ c = -1 → Weak F f c (noise i)) :
    ∃ sent a, Encoded systematic level frozen message sent ∧
      polarTrial F systematic MAX_M level (freeBelow frozen (2 ^ level)) frozen A (.fin f) (fun i => .fin (noise i)) message = some ⟨a, 0, 0, 0⟩ ∧
      a ≤ 0 ∧ (a = 0 ↔ ∀ i, i < 2 ^ level → polar level (symbolAt frozen sent) i = 1) := by
  obtain ⟨sent, noisy, dec, r, hs, g, d1, d2, d3, hr, hsc, hiff⟩ := C74_polar (F := F) (noise := noise) hf.ne' h hb
  have hl : 1 ≤ level := by have := h.level_ge; omega
  have hpm := polar_sym (level := level) (frozen := frozen) hs.2.1
  have hpos : ∀ i, i < 2 ^ level → 0 < polar level (symbolAt frozen sent) i * noisy.getD i 0 := fun i hi => C73_channel_weak hf (hpm i) (hw i hi _ (hpm i)) (g.value i hi)
  have hsl := hs.1
  have hgl := g.length
  have hdl := h.decoded
  obtain ⟨cw, e, ⟨c1, c2⟩, -⟩ := Polar.C35_hard (List.replicate (2 ^ level) 0) sent frozen level hl h.frozen_len (by omega) (by simp) hs.2.1
  have hI8 : ∀ j, j < 2 ^ level → -127 ≤ noisy.getD j 0 ∧ noisy.getD j 0 ≤ 127 := by
    intro j hj
    have := g.value j hj
    revert this
    generalize llr F (.fin f) (.fin (noise j)) (polar level (symbolAt frozen sent) j) = y
    generalize noisy.getD j 0 = n
    intro this
    obtain ⟨m, hm⟩ : ∃ m, quantF y = some m := ⟨n, (C49_quant_float y n).2 this⟩
    have hmn := (C49_quant_float y n).2 this
    cases y with
    | nan => rw [quantF_nan] at hmn; cases hmn
    | inf b => rw [quantF_inf] at hmn; cases hmn; cases b <;> simp
    | fin q => rw [quantF_fin] at hmn; cases hmn; omega
  have hdec := Polar.C37_decode MAX_M A.soft A.hard sent (List.replicate (2 ^ level) 0) cw noisy A.decoded frozen level
    ⟨h.max_le, h.level_ge, h.level_le, h.soft, h.hard, by omega, h.frozen_len, h.frozen_words⟩ (by omega) hs.2.1 (by simp) e (fun j hj => by
      refine ⟨⟨?_, ?_⟩, ?_⟩
      · have := hI8 j hj; omega
      · have := hI8 j hj; omega
      · rw [c2, if_pos hj, mul_comm]; exact hpos j hj) (by omega)
  rw [d1, List.take_of_length_le (by omega), List.drop_of_length_le (by omega), List.append_nil] at hdec
  have hds : dec = sent := by injection hdec
  subst hds
  have h3 := hiff.2 rfl
  have h2 : r.erasures = 0 := by
    rw [hsc.erasures, count_zero]
    intro i hi hz
    have := hpos i hi
    rw [hz, mul_zero] at this
    omega
  have h4 : r.ambiguity = 0 := by
    rw [hsc.ambiguity]
    cases systematic with
    | true =>
      rw [if_pos rfl, count_zero]
      rintro i hi ⟨-, hz⟩
      rcases hpm i with e | e <;> omega
    | false =>
      simp only [Bool.false_eq_true, if_false]
      rw [count_zero]
      intro j hj hz
      have hjl : j < dec.length := by omega
      rw [← getElem_eq_getD hjl] at hz
      rcases hs.2.1 _ (List.getElem_mem hjl) with e | e <;> omega
  have hterm : ∀ i, i < 2 ^ level → (if polar level (symbolAt frozen dec) i < 0 then noisy.getD i 0 else 0) ≤ 0 := by
    intro i hi
    have := hpos i hi
    rcases hpm i with e | e <;> rw [e] at this ⊢
    · rw [if_neg (by decide)]
    · rw [if_pos (by decide)]; omega
  refine ⟨dec, r.awgn, hs, ?_, ?_, ?_⟩
  · rw [hr]
    obtain ⟨a, b, c, d⟩ := r
    simp only at h2 h3 h4
    subst h2 h3 h4
    rfl
  · rw [hsc.awgn]
    exact Finset.sum_nonpos fun i hi => hterm i (Finset.mem_range.1 hi)
  · rw [hsc.awgn, Finset.sum_eq_zero_iff_of_nonpos fun i hi => hterm i (Finset.mem_range.1 hi)]
    constructor
    · intro hh i hi
      rcases hpm i with e | e
      · exact e
      · have := hh i (Finset.mem_range.2 hi)
        rw [e, if_pos (by decide)] at this
        have hp := hpos i hi
        rw [this, mul_zero] at hp
        omega
    · intro hh i hi
      rw [hh i (Finset.mem_range.1 hi)]
      rfl

/-! ### A case: level 5, information set {15, 23, 27, 29, 30, 31} -/

/-- Arrays of the right sizes, full of nines. -/
def polarArrays : PolarArrays :=
  ⟨List.replicate 32 9, List.replicate 32 9, List.replicate 6 9, List.replicate 32 9, List.replicate 32 9, List.replicate 32 .nan, List.replicate 64 9, List.replicate 32 9⟩

theorem polarArrays_call : PolarCall 5 5 [0x177f7fff] polarArrays [1, -1, 1, 1, -1, 1] where
  max_le := by decide
  level_ge := by decide
  level_le := by decide
  frozen_len := by decide
  frozen_words := by decide
  codeword := by decide
  temp := by decide
  decoded := by decide +kernel
  orig := by decide
  noisy := by decide
  symb := by decide
  soft := by decide
  hard := by decide
  message_len := by decide +kernel
  message_val := by decide

theorem polarArrays_balanced : Balanced [0x177f7fff] 5 := Polar.Closed.balanced (by
  have h : ∀ i, i < 2 ^ 5 → ∀ j, j < 2 ^ 5 → ¬ Frozen [0x177f7fff] i → j &&& i = i → ¬ Frozen [0x177f7fff] j := by decide +kernel
  exact fun i j hi hj => h i hi j hj)

/-- Noise too weak to turn a symbol exists. -/
example : ∀ i, i < 2 ^ 5 → ∀ c : Int, c = 1 ∨ c = -1 → Weak unrounded 4 c (1 / 2) := by
  rintro i - c (rfl | rfl)
  · exact ⟨1 / 2, trivial, by norm_num, by norm_num⟩
  · exact ⟨1 / 2, trivial, by norm_num, by norm_num⟩

/-- Trials, run (the noise is given relative to the codeword): three symbols turned and one erased are corrected; the last eight turned leave five of six data symbols wrong, one of them
undecided. -/
example :
    let word : List Int := [1, -1, 1, -1, 1, -1, 1, -1, -1, 1, -1, 1, -1, 1, -1, 1, 1, -1, 1, -1, 1, -1, 1, -1, -1, 1, -1, 1, -1, 1, -1, 1]
    polarEncode true 5 [0x177f7fff] polarArrays.codeword [1, -1, 1, 1, -1, 1] = some word ∧
    polarTrial unrounded true 5 5 6 [0x177f7fff] polarArrays (.fin 4) (fun i => .fin ((if i = 3 ∨ i = 9 ∨ i = 20 then -2 else if i = 30 then -1 else 0) * word.getD i 0))
      [1, -1, 1, 1, -1, 1] = some ⟨-52, 1, 0, 0⟩ ∧
    polarTrial unrounded true 5 5 6 [0x177f7fff] polarArrays (.fin 4) (fun i => .fin ((if 24 ≤ i then -2 else 0) * word.getD i 0)) [1, -1, 1, 1, -1, 1] = some ⟨-32, 0, 5, 1⟩ := by
  decide +kernel

end Verif.Trials
