import Verif.Trials.Channel
import Verif.Trials.Proof
import Verif.PolarHelper.Props
import Mathlib.Tactic.Linarith
/- C49 for floating point input, and what the channel of the tests does (used in C73). -/
namespace Verif.Trials
open Verif.RS (sb)
open Verif.Polar (Fl Rounding)
open Verif.Polar.Ieee (nearest nearest_mono nearest_int)

/-! ### Specification -/

/-- `m` is the integer nearest to `q`, the even one if there are two. -/
def IsNearest (q : ℚ) (m : Int) : Prop := (∀ k : Int, |q - m| ≤ |q - k|) ∧ (2 * |q - m| = 1 → Even m)

/-- `n` is what a soft value is quantised to: the nearest integer, but no less than -127 and no more than 127. -/
def Quantised : Fl → Int → Prop
  | .nan, _ => False
  | .inf neg, n => n = if neg then -127 else 127
  | .fin q, n => ∃ m, IsNearest q m ∧ n = max (-127) (min 127 m)

/-! ### Proofs -/

theorem nearest_close (q : ℚ) : 2 * |q - nearest q| ≤ 1 ∧ (2 * |q - nearest q| = 1 → Even (nearest q)) := by
  have h0 := Int.fract_nonneg q
  have h1 := Int.fract_lt_one q
  have h2 : q = ⌊q⌋ + Int.fract q := (Int.floor_add_fract q).symm
  unfold nearest
  split_ifs with a b c
  · have : |q - ⌊q⌋| = Int.fract q := by rw [show q - ⌊q⌋ = Int.fract q by linarith, abs_of_nonneg h0]
    rw [this]
    exact ⟨by linarith, fun h => by linarith⟩
  · have : |q - (⌊q⌋ + 1 : Int)| = 1 - Int.fract q := by
      rw [show q - (⌊q⌋ + 1 : Int) = -(1 - Int.fract q) by push_cast; linarith, abs_neg, abs_of_nonneg (by linarith)]
    rw [this]
    exact ⟨by linarith, fun h => by linarith⟩
  · have : |q - ⌊q⌋| = Int.fract q := by rw [show q - ⌊q⌋ = Int.fract q by linarith, abs_of_nonneg h0]
    rw [this]
    exact ⟨by linarith, fun _ => Int.even_iff.mpr c⟩
  · have : |q - (⌊q⌋ + 1 : Int)| = 1 - Int.fract q := by
      rw [show q - (⌊q⌋ + 1 : Int) = -(1 - Int.fract q) by push_cast; linarith, abs_neg, abs_of_nonneg (by linarith)]
    rw [this]
    exact ⟨by linarith, fun _ => by rw [Int.even_iff]; omega⟩

theorem isNearest_unique {q : ℚ} {m n : Int} (hm : IsNearest q m) (hn : IsNearest q n) : m = n := by
  by_contra hne
  have e : |q - m| = |q - n| := le_antisymm (hm.1 n) (hn.1 m)
  rcases abs_eq_abs.mp e with h | h
  · apply hne
    have : (m : ℚ) = n := by linarith
    exact_mod_cast this
  · -- q is in the middle
    have h2 : (2 * q : ℚ) = ((m + n : Int) : ℚ) := by push_cast; linarith
    have a := hm.1
    -- the integer in the middle or next to it
    rcases Int.even_or_odd (m + n) with hev | hod
    · obtain ⟨k, hk⟩ := hev
      have hq : q = k := by rw [hk] at h2; push_cast at h2; linarith
      have := hm.1 k
      rw [hq, sub_self, abs_zero] at this
      have h3 := abs_nonpos_iff.mp this
      have h4 := hn.1 k
      rw [hq, sub_self, abs_zero] at h4
      have h5 := abs_nonpos_iff.mp h4
      apply hne
      have : (m : ℚ) = n := by linarith
      exact_mod_cast this
    · obtain ⟨k, hk⟩ := hod
      have hq : q = k + 1 / 2 := by rw [hk] at h2; push_cast at h2; linarith
      have b := hm.1 k
      rw [hq, show ((k : ℚ) + 1 / 2 - k) = 1 / 2 by ring, abs_of_pos (by norm_num : (0 : ℚ) < 1 / 2), abs_le] at b
      have b1 : m ≤ k + 1 := by
        have : (m : ℚ) ≤ ((k + 1 : Int) : ℚ) := by push_cast; linarith [b.1]
        exact_mod_cast this
      have b2 : k ≤ m := by
        have : (k : ℚ) ≤ (m : ℚ) := by linarith [b.2]
        exact_mod_cast this
      have hhalf : ∀ x : Int, x = k ∨ x = k + 1 → 2 * |q - x| = 1 := by
        rintro x (rfl | rfl)
        · rw [hq, show ((x : ℚ) + 1 / 2 - x) = 1 / 2 by ring, abs_of_pos (by norm_num : (0 : ℚ) < 1 / 2)]; norm_num
        · rw [hq, show ((k : ℚ) + 1 / 2 - (k + 1 : Int)) = -(1 / 2) by push_cast; ring, abs_neg, abs_of_pos (by norm_num : (0 : ℚ) < 1 / 2)]; norm_num
      have em := hm.2 (hhalf m (by omega))
      have en := hn.2 (hhalf n (by omega))
      rw [Int.even_iff] at em en
      omega

theorem isNearest_nearest (q : ℚ) : IsNearest q (nearest q) := by
  obtain ⟨h1, h2⟩ := nearest_close q
  refine ⟨fun k => ?_, h2⟩
  by_cases hk : k = nearest q
  · rw [hk]
  · have h3 : (1 : ℚ) ≤ |((k - nearest q : Int) : ℚ)| := by
      rw [← Int.cast_abs]
      have : (1 : Int) ≤ |k - nearest q| := Int.one_le_abs (by omega)
      exact_mod_cast this
    have h4 : |((k - nearest q : Int) : ℚ)| ≤ |q - nearest q| + |q - k| := by
      have := abs_sub_le (k : ℚ) q (nearest q)
      rw [abs_sub_comm (k : ℚ) q] at this
      push_cast
      linarith
    linarith

theorem toInt8_int {n : Int} (h1 : -128 ≤ n) (h2 : n ≤ 127) : toInt8 (.fin n) = some n := by
  unfold toInt8
  simp only [Int.floor_intCast, Int.ceil_intCast, ite_self]
  exact if_pos ⟨h1, h2⟩

theorem quantF_fin (q : ℚ) : quantF (.fin q) = some (max (-127) (min 127 (nearest q))) := by
  unfold quantF nearbyint flMax Fl.min
  have e127 : ((127 : Int) : ℚ) = 127 := by norm_num
  have em127 : ((-127 : Int) : ℚ) = -127 := by norm_num
  by_cases h1 : nearest q < -127
  · have : ((nearest q : Int) : ℚ) < -127 := by rw [← em127]; exact_mod_cast h1
    simp only [Fl.lt, this, decide_true, if_true]
    rw [if_neg (by norm_num), ← em127, toInt8_int (by norm_num) (by norm_num), max_eq_left (by omega)]
  · have : ¬ ((nearest q : Int) : ℚ) < -127 := by rw [← em127]; exact_mod_cast h1
    simp only [Fl.lt, this, decide_false, Bool.false_eq_true, if_false]
    by_cases h2 : 127 < nearest q
    · have : (127 : ℚ) < ((nearest q : Int) : ℚ) := by rw [← e127]; exact_mod_cast h2
      simp only [this, decide_true, if_true]
      rw [← e127, toInt8_int (by norm_num) (by norm_num)]
      congr 1
      omega
    · have : ¬ (127 : ℚ) < ((nearest q : Int) : ℚ) := by rw [← e127]; exact_mod_cast h2
      simp only [this, decide_false, Bool.false_eq_true, if_false]
      rw [toInt8_int (by omega) (by omega)]
      congr 1
      omega

theorem quantF_inf (b : Bool) : quantF (.inf b) = some (if b then -127 else 127) := by
  cases b <;> rfl

theorem quantF_nan : quantF .nan = none := rfl

/-- **C49** `quant` of a floating point value is the nearest integer, ties going to the even one, saturated to `[-127, 127]`; it is undefined for a NaN, and only for that. -/
theorem C49_quant_float (x : Fl) (n : Int) : quantF x = some n ↔ Quantised x n := by
  cases x with
  | nan => simp [quantF_nan, Quantised]
  | inf b => rw [quantF_inf]; simp only [Quantised, Option.some.injEq, eq_comm]
  | fin q =>
    rw [quantF_fin]
    constructor
    · intro h
      cases h
      exact ⟨nearest q, isNearest_nearest q, rfl⟩
    · rintro ⟨m, hm, rfl⟩
      rw [isNearest_unique hm (isNearest_nearest q)]

/-- **C49** `quant` is defined for everything but NaN. -/
theorem C49_quant_defined (x : Fl) : quantF x = none ↔ x = .nan := by
  cases x with
  | nan => simp [quantF_nan]
  | inf b => rw [quantF_inf]; simp
  | fin q => rw [quantF_fin]; simp

/-- **C49** Larger values are not quantised to smaller ones. -/
theorem C49_quant_mono {p q : ℚ} {m n : Int} (h : p ≤ q) (hm : quantF (.fin p) = some m) (hn : quantF (.fin q) = some n) : m ≤ n := by
  rw [quantF_fin] at hm hn
  cases hm
  cases hn
  have := nearest_mono h
  omega

theorem isNearest_neg {q : ℚ} {m : Int} (h : IsNearest q m) : IsNearest (-q) (-m) := by
  have e : ∀ k : Int, |(-q : ℚ) - ((-k : Int) : ℚ)| = |q - k| := fun k => by
    rw [show (-q : ℚ) - ((-k : Int) : ℚ) = -(q - k) by push_cast; ring, abs_neg]
  refine ⟨fun k => ?_, fun h2 => ?_⟩
  · rw [e, ← neg_neg k, e]
    exact h.1 _
  · rw [e] at h2
    exact (h.2 h2).neg

theorem nearest_neg (q : ℚ) : nearest (-q) = -nearest q := isNearest_unique (isNearest_nearest _) (isNearest_neg (isNearest_nearest q))

/-- **C49** `quant` does not prefer a sign. -/
theorem C49_quant_odd {q : ℚ} {n : Int} (h : quantF (.fin q) = some n) : quantF (.fin (-q)) = some (-n) := by
  rw [quantF_fin] at h ⊢
  cases h
  rw [nearest_neg]
  congr 1
  omega

/-- **C49** A value in range is changed by at most one half; sign and zero: a value is erased exactly if its magnitude is at most one half, and otherwise it keeps its sign. -/
theorem C49_quant_error {q : ℚ} {n : Int} (h : quantF (.fin q) = some n) :
    -127 ≤ n ∧ n ≤ 127 ∧ (|q| ≤ 127 → |q - n| ≤ 1 / 2) ∧ (n = 0 ↔ |q| ≤ 1 / 2) ∧ (0 < n ↔ 1 / 2 < q) ∧ (n < 0 ↔ q < -(1 / 2)) := by
  rw [quantF_fin] at h
  cases h
  have hc := (nearest_close q).1
  have hpos : ∀ q : ℚ, 0 < nearest q ↔ 1 / 2 < q := fun q => by
    have hc := nearest_close q
    constructor
    · intro h
      by_contra hq
      have h1 : (1 : ℚ) ≤ (nearest q : ℚ) := by exact_mod_cast h
      have h3 := (abs_le.mp (show |q - nearest q| ≤ 1 / 2 by linarith [hc.1])).1
      have h4 : (nearest q : ℚ) = 1 := by linarith
      have h5 : q = 1 / 2 := by linarith
      have h6 : nearest q = 1 := by exact_mod_cast h4
      have := hc.2 (by rw [h4, h5]; norm_num [abs_of_nonneg])
      rw [h6] at this
      exact absurd this (by decide)
    · intro h
      by_contra hq
      have h1 : (nearest q : ℚ) ≤ 0 := by exact_mod_cast (by omega : nearest q ≤ 0)
      have h3 := (abs_le.mp (show |q - nearest q| ≤ 1 / 2 by linarith [hc.1])).2
      linarith
  have h1 := hpos q
  have h2 : nearest q < 0 ↔ q < -(1 / 2) := by
    have := hpos (-q)
    rw [nearest_neg] at this
    constructor
    · intro h; have := this.mp (by omega); linarith
    · intro h; have := this.mpr (by linarith); omega
  refine ⟨by omega, by omega, fun hq => ?_, ?_, ?_, ?_⟩
  · have ha := nearest_mono (abs_le.mp hq).2
    have hb := nearest_mono (abs_le.mp hq).1
    rw [show (127 : ℚ) = ((127 : Int) : ℚ) by norm_num, nearest_int] at ha
    rw [show (-127 : ℚ) = ((-127 : Int) : ℚ) by norm_num, nearest_int] at hb
    rw [show max (-127) (min 127 (nearest q)) = nearest q by omega]
    linarith
  · rw [abs_le]
    constructor
    · intro h
      have a : ¬ 0 < nearest q := by omega
      have b : ¬ nearest q < 0 := by omega
      rw [h1] at a
      rw [h2] at b
      exact ⟨by linarith, by linarith⟩
    · rintro ⟨a, b⟩
      have a' : ¬ nearest q < 0 := by rw [h2]; linarith
      have b' : ¬ 0 < nearest q := by rw [h1]; linarith
      omega
  · rw [← h1]; omega
  · rw [← h2]; omega

/-- **C49** On integers it is the integer `quant`. -/
theorem C49_quant_int (v : Int) : quantF (.fin v) = some (PolarHelper.quant v) := by
  rw [quantF_fin, nearest_int, PolarHelper.C49_quant_spec]
  congr 1
  unfold PolarHelper.clampS
  split_ifs <;> omega

/-- Ties, saturation, and values that are not numbers. -/
example : quantF (.fin (5 / 2)) = some 2 ∧ quantF (.fin (-7 / 2)) = some (-4) ∧ quantF (.fin (2 / 5)) = some 0 ∧ quantF (.fin (-1000)) = some (-127) ∧ quantF (.inf false) = some 127 ∧
    quantF .nan = none := by decide +kernel

/-! ### The channel -/

/-- A loop that writes `v i` to element `i`. -/
theorem forUp_write {α : Type} {N : Nat} {out : List α} {f : Nat → List α → Option (List α)} {v : Nat → α} (hl : out.length = N)
    (hf : ∀ i o, i < N → o.length = N → (∀ j, i ≤ j → o[j]? = out[j]?) → f i o = some (o.set i (v i))) :
    forUp 0 N out f = some ((List.range N).map v) := by
  obtain ⟨r, hr, h1, h2, -⟩ := forUp_inv (f := f)
    (fun k o => o.length = N ∧ (∀ j, j < k → o[j]? = some (v j)) ∧ ∀ j, k ≤ j → o[j]? = out[j]?) (Nat.zero_le N) (s := out) ⟨hl, fun j hj => absurd hj (Nat.not_lt_zero j), fun _ _ => rfl⟩ (by
      rintro k o - hk ⟨g1, g2, g3⟩
      refine ⟨_, hf k o hk g1 g3, by rw [List.length_set, g1], fun j hj => ?_, fun j hj => ?_⟩
      · rcases Nat.lt_succ_iff_lt_or_eq.mp hj with hj | rfl
        · rw [List.getElem?_set_ne (by omega), g2 j hj]
        · rw [List.getElem?_set_self (by omega)]
      · rw [List.getElem?_set_ne (by omega), g3 j (by omega)])
  rw [hr]
  congr 1
  apply List.ext_getElem?
  intro j
  by_cases hj : j < N
  · rw [h2 j hj, List.getElem?_map, List.getElem?_range hj, Option.map_some]
  · rw [List.getElem?_eq_none (by omega), List.getElem?_eq_none (by simp; omega)]

variable {F : Rounding}

/-- What is quantised: the sum of symbol and noise, rounded, times the factor, rounded. -/
def llr (F : Rounding) (fact noise : Fl) (c : Int) : Fl := Fl.mul F fact (Fl.add F (Fl.ofQ F c) noise)

theorem channel_eq {N : Nat} {fact : Fl} {noise : Nat → Fl} {sent out : List Int} {symb : List Fl} (hs : sent.length = N) (ho : out.length = N) (hy : symb.length = N) {v : Nat → Int}
    (hv : ∀ i, i < N → quantF (llr F fact (noise i) (sent.getD i 0)) = some (v i)) : channel F N fact noise sent out symb = some ((List.range N).map v) := by
  unfold channel
  have hrd : ∀ {α : Type} {l : List α} {i : Nat} {d : α}, i < l.length → rd l i = some (l.getD i d) := fun {α l i d} h => by
    unfold rd
    rw [List.getD_eq_getElem?_getD, List.getElem?_eq_getElem h, Option.getD_some]
  rw [forUp_write (v := fun i => Fl.ofQ F (sent.getD i 0 : Int)) hy (fun i o hi h1 _ => by
    rw [hrd (d := 0) (by omega), sb, wr, if_pos (by omega)]), sb]
  rw [forUp_write (v := fun i => Fl.add F (Fl.ofQ F (sent.getD i 0 : Int)) (noise i)) (by simp) (fun i o hi h1 h2 => by
    rw [rd, h2 i (le_refl i), List.getElem?_map, List.getElem?_range hi, Option.map_some, sb, wr, if_pos (by omega)]), sb]
  exact forUp_write ho (fun i o hi h1 _ => by
    rw [rd, List.getElem?_map, List.getElem?_range hi, Option.map_some, sb]
    have := hv i hi
    unfold llr at this
    rw [this, sb, wr, if_pos (by omega)])

theorem ofQ_ne_nan (q : ℚ) : Fl.ofQ F q ≠ .nan := by unfold Fl.ofQ; split <;> simp

theorem llr_ne_nan {f n : ℚ} (hf : f ≠ 0) (c : Int) : llr F (.fin f) (.fin n) c ≠ .nan := by
  have hm : ∀ x : Fl, x ≠ .nan → Fl.mul F (.fin f) x ≠ .nan := by
    intro x hx
    cases x with
    | nan => exact absurd rfl hx
    | inf b => simp [Fl.mul, hf]
    | fin q => exact ofQ_ne_nan _
  apply hm
  unfold Fl.ofQ
  split
  · exact ofQ_ne_nan _
  · simp [Fl.add]

/-- **C73** (the channel): with a factor other than 0 and any finite noise nothing is undefined, and every symbol is received as the quantised rounded product of the factor and the
rounded sum of symbol and noise, whatever the arrays held. -/
theorem C73_channel {N : Nat} {f : ℚ} {noise : Nat → ℚ} {sent out : List Int} {symb : List Fl} (hf : f ≠ 0) (hs : sent.length = N) (ho : out.length = N) (hy : symb.length = N) :
    ∃ noisy, channel F N (.fin f) (fun i => .fin (noise i)) sent out symb = some noisy ∧ noisy.length = N ∧
      ∀ i, i < N → Quantised (llr F (.fin f) (.fin (noise i)) (sent.getD i 0)) (noisy.getD i 0) ∧ -127 ≤ noisy.getD i 0 ∧ noisy.getD i 0 ≤ 127 := by
  have hex : ∀ i, ∃ n, quantF (llr F (.fin f) (.fin (noise i)) (sent.getD i 0)) = some n ∧ -127 ≤ n ∧ n ≤ 127 := by
    intro i
    have := llr_ne_nan (F := F) (n := noise i) hf (sent.getD i 0)
    cases hx : llr F (.fin f) (.fin (noise i)) (sent.getD i 0) with
    | nan => exact absurd hx this
    | inf b => exact ⟨_, quantF_inf b, by cases b <;> simp, by cases b <;> simp⟩
    | fin q => exact ⟨_, quantF_fin q, by omega, by omega⟩
  choose v hv using hex
  refine ⟨_, channel_eq (v := v) hs ho hy (fun i _ => (hv i).1), by simp, fun i hi => ?_⟩
  have e : ((List.range N).map v).getD i 0 = v i := by
    rw [List.getD_eq_getElem?_getD, List.getElem?_map, List.getElem?_range hi]; rfl
  rw [e]
  exact ⟨(C49_quant_float _ _).mp (hv i).1, (hv i).2⟩

/-- Noise that leaves a symbol recognisable: it takes at most `1 - d` away from the symbol, where `d` is a number of the format that the factor makes at least 1.  (In the direction of
the symbol it may be of any size.) -/
def Weak (F : Rounding) (f : ℚ) (c : Int) (n : ℚ) : Prop := ∃ d, F.rep d ∧ 1 ≤ f * d ∧ d ≤ 1 + c * n

/-- **C73** (the channel, weak noise): the symbol is received with its sign, and not as an erasure. -/
theorem C73_channel_weak {f n : ℚ} {c x : Int} (hf : 0 < f) (hc : c = 1 ∨ c = -1) (hw : Weak F f c n) (hx : Quantised (llr F (.fin f) (.fin n) c) x) : 0 < c * x := by
  obtain ⟨d, hd, h1, h2⟩ := hw
  have hd0 : 0 < d := by
    by_contra h
    nlinarith
  rw [← C49_quant_float] at hx
  have hneg : F.rnd (-1) = -1 := F.exact _ (F.neg _ F.one)
  have hcr : Fl.ofQ F (c : ℚ) = .fin c := by
    unfold Fl.ofQ
    have e : F.rnd (c : ℚ) = c := by
      rcases hc with rfl | rfl
      · rw [Int.cast_one]; exact F.exact _ F.one
      · rw [Int.cast_neg, Int.cast_one]; exact hneg
    rw [e, if_pos]
    rcases hc with rfl | rfl
    · norm_num; exact F.one_lt
    · norm_num; exact F.one_lt
  unfold llr at hx
  rw [hcr] at hx
  simp only [Fl.add] at hx
  rcases hc with rfl | rfl
  · have hs : d ≤ F.rnd ((1 : Int) + n) := by
      rw [← F.exact d hd]
      refine F.mono _ _ ?_
      push_cast at h2 ⊢
      linarith
    unfold Fl.ofQ at hx
    split at hx
    · simp only [Fl.mul] at hx
      have hp : 1 ≤ F.rnd (f * F.rnd ((1 : Int) + n)) := by
        rw [← F.exact 1 F.one]
        refine F.mono _ _ ?_
        nlinarith
      unfold Fl.ofQ at hx
      split at hx
      · have := ((C49_quant_error hx).2.2.2.2.1).mpr (lt_of_lt_of_le (by norm_num) hp)
        omega
      · rw [quantF_inf, if_neg (by simp only [decide_eq_true_eq, not_lt]; linarith)] at hx
        cases hx
        norm_num
    · rw [decide_eq_false (by linarith)] at hx
      simp only [Fl.mul, hf.ne', if_false] at hx
      rw [decide_eq_false (by linarith), quantF_inf] at hx
      cases hx
      norm_num
  · have hs : F.rnd ((-1 : Int) + n) ≤ -d := by
      rw [← F.exact (-d) (F.neg d hd)]
      refine F.mono _ _ ?_
      push_cast at h2 ⊢
      linarith
    unfold Fl.ofQ at hx
    split at hx
    · simp only [Fl.mul] at hx
      have hp : F.rnd (f * F.rnd ((-1 : Int) + n)) ≤ -1 := by
        rw [← hneg]
        refine F.mono _ _ ?_
        nlinarith
      unfold Fl.ofQ at hx
      split at hx
      · have := ((C49_quant_error hx).2.2.2.2.2).mpr (lt_of_le_of_lt hp (by norm_num))
        omega
      · rw [quantF_inf, if_pos (by simp only [decide_eq_true_eq]; linarith)] at hx
        cases hx
        norm_num
    · rw [decide_eq_true (show F.rnd ((-1 : Int) + n) < 0 by linarith)] at hx
      simp only [Fl.mul, hf.ne', if_false] at hx
      rw [decide_eq_false (by linarith), quantF_inf] at hx
      cases hx
      norm_num

/-- Weak noise in single precision: at a factor of 4, noise of up to 3/4 against the symbol is weak. -/
example : Weak Polar.binary32 4 (-1) (3 / 4) := ⟨1 / 4, ⟨1, -2, by norm_num, by norm_num, by norm_num⟩, by norm_num, by norm_num⟩

/-- The conversion itself discards the fraction. -/
example : toInt8 (.fin (5 / 2)) = some 2 ∧ toInt8 (.fin (-5 / 2)) = some (-2) ∧ toInt8 (.fin (1 / 2)) = some 0 ∧ toInt8 (.fin 0) = some 0 := by decide +kernel

end Verif.Trials
