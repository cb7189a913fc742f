import Verif.PolarHelper.Model
import Mathlib.Algebra.Order.Ring.Int
import Mathlib.Data.Int.Order.Basic
import Mathlib.Tactic.NormNum
import Mathlib.Tactic.Ring
/- C49 (polar_helper.hh). -/
namespace Verif.PolarHelper

/-- The value range of `int8_t`. -/
def I8 (x : Int) : Prop := -128 ≤ x ∧ x ≤ 127

/-- Truncation to the symmetric range `[-127, 127]`. -/
def clampS (x : Int) : Int := if x < -127 then -127 else if x > 127 then 127 else x

theorem t8_id {x : Int} (h1 : -128 ≤ x) (h2 : x ≤ 127) : t8 x = x := by
  unfold t8; rw [Int.bmod_def]; omega

theorem t8_range (x : Int) : I8 (t8 x) := by
  unfold t8 I8; rw [Int.bmod_def]; omega

theorem sgn_cases (v : Int) : (v > 0 ∧ sgn v = 1) ∨ (v = 0 ∧ sgn v = 0) ∨ (v < 0 ∧ sgn v = -1) := by
  unfold sgn
  by_cases h : v > 0
  · left; exact ⟨h, by rw [if_pos h, if_neg (by omega)]; rfl⟩
  · by_cases h0 : v = 0
    · right; left; exact ⟨h0, by rw [if_neg h, if_neg (by omega)]; rfl⟩
    · right; right; exact ⟨by omega, by rw [if_neg h, if_pos (by omega)]; rfl⟩

theorem t8_clamp (x : Int) : t8 (min (max x (-127)) 127) = clampS x := by
  have h : min (max x (-127)) 127 = clampS x := by unfold clampS; split <;> [skip; split] <;> omega
  rw [h]
  exact t8_id (by unfold clampS; split <;> [skip; split] <;> omega) (by unfold clampS; split <;> [skip; split] <;> omega)

/-- Sign rule and magnitude rule of the min-sum product, for the mathematical sign `Int.sign` and
magnitudes saturated at 127. -/
def minSum (a b : Int) : Int := Int.sign a * Int.sign b * min (min |a| 127) (min |b| 127)

theorem sgn_sign (v : Int) : sgn v = Int.sign v := by
  rcases sgn_cases v with ⟨h, e⟩ | ⟨h, e⟩ | ⟨h, e⟩
  · rw [e, Int.sign_eq_one_of_pos h]
  · rw [e, h]; rfl
  · rw [e, Int.sign_eq_neg_one_of_neg h]

theorem sgn_abs_le (v : Int) : -1 ≤ sgn v ∧ sgn v ≤ 1 := by
  rcases sgn_cases v with ⟨_, e⟩ | ⟨_, e⟩ | ⟨_, e⟩ <;> omega

theorem signum_eq (v : Int) : signum v = sgn v := t8_id (by have := sgn_abs_le v; omega) (by have := sgn_abs_le v; omega)
theorem vsignum_eq (v : Int) : vsignum v = sgn v := signum_eq v

theorem abs_eq (x : Int) : |x| = if x < 0 then -x else x := by
  split
  · exact abs_of_neg ‹_›
  · exact abs_of_nonneg (by omega)

theorem qabs_eq {a : Int} (h : I8 a) : qabs a = min |a| 127 ∧ 0 ≤ qabs a ∧ qabs a ≤ 127 := by
  obtain ⟨h1, h2⟩ := h
  have e : |max a (-127)| = min |a| 127 := by
    rw [abs_eq, abs_eq]; split <;> split <;> omega
  have hp := abs_nonneg a
  unfold qabs
  rw [e, t8_id (by omega) (by omega)]
  omega

theorem neonQabs_eq {a : Int} (h : I8 a) : neonQabs a = qabs a := by
  rw [(qabs_eq h).1, abs_eq]; unfold neonQabs
  obtain ⟨h1, h2⟩ := h
  split <;> split <;> omega

theorem mmQabs_eq {a : Int} (h : I8 a) : mmQabs a = qabs a := by
  rw [(qabs_eq h).1, abs_eq]; unfold mmQabs
  obtain ⟨h1, h2⟩ := h
  dsimp only
  split
  · rw [t8_id (by omega) (by omega)]; split <;> omega
  · split <;> omega

theorem neonSignum_eq (a : Int) : neonSignum a = sgn a := by
  unfold neonSignum
  rcases sgn_cases a with ⟨h, e⟩ | ⟨h, e⟩ | ⟨h, e⟩
  · rw [e, if_neg (by omega), if_pos h]; decide
  · rw [e, if_neg (by omega), if_neg (by omega)]; decide
  · rw [e, if_pos (by omega), if_neg (by omega)]; decide

theorem mmSign_eq {a b : Int} (h1 : -128 ≤ a) (h2 : a ≤ 127) : mmSign a b = vsign a b := by
  unfold mmSign vsign
  rcases sgn_cases b with ⟨h, e⟩ | ⟨h, e⟩ | ⟨h, e⟩
  · rw [e, if_neg (by omega), if_neg (by omega), one_mul, t8_id h1 h2]
  · rw [e, if_neg (by omega), if_pos h, zero_mul]; rfl
  · rw [e, if_pos h, neg_one_mul]

theorem satAdd_eq (a b : Int) : satAdd a b = vqadd a b := by
  unfold satAdd vqadd
  rw [t8_id (by omega) (by omega)]
  split <;> [skip; split] <;> omega

theorem prod_key {a b m : Int} (h0 : 0 ≤ m) (h1 : m ≤ 127) :
    -127 ≤ sgn a * sgn b * m ∧ sgn a * sgn b * m ≤ 127 := by
  rcases sgn_cases a with ⟨_, e⟩ | ⟨_, e⟩ | ⟨_, e⟩ <;> rcases sgn_cases b with ⟨_, f⟩ | ⟨_, f⟩ | ⟨_, f⟩ <;>
    rw [e, f] <;> omega

theorem prod_eq {a b : Int} (ha : I8 a) (hb : I8 b) : prod a b = sgn a * sgn b * min (qabs a) (qabs b) := by
  unfold prod qmin
  obtain ⟨_, a0, a1⟩ := qabs_eq ha
  obtain ⟨_, b0, b1⟩ := qabs_eq hb
  have := prod_key (a := a) (b := b) (m := min (qabs a) (qabs b)) (by omega) (by omega)
  rw [signum_eq, signum_eq, t8_id (by omega) (by omega)]

theorem prodV_eq {a b : Int} (ha : I8 a) (hb : I8 b) : prodV a b = prod a b := by
  rw [prod_eq ha hb]
  unfold prodV vmin
  rw [show vqabs a = qabs a from rfl, show vqabs b = qabs b from rfl]
  obtain ⟨_, a0, a1⟩ := qabs_eq ha
  obtain ⟨_, b0, b1⟩ := qabs_eq hb
  generalize hm : min (qabs a) (qabs b) = m
  have hm0 : 0 ≤ m ∧ m ≤ 127 := by omega
  unfold vsign
  rw [vsignum_eq]
  have hk : sgn (t8 (sgn b * sgn a)) = sgn a * sgn b := by
    rcases sgn_cases a with ⟨_, e⟩ | ⟨_, e⟩ | ⟨_, e⟩ <;> rcases sgn_cases b with ⟨_, f⟩ | ⟨_, f⟩ | ⟨_, f⟩ <;>
      rw [e, f] <;> decide
  have := prod_key (a := a) (b := b) hm0.1 hm0.2
  rw [hk, t8_id (by omega) (by omega)]

theorem prodX_eq {a b : Int} (ha : I8 a) (hb : I8 b) : prodX a b = prod a b := by
  rw [← prodV_eq ha hb]
  obtain ⟨_, a0, a1⟩ := qabs_eq ha
  obtain ⟨_, b0, b1⟩ := qabs_eq hb
  unfold prodX prodV
  rw [mmQabs_eq ha, mmQabs_eq hb]
  have h1 : mmSign 1 a = vsignum a := by
    rw [mmSign_eq (by omega) (by omega)]; unfold vsign vsignum; rw [mul_one]
  have := sgn_abs_le a
  rw [h1, mmSign_eq (a := vsignum a) (by rw [vsignum_eq]; omega) (by rw [vsignum_eq]; omega),
    mmSign_eq (by unfold vmin; omega) (by unfold vmin; omega)]
  rfl

theorem prodN_eq {a b : Int} (ha : I8 a) (hb : I8 b) : prodN a b = prod a b := by
  rw [prod_eq ha hb]
  unfold prodN vmin
  rw [neonQabs_eq ha, neonQabs_eq hb, neonSignum_eq, neonSignum_eq]
  obtain ⟨_, a0, a1⟩ := qabs_eq ha
  obtain ⟨_, b0, b1⟩ := qabs_eq hb
  generalize hm : min (qabs a) (qabs b) = m
  have hm0 : 0 ≤ m ∧ m ≤ 127 := by omega
  unfold vmul
  have h1 : t8 (sgn a * sgn b) = sgn a * sgn b := by
    have := prod_key (a := a) (b := b) (m := 1) (by omega) (by omega)
    rw [mul_one] at this
    exact t8_id (by omega) (by omega)
  have := prod_key (a := a) (b := b) hm0.1 hm0.2
  rw [h1, t8_id (by omega) (by omega)]

/-! ### C49 -/

/-- The scalar `prod` is the saturating min-sum product for all `int8_t` inputs, `-128` included,
and never leaves `[-127, 127]`. -/
theorem C49_prod_spec {a b : Int} (ha : I8 a) (hb : I8 b) :
    prod a b = minSum a b ∧ -127 ≤ prod a b ∧ prod a b ≤ 127 := by
  obtain ⟨ea, a0, a1⟩ := qabs_eq ha
  obtain ⟨eb, b0, b1⟩ := qabs_eq hb
  have := prod_key (a := a) (b := b) (m := min (qabs a) (qabs b)) (by omega) (by omega)
  rw [prod_eq ha hb]
  refine ⟨?_, this.1, this.2⟩
  unfold minSum
  rw [sgn_sign, sgn_sign, ea, eb]

/-- All SIMD versions of `prod` compute the scalar `prod` in every lane, for all `int8_t` inputs. -/
theorem C49_prod_agree {a b : Int} (ha : I8 a) (hb : I8 b) :
    prodV a b = prod a b ∧ prodX a b = prod a b ∧ prodN a b = prod a b :=
  ⟨prodV_eq ha hb, prodX_eq ha hb, prodN_eq ha hb⟩

/-- All versions of `qabs` agree for all `int8_t` inputs and saturate at 127. -/
theorem C49_qabs_agree {a : Int} (ha : I8 a) :
    qabs a = min |a| 127 ∧ vqabs a = qabs a ∧ mmQabs a = qabs a ∧ neonQabs a = qabs a :=
  ⟨(qabs_eq ha).1, rfl, mmQabs_eq ha, neonQabs_eq ha⟩

/-- The scalar `madd` is `a * b + c` saturated to `[-127, 127]`, for all inputs. -/
theorem C49_madd_spec (a b c : Int) : madd a b c = clampS (a * b + c) := t8_clamp _
/-- The scalar `qadd` is `a + b` saturated to `[-127, 127]`, for all inputs. -/
theorem C49_qadd_spec (a b : Int) : qadd a b = clampS (a + b) := t8_clamp _
/-- `quant` of an integer is that integer saturated to `[-127, 127]`. -/
theorem C49_quant_spec (v : Int) : quant v = clampS v := t8_clamp _

theorem madd_core {a b c : Int} (ha : a = -1 ∨ a = 0 ∨ a = 1) (hb1 : -127 ≤ b) (hb2 : b ≤ 127) (hc : I8 c) :
    maddV a b c = clampS (a * b + c) := by
  obtain ⟨c1, c2⟩ := hc
  unfold maddV vmax
  rw [show max b (-127) = b by omega]
  have hs : vsign b a = a * b := by
    unfold vsign
    rcases ha with rfl | rfl | rfl
    · rw [show sgn (-1) = -1 from rfl]; exact t8_id (by omega) (by omega)
    · rw [show sgn 0 = 0 from rfl]; rw [zero_mul]; rfl
    · rw [show sgn 1 = 1 from rfl]; exact t8_id (by omega) (by omega)
  rw [hs]
  generalize a * b = p
  unfold vqadd clampS
  rw [t8_id (by omega) (by omega)]
  split <;> [skip; split] <;> omega

/-- Where the decoders use it — hard decisions `a ∈ {-1, 0, 1}` and soft values `b` in the
symmetric range `[-127, 127]` that `prod`, `madd` and `quant` produce — every SIMD version of
`madd` computes the scalar one, for every `int8_t` `c`. -/
theorem C49_madd_agree {a b c : Int} (ha : a = -1 ∨ a = 0 ∨ a = 1) (hb1 : -127 ≤ b) (hb2 : b ≤ 127)
    (hc : I8 c) : maddV a b c = madd a b c ∧ maddX a b c = madd a b c ∧ maddN a b c = madd a b c := by
  have h1 : maddV a b c = madd a b c := by rw [madd_core ha hb1 hb2 hc, C49_madd_spec]
  refine ⟨h1, ?_, ?_⟩
  · rw [← h1]; unfold maddX maddV
    rw [satAdd_eq, mmSign_eq (by unfold vmax; omega) (by unfold vmax; omega)]
  · rw [← h1]; unfold maddN maddV
    rw [satAdd_eq]
    have : vmul a (vmax b (-127)) = vsign (vmax b (-127)) a := by
      unfold vmul vsign
      rcases ha with rfl | rfl | rfl <;> rfl
    rw [this]

/-- The symmetric range is closed: `prod` and `madd` never produce `-128`, so a decoder fed with
quantised input stays inside the range in which all versions agree. -/
theorem C49_closed (a b c : Int) :
    (-127 ≤ prod a b ∨ ¬ (I8 a ∧ I8 b)) ∧ -127 ≤ madd a b c ∧ madd a b c ≤ 127 ∧ -127 ≤ quant a ∧ quant a ≤ 127 := by
  refine ⟨?_, ?_, ?_, ?_, ?_⟩
  · by_cases h : I8 a ∧ I8 b
    · left; exact (C49_prod_spec h.1 h.2).2.1
    · right; exact h
  all_goals first | rw [C49_madd_spec] | rw [C49_quant_spec]
  all_goals unfold clampS; split <;> [skip; split] <;> omega

/-- The same for whole registers: on lists of lanes of equal length. -/
theorem C49_lanes (a b c : List Int) (h : a.length = b.length) (h' : b.length = c.length)
    (ha : ∀ x ∈ a, x = -1 ∨ x = 0 ∨ x = 1) (hb : ∀ x ∈ b, -127 ≤ x ∧ x ≤ 127) (hc : ∀ x ∈ c, I8 x) (i : Nat)
    (hi : i < a.length) :
    maddV a[i] b[i] (c[i]) = madd a[i] b[i] c[i] ∧ prodV b[i] c[i] = prod b[i] c[i] := by
  have h1 := hb _ (List.getElem_mem (l := b) (n := i) (by omega))
  have h2 := hc _ (List.getElem_mem (l := c) (n := i) (by omega))
  exact ⟨(C49_madd_agree (ha _ (List.getElem_mem hi)) h1.1 h1.2 h2).1,
    (C49_prod_agree ⟨by omega, h1.2⟩ h2).1⟩

/-- Outside that range the versions differ: with `b = -128` the scalar `madd` uses `-128` and the
SIMD versions `-127`. -/
theorem C49_madd_minus128_differs :
    madd 1 (-128) 5 = -123 ∧ maddV 1 (-128) 5 = -122 ∧ maddX 1 (-128) 5 = -122 ∧ maddN 1 (-128) 5 = -122 := by
  decide

/-- `qadd` differs too: the scalar version saturates at `-127`, the SIMD one at `-128`; they agree
exactly when the sum is at least `-127`. -/
theorem C49_qadd_iff {a b : Int} : vqadd a b = qadd a b ↔ -127 ≤ a + b := by
  rw [C49_qadd_spec]
  unfold vqadd clampS
  rw [t8_id (by omega) (by omega)]
  split <;> [skip; split] <;> omega

/-- Hypotheses hold in concrete cases, including the extreme value. -/
example : I8 (-128) ∧ I8 127 ∧ prod (-128) 5 = -5 ∧ prod (-128) (-128) = 127 ∧ madd (-1) 100 (-100) = -127 := by
  refine ⟨by unfold I8; omega, by unfold I8; omega, by decide, by decide, by decide⟩

end Verif.PolarHelper
