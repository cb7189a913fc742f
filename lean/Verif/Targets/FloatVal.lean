import Verif.SIMD.PropsOps
import Verif.Polar.PropsFloatList
/- The numbers that the bit patterns of `float` and `double` stand for. -/
namespace Verif.Targets
open Verif.SIMD Verif.Polar

/-- The magnitude of the number whose pattern, without the sign bit, is `m`: `p` bits of precision, of which the first is not stored, then
the exponent; `emin` is the exponent of the last place of the least numbers (IEEE 754, 3.4). -/
def magv (p : Nat) (emin : ℤ) (m : Nat) : ℚ :=
  if m / 2 ^ (p - 1) = 0 then (m % 2 ^ (p - 1) : ℕ) * 2 ^ emin
  else ((2 ^ (p - 1) + m % 2 ^ (p - 1) : ℕ) : ℚ) * 2 ^ (emin + (m / 2 ^ (p - 1) : ℕ) - 1)

/-- The value of a pattern.  Both zeros have the value 0. -/
def val {w : Nat} (F : Fmt w) (p : Nat) (emin : ℤ) (a : BitVec w) : Fl :=
  if F.nan a then .nan else if F.finite a then .fin (if a.msb then -magv p emin (Fmt.mag a) else magv p emin (Fmt.mag a)) else .inf a.msb

/-- A format: patterns and the numbers they stand for. -/
structure Format (w : Nat) where
  F : Fmt w
  p : Nat
  emin : ℤ
  R : Rounding

namespace Format
variable {w : Nat} (X : Format w)

/-- The value of a pattern. -/
def val (a : BitVec w) : Fl := Targets.val X.F X.p X.emin a

/-- The numbers of the format are those with patterns. -/
structure Ok : Prop where
  w : 0 < w
  p : 1 ≤ X.p
  one : X.F.one.msb = false ∧ magv X.p X.emin X.F.one.toNat = 1
  inf : X.F.inf.msb = false ∧ magv X.p X.emin X.F.inf.toNat = X.R.huge ∧ X.F.inf.toNat % 2 ^ (X.p - 1) = 0
  rep : ∀ q, X.R.rep q ↔ Ieee.Rep X.p X.emin q

end Format

/-- `float` -/
def float32 : Format 32 := ⟨f32, 24, -149, binary32⟩
/-- `double` -/
def float64 : Format 64 := ⟨f64, 53, -1074, binary64⟩

theorem float32_ok : float32.Ok := by
  refine ⟨by norm_num, by decide, ⟨by decide, ?_⟩, ⟨by decide, ?_, by decide⟩, fun q => Iff.rfl⟩
  · show magv 24 (-149) 0x3f800000 = 1
    unfold magv
    norm_num
  · show magv 24 (-149) 0x7f800000 = 2 ^ 128
    unfold magv
    norm_num

theorem float64_ok : float64.Ok := by
  refine ⟨by norm_num, by decide, ⟨by decide, ?_⟩, ⟨by decide, ?_, by decide⟩, fun q => Iff.rfl⟩
  · show magv 53 (-1074) 0x3ff0000000000000 = 1
    unfold magv
    norm_num
  · show magv 53 (-1074) 0x7ff0000000000000 = 2 ^ 1024
    unfold magv
    norm_num
    rw [show (4503599627370496 : ℚ) = 2 ^ 52 by norm_num, ← pow_add]

/-! ### Magnitudes -/

theorem magv_zero (p : Nat) (emin : ℤ) : magv p emin 0 = 0 := by simp [magv]

theorem magv_succ_lt {p : Nat} (emin : ℤ) (m : Nat) : magv p emin m < magv p emin (m + 1) := by
  set c := 2 ^ (p - 1) with hc
  have hc0 : 0 < c := by positivity
  have hpos : ∀ e : ℤ, (0 : ℚ) < 2 ^ e := fun e => zpow_pos (by norm_num) e
  unfold magv
  rw [← hc]
  have hm := Nat.div_add_mod m c
  have hlt := Nat.mod_lt m hc0
  by_cases h : m % c + 1 = c
  · have e0 : m + 1 = c * (m / c + 1) := by rw [Nat.mul_add, Nat.mul_one]; omega
    have e1 : (m + 1) / c = m / c + 1 := by
      rw [e0, Nat.mul_div_cancel_left _ hc0]
    have e2 : (m + 1) % c = 0 := by
      rw [e0, Nat.mul_mod_right]
    rw [e1, e2, if_neg (Nat.succ_ne_zero (m / c))]
    split
    · rename_i h0
      rw [h0]
      have : ((m % c : ℕ) : ℚ) < ((c + 0 : ℕ) : ℚ) := by exact_mod_cast (by omega)
      have he : emin + ((0 + 1 : ℕ) : ℤ) - 1 = emin := by push_cast; ring
      rw [he]
      exact mul_lt_mul_of_pos_right this (hpos _)
    · have he : emin + ((m / c + 1 : ℕ) : ℤ) - 1 = (emin + ((m / c : ℕ) : ℤ) - 1) + 1 := by push_cast; ring
      rw [he, zpow_add₀ (by norm_num), zpow_one]
      have : ((c + m % c : ℕ) : ℚ) < 2 * (c : ℚ) := by exact_mod_cast (by omega)
      have := mul_lt_mul_of_pos_right this (hpos (emin + ((m / c : ℕ) : ℤ) - 1))
      push_cast at this ⊢
      linarith
  · have e1 : (m + 1) / c = m / c := by
      rw [show m + 1 = c * (m / c) + (m % c + 1) by omega, Nat.mul_add_div hc0, Nat.div_eq_of_lt (by omega : m % c + 1 < c)]; rfl
    have e2 : (m + 1) % c = m % c + 1 := by
      rw [show m + 1 = c * (m / c) + (m % c + 1) by omega, Nat.mul_add_mod, Nat.mod_eq_of_lt (by omega)]
    rw [e1, e2]
    split
    · refine mul_lt_mul_of_pos_right ?_ (hpos _)
      exact_mod_cast Nat.lt_succ_self _
    · refine mul_lt_mul_of_pos_right ?_ (hpos _)
      exact_mod_cast (by omega)

theorem magv_mono (p : Nat) (emin : ℤ) : StrictMono (magv p emin) := strictMono_nat_of_lt_succ (magv_succ_lt emin)

theorem magv_nonneg (p : Nat) (emin : ℤ) (m : Nat) : 0 ≤ magv p emin m := by
  rw [← magv_zero p emin]
  exact (magv_mono p emin).monotone (Nat.zero_le m)

theorem magv_rep {p : Nat} (hp : 1 ≤ p) (emin : ℤ) (m : Nat) : Ieee.Rep p emin (magv p emin m) := by
  have hc : 2 ^ p = 2 * 2 ^ (p - 1) := by rw [← pow_succ']; congr 1; omega
  have hlt := Nat.mod_lt m (show 0 < 2 ^ (p - 1) by positivity)
  have hz : ∀ n : Nat, n < 2 ^ p → |((n : ℕ) : ℤ)| < 2 ^ p := fun n hn => by rw [abs_of_nonneg (by positivity)]; exact_mod_cast hn
  unfold magv
  split
  · exact ⟨(m % 2 ^ (p - 1) : ℕ), emin, hz _ (by omega), le_rfl, by push_cast; rfl⟩
  · exact ⟨(2 ^ (p - 1) + m % 2 ^ (p - 1) : ℕ), emin + (m / 2 ^ (p - 1) : ℕ) - 1, hz _ (by omega), by rename_i h; have : 1 ≤ m / 2 ^ (p - 1) := Nat.one_le_iff_ne_zero.2 h; zify at this; push_cast; linarith, by push_cast; rfl⟩

/-- Every number of the format that is not negative has a magnitude. -/
theorem magv_surj {p : Nat} (hp : 1 ≤ p) (emin : ℤ) {q : ℚ} (h0 : 0 ≤ q) (hr : Ieee.Rep p emin q) : ∃ m, magv p emin m = q := by
  rcases h0.eq_or_lt with rfl | h0
  · exact ⟨0, magv_zero _ _⟩
  set e := Ieee.place p emin q with he
  have hpe := Ieee.pow_pos' e
  have hc : 2 ^ p = 2 * 2 ^ (p - 1) := by rw [← pow_succ']; congr 1; omega
  have hc0 : 0 < 2 ^ (p - 1) := by positivity
  have hemin : emin ≤ e := by rw [he]; unfold Ieee.place; omega
  have hx := Ieee.roundPos_exact h0.le hr
  unfold Ieee.roundPos at hx
  rw [← he] at hx
  set n := Ieee.nearest (q / 2 ^ e) with hn
  have hn0 : 0 ≤ n := by
    by_contra hneg
    have : (n : ℚ) < 0 := by exact_mod_cast (by omega)
    nlinarith
  have hnp : n < 2 ^ p := by
    have h1 : (n : ℚ) * 2 ^ e < 2 ^ p * 2 ^ e := by
      rw [hx, ← zpow_natCast, ← zpow_add₀ (by norm_num)]
      refine (Ieee.log_lt q).trans_le (zpow_le_zpow_right₀ (by norm_num) ?_)
      rw [he]; unfold Ieee.place; omega
    have := lt_of_mul_lt_mul_right h1 hpe.le
    exact_mod_cast this
  obtain ⟨k, hk⟩ : ∃ k : ℕ, n = k := ⟨n.toNat, by omega⟩
  rw [hk] at hx hnp
  have hkp : k < 2 * 2 ^ (p - 1) := by
    rw [← hc]; exact_mod_cast hnp
  by_cases hs : k < 2 ^ (p - 1)
  · -- subnormal
    have hee : e = emin := by
      by_contra hne
      have hl : e = Int.log 2 q + 1 - p := by rw [he] at hne ⊢; unfold Ieee.place at *; omega
      have h1 : (2 : ℚ) ^ Int.log 2 q ≤ q := Ieee.log_le h0
      have h2 : (2 : ℚ) ^ Int.log 2 q = 2 ^ (p - 1) * 2 ^ e := by
        rw [← zpow_natCast, ← zpow_add₀ (by norm_num)]
        congr 1
        omega
      rw [h2, ← hx] at h1
      have := le_of_mul_le_mul_right h1 hpe
      have : 2 ^ (p - 1) ≤ k := by exact_mod_cast this
      omega
    refine ⟨k, ?_⟩
    unfold magv
    rw [Nat.div_eq_of_lt hs, if_pos rfl, Nat.mod_eq_of_lt hs, ← hee]
    exact_mod_cast hx
  · obtain ⟨E, hE⟩ : ∃ E : ℕ, e = emin + E := ⟨(e - emin).toNat, by omega⟩
    refine ⟨2 ^ (p - 1) * (E + 1) + (k - 2 ^ (p - 1)), ?_⟩
    unfold magv
    rw [Nat.mul_add_div hc0, Nat.div_eq_of_lt (by omega : k - 2 ^ (p - 1) < 2 ^ (p - 1)), Nat.mul_add_mod, Nat.mod_eq_of_lt (by omega), if_neg (by omega), Nat.add_zero,
      show 2 ^ (p - 1) + (k - 2 ^ (p - 1)) = k by omega, show emin + ((E + 1 : ℕ) : ℤ) - 1 = e by push_cast; omega]
    exact_mod_cast hx

/-! ### Values -/
namespace Format
variable {w : Nat} {X : Format w}

theorem val_nan {a : BitVec w} : X.val a = .nan ↔ X.F.nan a := by
  unfold val Targets.val
  split
  · simp [*]
  · split <;> simp [*]

theorem mag_one (h : X.Ok) : Fmt.mag X.F.one = X.F.one.toNat := by
  have : X.F.one &&& ~~~ negz w = X.F.one := by
    apply BitVec.eq_of_getLsbD_eq
    intro i hi
    by_cases e : i = w - 1
    · subst e
      have := h.one.1
      rw [BitVec.msb_eq_getLsbD_last] at this
      simp [this]
    · simp [negz, hi, e]
  unfold Fmt.mag; rw [this]

theorem one_lt_inf (h : X.Ok) : X.F.one.toNat < X.F.inf.toNat := by
  refine (magv_mono X.p X.emin).lt_iff_lt.1 ?_
  rw [h.one.2, h.inf.2.1]; exact X.R.one_lt

theorem magv_huge (h : X.Ok) {m : Nat} : magv X.p X.emin m < X.R.huge ↔ m < X.F.inf.toNat := by
  rw [← h.inf.2.1]; exact (magv_mono X.p X.emin).lt_iff_lt

theorem val_fin {a : BitVec w} (h : X.F.finite a) : X.val a = .fin (if a.msb then -magv X.p X.emin (Fmt.mag a) else magv X.p X.emin (Fmt.mag a)) := by
  have : ¬ X.F.nan a := LL.not_nan_of_finite _ h
  unfold val Targets.val
  rw [if_neg this, if_pos h]

theorem val_zero_mag (h : X.Ok) {a : BitVec w} (ha : Fmt.mag a = 0) : X.val a = .fin 0 := by
  rw [val_fin (by unfold Fmt.finite; rw [ha]; have := one_lt_inf h; omega), ha, magv_zero]
  simp

theorem val_zero (h : X.Ok) : X.val 0 = .fin 0 := val_zero_mag h (by simp [Fmt.mag])

theorem val_same (h : X.Ok) {a b : BitVec w} (hs : Fmt.same a b) : X.val a = X.val b := by
  rcases hs with rfl | ⟨h1, h2⟩
  · rfl
  · rw [val_zero_mag h h1, val_zero_mag h h2]

theorem val_one (h : X.Ok) : X.val X.F.one = .fin 1 := by
  have hf : X.F.finite X.F.one := by unfold Fmt.finite; rw [mag_one h]; exact one_lt_inf h
  rw [val_fin hf, h.one.1, mag_one h, h.one.2]; rfl

theorem mag_neg (a : BitVec w) : Fmt.mag (a ^^^ negz w) = Fmt.mag a := by
  unfold Fmt.mag
  congr 1
  apply BitVec.eq_of_getLsbD_eq
  intro i hi
  by_cases e : i = w - 1
  · subst e; simp [negz, BitVec.getLsbD_twoPow]
  · simp [negz, BitVec.getLsbD_twoPow, Ne.symm e]

theorem msb_neg (hw : 0 < w) (a : BitVec w) : (a ^^^ negz w).msb = !a.msb := by
  rw [BitVec.msb_xor]
  have : (negz w).msb = true := by rw [BitVec.msb_eq_getLsbD_last]; simp [negz, hw]
  rw [this]; simp

theorem val_neg_one (h : X.Ok) : X.val (X.F.one ^^^ negz w) = .fin (-1) := by
  have hf : X.F.finite (X.F.one ^^^ negz w) := by unfold Fmt.finite; rw [mag_neg, mag_one h]; exact one_lt_inf h
  rw [val_fin hf, msb_neg h.w, h.one.1, mag_neg, mag_one h, h.one.2]; rfl

theorem vabs_mag (a : BitVec w) : Fmt.mag (Fmt.vabs a) = Fmt.mag a := by
  unfold Fmt.mag Fmt.vabs
  rw [BitVec.and_assoc, BitVec.and_self]

theorem vabs_msb (a : BitVec w) : (Fmt.vabs a).msb = false := by
  unfold Fmt.vabs
  rw [BitVec.msb_and]
  rcases Nat.eq_zero_or_pos w with rfl | hw
  · simp [BitVec.msb_eq_getLsbD_last]
  · have : (negz w).msb = true := by rw [BitVec.msb_eq_getLsbD_last]; simp [negz, hw]
    rw [BitVec.msb_not, this]; simp

theorem val_abs (a : BitVec w) : X.val (Fmt.vabs a) = Fl.abs (X.val a) := by
  have h1 : X.F.nan (Fmt.vabs a) ↔ X.F.nan a := by unfold Fmt.nan; rw [vabs_mag]
  have h2 : X.F.finite (Fmt.vabs a) ↔ X.F.finite a := by unfold Fmt.finite; rw [vabs_mag]
  unfold val Targets.val
  simp only [h1, h2]
  rw [vabs_mag, vabs_msb]
  split
  · rfl
  · split
    · show Fl.fin _ = Fl.fin |_|
      have := magv_nonneg X.p X.emin (Fmt.mag a)
      cases a.msb <;> simp [abs_of_nonneg this]
    · rfl

/-- The order of the patterns is the order of the values. -/
theorem val_lt (h : X.Ok) (a b : BitVec w) : Fl.lt (X.val a) (X.val b) = decide (X.F.flt a b) := by
  have hm := magv_mono X.p X.emin
  have n0 := magv_nonneg X.p X.emin
  unfold Fmt.flt
  by_cases ha : X.F.nan a
  · rw [val_nan.2 ha]; simp [ha, Fl.lt]
  by_cases hb : X.F.nan b
  · rw [val_nan.2 hb]; cases X.val a <;> simp [hb, Fl.lt]
  simp only [ha, hb, not_false_iff, true_and]
  have key : ∀ c : BitVec w, ¬ X.F.nan c → ¬ X.F.finite c → Fmt.mag c = X.F.inf.toNat := fun c h1 h2 => by
    unfold Fmt.nan at h1; unfold Fmt.finite at h2; omega
  have hz : ∀ {m n : Nat}, (magv X.p X.emin m < magv X.p X.emin n) = (m < n) := fun {m n} => propext hm.lt_iff_lt
  have hv : ∀ c : BitVec w, ¬ X.F.nan c → ¬ X.F.finite c → X.val c = .inf c.msb := fun c h1 h2 => by unfold val Targets.val; rw [if_neg h1, if_neg h2]
  have i0 : 0 < X.F.inf.toNat := by have := one_lt_inf h; omega
  by_cases fa : X.F.finite a <;> by_cases fb : X.F.finite b
  · rw [val_fin fa, val_fin fb]
    show decide (_ < _) = _
    refine decide_eq_decide.2 ?_
    unfold Fmt.key
    have e : ∀ m n : Nat, (-magv X.p X.emin m < magv X.p X.emin n) ↔ (0 < m ∨ 0 < n) := by
      intro m n
      have hm0 : 0 < magv X.p X.emin m ↔ 0 < m := by rw [← magv_zero X.p X.emin]; exact hm.lt_iff_lt
      have hn0 : 0 < magv X.p X.emin n ↔ 0 < n := by rw [← magv_zero X.p X.emin]; exact hm.lt_iff_lt
      rw [← hm0, ← hn0]
      constructor
      · intro hlt
        by_contra hc
        have := n0 m; have := n0 n
        push Not at hc
        linarith
      · rintro (hh | hh)
        · have := n0 n; linarith
        · have := n0 m; linarith
    have e' : ∀ m n : Nat, ¬ (magv X.p X.emin m < -magv X.p X.emin n) := by
      intro m n hlt
      have := n0 m; have := n0 n
      linarith
    cases a.msb <;> cases b.msb <;> simp only [if_true, if_false, Bool.false_eq_true]
    · rw [hz]; omega
    · exact ⟨fun hc => absurd hc (e' _ _), fun hc => by omega⟩
    · rw [e]; omega
    · rw [neg_lt_neg_iff, hz]; omega
  · rw [val_fin fa, hv b hb fb]
    have := key b hb fb
    unfold Fmt.finite at fa
    unfold Fmt.key
    cases b.msb <;> cases a.msb <;> simp [Fl.lt] <;> omega
  · rw [val_fin fb, hv a ha fa]
    have := key a ha fa
    unfold Fmt.finite at fb
    unfold Fmt.key
    cases b.msb <;> cases a.msb <;> simp [Fl.lt] <;> omega
  · rw [hv a ha fa, hv b hb fb]
    have h1 := key a ha fa
    have h2 := key b hb fb
    unfold Fmt.key
    cases b.msb <;> cases a.msb <;> simp [Fl.lt] <;> omega

theorem val_min (h : X.Ok) (a b : BitVec w) : X.val (X.F.vmin a b) = Fl.min (X.val a) (X.val b) := by
  unfold Fmt.vmin Fl.min
  rw [val_lt h]
  by_cases hc : X.F.flt b a <;> simp [hc]

theorem val_sgn (h : X.Ok) {x : Int} (hx : Sym x) : X.val (X.F.ofSgn x) = flSym x := by
  rcases hx with rfl | rfl
  · rw [LL.ofSgn_pos, val_one h]; simp [flSym]
  · rw [LL.ofSgn_neg, val_neg_one h]; simp [flSym]

theorem val_signum (h : X.Ok) (a : BitVec w) : X.val (X.F.vsignum a) = Fl.signum (X.val a) := by
  unfold Fmt.vsignum Fmt.fsgn Fl.signum
  rw [← val_zero h, val_lt h, val_lt h]
  by_cases h1 : X.F.flt 0 a <;> by_cases h2 : X.F.flt a 0
  · exfalso; unfold Fmt.flt at h1 h2; omega
  · simp only [h1, h2, if_true, if_false, decide_true, decide_false, Bool.false_eq_true, sub_zero, LL.ofSgn_pos, val_one h]
  · simp only [h1, h2, if_true, if_false, decide_true, decide_false, Bool.false_eq_true, zero_sub, LL.ofSgn_neg, val_neg_one h]
  · simp only [h1, h2, if_false, decide_false, Bool.false_eq_true, sub_zero, LL.ofSgn_zero, val_zero h]

/-- A finite pattern stands for a number of the format. -/
theorem val_rep (h : X.Ok) {a : BitVec w} {q : ℚ} (e : X.val a = .fin q) : X.R.rep q ∧ |q| < X.R.huge := by
  have hf : X.F.finite a := by
    by_contra hc
    unfold val Targets.val at e
    rw [if_neg hc] at e
    split at e <;> cases e
  rw [val_fin hf] at e
  injection e with e
  have hr := (h.rep _).2 (magv_rep h.p X.emin (Fmt.mag a))
  have hh := (magv_huge h).2 hf
  have n0 := magv_nonneg X.p X.emin (Fmt.mag a)
  subst e
  split
  · exact ⟨X.R.neg _ hr, by rwa [abs_neg, abs_of_nonneg n0]⟩
  · exact ⟨hr, by rwa [abs_of_nonneg n0]⟩

theorem ofNat_parts (h : X.Ok) {m : Nat} (hm : m ≤ X.F.inf.toNat) : (BitVec.ofNat w m).msb = false ∧ Fmt.mag (BitVec.ofNat w m) = m := by
  have hi := h.inf.1
  rw [BitVec.msb_eq_false_iff_two_mul_lt] at hi
  have hlt : m < 2 ^ w := by have := X.F.inf.isLt; omega
  have hm' : (BitVec.ofNat w m).msb = false := by
    rw [BitVec.msb_eq_false_iff_two_mul_lt, BitVec.toNat_ofNat, Nat.mod_eq_of_lt hlt]; omega
  refine ⟨hm', ?_⟩
  have : BitVec.ofNat w m &&& ~~~ negz w = BitVec.ofNat w m := by
    apply BitVec.eq_of_getLsbD_eq
    intro i hi
    by_cases e : i = w - 1
    · subst e
      rw [BitVec.msb_eq_getLsbD_last] at hm'
      rw [BitVec.getLsbD_and, hm']; simp
    · simp [negz, e, hi]
  unfold Fmt.mag
  rw [this, BitVec.toNat_ofNat, Nat.mod_eq_of_lt hlt]

/-- Every number of the format, every infinity and NaN has a pattern. -/
theorem val_surj (h : X.Ok) (hnan : X.F.inf.toNat + 1 < 2 ^ (w - 1)) {x : Fl} (hx : x = .nan ∨ Fl.Num X.R x) : ∃ a, X.val a = x := by
  have hi := h.inf.1
  rw [BitVec.msb_eq_false_iff_two_mul_lt] at hi
  have hpos : ∀ q : ℚ, 0 ≤ q → X.R.rep q → q < X.R.huge → ∃ m, m < X.F.inf.toNat ∧ magv X.p X.emin m = q := by
    intro q h0 hr hh
    obtain ⟨m, rfl⟩ := magv_surj h.p X.emin h0 ((h.rep q).1 hr)
    exact ⟨m, (magv_huge h).1 hh, rfl⟩
  rcases hx with rfl | hx
  · refine ⟨BitVec.ofNat w (X.F.inf.toNat + 1), val_nan.2 ?_⟩
    have hw : 2 ^ w = 2 * 2 ^ (w - 1) := by rw [← pow_succ']; congr 1; have := h.w; omega
    have hm' : (BitVec.ofNat w (X.F.inf.toNat + 1)).msb = false := by
      rw [BitVec.msb_eq_false_iff_two_mul_lt, BitVec.toNat_ofNat, Nat.mod_eq_of_lt (by omega)]; omega
    have : BitVec.ofNat w (X.F.inf.toNat + 1) &&& ~~~ negz w = BitVec.ofNat w (X.F.inf.toNat + 1) := by
      apply BitVec.eq_of_getLsbD_eq
      intro i hi
      by_cases e : i = w - 1
      · subst e
        rw [BitVec.msb_eq_getLsbD_last] at hm'
        rw [BitVec.getLsbD_and, hm']; simp
      · simp [negz, e, hi]
    unfold Fmt.nan Fmt.mag
    rw [this, BitVec.toNat_ofNat, Nat.mod_eq_of_lt (by omega)]
    omega
  · cases x with
    | nan => exact hx.elim
    | inf s =>
      obtain ⟨m1, m2⟩ := ofNat_parts h (m := X.F.inf.toNat) le_rfl
      have hn : ∀ b : BitVec w, Fmt.mag b = X.F.inf.toNat → X.val b = .inf b.msb := by
        intro b hb
        unfold val Targets.val
        rw [if_neg (by unfold Fmt.nan; omega), if_neg (by unfold Fmt.finite; omega)]
      cases s with
      | false => exact ⟨_, (hn _ m2).trans (by rw [m1])⟩
      | true => exact ⟨BitVec.ofNat w X.F.inf.toNat ^^^ negz w, (hn _ (by rw [mag_neg, m2])).trans (by rw [msb_neg h.w, m1]; rfl)⟩
    | fin q =>
      obtain ⟨hr, hh⟩ := hx
      rcases le_total 0 q with h0 | h0
      · rw [abs_of_nonneg h0] at hh
        obtain ⟨m, hm, rfl⟩ := hpos q h0 hr hh
        obtain ⟨m1, m2⟩ := ofNat_parts h (m := m) hm.le
        refine ⟨BitVec.ofNat w m, ?_⟩
        rw [val_fin (by unfold Fmt.finite; rw [m2]; exact hm), m1, m2]; rfl
      · rw [abs_of_nonpos h0] at hh
        obtain ⟨m, hm, e⟩ := hpos (-q) (by linarith) (X.R.neg q hr) hh
        obtain ⟨m1, m2⟩ := ofNat_parts h (m := m) hm.le
        refine ⟨BitVec.ofNat w m ^^^ negz w, ?_⟩
        rw [val_fin (by unfold Fmt.finite; rw [mag_neg, m2]; exact hm), msb_neg h.w, m1, mag_neg, m2, e]
        simp

end Format
end Verif.Targets
