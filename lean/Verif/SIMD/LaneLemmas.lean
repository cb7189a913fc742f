import Verif.SIMD.Intrin
import Mathlib.Tactic.Ring
import Mathlib.Tactic.Positivity
import Mathlib.Order.Lattice
import Mathlib.Algebra.Order.Group.Unbundled.Int
/- One lane of the instruction sequences of the back ends is one lane of the portable templates. -/
namespace Verif.SIMD
namespace LL
variable {w : Nat}

theorem pow_pos' (w : Nat) : (0 : Int) < 2 ^ w := by positivity

theorem sat (x : Int) : I.satS w x = BitVec.ofInt w (min (max x (-2 ^ (w - 1))) (2 ^ (w - 1) - 1)) := by
  have := pow_pos' (w - 1)
  unfold I.satS
  split
  · congr 1; omega
  · split
    · congr 1; omega
    · congr 1; omega

theorem adds (a b : BitVec w) : I.adds a b = P.vqadd a b := sat _
theorem subs (a b : BitVec w) : I.subs a b = P.vqsub a b := sat _

theorem subus (a b : BitVec w) : I.subus a b = P.vqsubU a b := by
  unfold I.subus P.vqsubU
  split
  · rw [max_eq_right (by omega)]; rfl
  · rename_i h
    rw [max_eq_left (by omega), ← BitVec.toInt_inj]
    apply BitVec.toInt_inj.2
    apply BitVec.eq_of_toNat_eq
    rw [BitVec.toNat_sub_of_le (by rw [BitVec.le_def]; omega), BitVec.toNat_ofInt]
    have := a.isLt
    have h2 : ((a.toNat : Int) - (b.toNat : Int)) = ((a.toNat - b.toNat : Nat) : Int) := by omega
    rw [h2]
    have h3 : (((a.toNat - b.toNat : Nat) : Int) % ((2 ^ w : Nat) : Int)) = ((a.toNat - b.toNat : Nat) : Int) :=
      Int.emod_eq_of_lt (by omega) (by omega)
    rw [h3]; rfl

theorem add (a b : BitVec w) : a + b = P.vadd a b := by
  unfold P.vadd; rw [BitVec.ofInt_add, BitVec.ofInt_toInt, BitVec.ofInt_toInt]
theorem sub (a b : BitVec w) : a - b = P.vsub a b := by
  unfold P.vsub; rw [sub_eq_add_neg a.toInt, BitVec.ofInt_add, BitVec.ofInt_neg, BitVec.ofInt_toInt, BitVec.ofInt_toInt, BitVec.sub_eq_add_neg]
theorem mul (a b : BitVec w) : a * b = P.vmul a b := by
  unfold P.vmul; rw [BitVec.ofInt_mul, BitVec.ofInt_toInt, BitVec.ofInt_toInt]
theorem neg (a : BitVec w) : -a = P.vneg a := by
  unfold P.vneg; rw [BitVec.ofInt_neg, BitVec.ofInt_toInt]

theorem smin (a b : BitVec w) : I.smin a b = P.vmin a b := by
  unfold I.smin P.vmin
  split <;> split
  · omega
  · rfl
  · rfl
  · exact BitVec.eq_of_toInt_eq (by omega)
theorem smax (a b : BitVec w) : I.smax a b = P.vmax a b := by
  unfold I.smax P.vmax
  split <;> split
  · omega
  · rfl
  · rfl
  · exact BitVec.eq_of_toInt_eq (by omega)
theorem sclamp (x a b : BitVec w) : I.smin (I.smax x a) b = P.vclamp x a b := by rw [smin, smax]; rfl

theorem eq0_iff (a : BitVec w) : a = 0 ↔ a.toInt = 0 := by
  rw [← BitVec.toInt_inj]; simp

theorem cmpeqz (a : BitVec w) : I.cmpeq a 0 = P.vceqz a := by
  unfold I.cmpeq P.vceqz mask; simp only [eq0_iff, decide_eq_true_eq]
theorem cmpeq (a b : BitVec w) : I.cmpeq a b = P.vceq a b := by
  unfold I.cmpeq P.vceq mask; simp only [BitVec.toInt_inj, decide_eq_true_eq]
theorem cmpgtz (a : BitVec w) : I.cmpgt a 0 = P.vcgtz a := by
  unfold I.cmpgt P.vcgtz mask; simp
theorem cmpgtz' (a : BitVec w) : I.cmpgt 0 a = P.vcltz a := by
  unfold I.cmpgt P.vcltz mask; simp
theorem cmpltz (a : BitVec w) : I.cmplt a 0 = P.vcltz a := by
  unfold I.cmplt P.vcltz mask; simp
theorem cmplez (a : BitVec w) : I.cmple a 0 = P.vclez a := by
  unfold I.cmple P.vclez mask; simp
theorem eqgt (a : BitVec w) : I.cmpeq a 0 ||| I.cmpgt 0 a = P.vclez a := by
  rw [cmpeqz, cmpgtz']
  unfold P.vceqz P.vcltz P.vclez mask
  rcases lt_trichotomy a.toInt 0 with h | h | h
  · simp [h, h.ne, h.le]
  · simp [h]
  · simp [h.ne', not_lt.2 h.le, not_le.2 h]

theorem ofInt_sgn_pos {x : Int} (h : 0 < x) : sgnOf x = 1 := by unfold sgnOf; simp [h, not_lt.2 h.le]
theorem ofInt_sgn_neg {x : Int} (h : x < 0) : sgnOf x = -1 := by unfold sgnOf; simp [h, not_lt.2 h.le]
theorem ofInt_sgn_zero : sgnOf 0 = 0 := rfl

theorem sign (a b : BitVec w) : I.sign a b = P.vsign a b := by
  unfold I.sign P.vsign
  rw [BitVec.ofInt_mul, BitVec.ofInt_toInt]
  rcases lt_trichotomy b.toInt 0 with h | h | h
  · rw [if_pos h, ofInt_sgn_neg h, BitVec.ofInt_neg]; simp
  · rw [if_neg (by omega), if_pos ((eq0_iff b).2 h), h, ofInt_sgn_zero]; simp
  · rw [if_neg (by omega), if_neg (fun e => by rw [(eq0_iff b).1 e] at h; omega), ofInt_sgn_pos h]; simp

theorem ofInt_one : BitVec.ofInt w 1 = 1 := by simp

theorem signum (a : BitVec w) : I.sign 1 a = P.vsignum a := by
  rw [sign]
  unfold P.vsignum P.vsign
  rw [BitVec.ofInt_mul, BitVec.ofInt_toInt]
  simp

theorem nsignum (a : BitVec w) : I.cmpgt 0 a ||| (I.cmpgt a 0 &&& 1) = P.vsignum a := by
  rw [cmpgtz', cmpgtz]
  unfold P.vcltz P.vcgtz P.vsignum mask
  rcases lt_trichotomy a.toInt 0 with h | h | h
  · rw [ofInt_sgn_neg h, BitVec.ofInt_neg, ofInt_one]; simp [h, not_lt.2 h.le, BitVec.neg_one_eq_allOnes]
  · rw [h]; simp [ofInt_sgn_zero]
  · rw [ofInt_sgn_pos h]; simp [h, not_lt.2 h.le]

theorem nsign (a b : BitVec w) : (I.cmpgt 0 b &&& (-a)) ||| (I.cmpgt b 0 &&& a) = P.vsign a b := by
  rw [cmpgtz', cmpgtz]
  unfold P.vcltz P.vcgtz P.vsign mask
  rw [BitVec.ofInt_mul, BitVec.ofInt_toInt]
  rcases lt_trichotomy b.toInt 0 with h | h | h
  · rw [ofInt_sgn_neg h, BitVec.ofInt_neg]; simp [h, not_lt.2 h.le]
  · rw [h]; simp [ofInt_sgn_zero]
  · rw [ofInt_sgn_pos h]; simp [h, not_lt.2 h.le]

/-- `abs(max(a, -MAX))` -/
theorem qabs {c : Int} (hw : 0 < w) (hc : c = -(2 ^ (w - 1) - 1)) (a : BitVec w) : I.abs (I.smax a (BitVec.ofInt w c)) = P.vqabs a := by
  have hp := pow_pos' (w - 1)
  have hcs : (BitVec.ofInt w c).toInt = c := by
    rw [BitVec.toInt_ofInt]
    have e : ((2 ^ w : Nat) : Int) = 2 * 2 ^ (w - 1) := by
      conv_lhs => rw [show w = (w - 1) + 1 by omega, pow_succ]
      push_cast; ring
    rw [Int.bmod_eq_of_le (by rw [e]; omega) (by rw [e]; omega)]
  have e2 : (I.smax a (BitVec.ofInt w c)).toInt = max a.toInt c := by
    unfold I.smax; split
    · omega
    · rw [hcs] at *; omega
  unfold I.abs P.vqabs
  rw [← hc, ← e2]
  split
  · rename_i h; rw [abs_of_neg h, BitVec.ofInt_neg, BitVec.ofInt_toInt]
  · rename_i h; rw [abs_of_nonneg (by omega), BitVec.ofInt_toInt]

theorem sqabs (hw : 0 < w) (a : BitVec w) : I.qabs a = P.vqabs a := by
  have hp := pow_pos' (w - 1)
  have hlo : -2 ^ (w - 1) ≤ a.toInt := BitVec.le_toInt a
  unfold I.qabs P.vqabs
  split
  · rename_i h
    rw [sat]
    congr 1
    rw [abs_of_nonpos (by omega)]
    omega
  · rename_i h
    rw [max_eq_left (by omega), abs_of_nonneg (by omega), BitVec.ofInt_toInt]

theorem bic (a b : BitVec w) : ~~~ b &&& a = P.vbic a b := by unfold P.vbic; rw [BitVec.and_comm]

/-! ### floats -/
variable (F : Fmt w)

theorem fceqz (a : BitVec w) : I.fcmpeq F a 0 = F.vceqz a := by unfold I.fcmpeq Fmt.vceqz mask; simp
theorem fceq (a b : BitVec w) : I.fcmpeq F a b = F.vceq a b := by unfold I.fcmpeq Fmt.vceq mask; simp
theorem fcgtz (a : BitVec w) : I.fcmpgt F a 0 = F.vcgtz a := by unfold I.fcmpgt Fmt.vcgtz mask; simp
theorem fcltz (a : BitVec w) : I.fcmplt F a 0 = F.vcltz a := by unfold I.fcmplt Fmt.vcltz mask; simp
theorem fclez (a : BitVec w) : I.fcmple F a 0 = F.vclez a := by unfold I.fcmple Fmt.vclez mask; simp
theorem fabs (a : BitVec w) : ~~~ negz w &&& a = Fmt.vabs a := by unfold Fmt.vabs; rw [BitVec.and_comm]
theorem fabsN (a : BitVec w) : a &&& ~~~ negz w = Fmt.vabs a := rfl
theorem fcopysign (a b : BitVec w) : (~~~ negz w &&& a) ||| (negz w &&& b) = Fmt.vcopysign a b := by
  unfold Fmt.vcopysign; rw [BitVec.and_comm a]
theorem fcopysignN (a b : BitVec w) : (a &&& ~~~ negz w) ||| (b &&& negz w) = Fmt.vcopysign a b := by
  unfold Fmt.vcopysign; rw [BitVec.and_comm b]

theorem negz_and (hw : 0 < w) (a : BitVec w) : negz w &&& a = if a.msb then negz w else 0 := by
  apply BitVec.eq_of_getLsbD_eq
  intro i hi
  by_cases h : i = w - 1
  · subst h
    cases hm : a.msb <;> simp [negz, BitVec.getLsbD_twoPow, hw, BitVec.msb_eq_getLsbD_last] at hm ⊢ <;> simp [hm]
  · cases hm : a.msb <;> simp [negz, BitVec.getLsbD_twoPow, Ne.symm h]

theorem key_zero (hw : 0 < w) : Fmt.key (0 : BitVec w) = 0 := by simp [Fmt.key, Fmt.mag]
theorem nan_zero : ¬ F.nan (0 : BitVec w) := by simp [Fmt.nan, Fmt.mag]

theorem key_eq_zero (a : BitVec w) : Fmt.key a = 0 ↔ Fmt.mag a = 0 := by
  unfold Fmt.key; split <;> omega
theorem key_neg_iff (a : BitVec w) : Fmt.key a < 0 ↔ a.msb = true ∧ Fmt.mag a ≠ 0 := by
  unfold Fmt.key; split <;> rename_i h <;> simp [h] <;> omega
theorem key_pos_iff (a : BitVec w) : 0 < Fmt.key a ↔ a.msb = false ∧ Fmt.mag a ≠ 0 := by
  unfold Fmt.key; split <;> rename_i h <;> simp [h] <;> omega

theorem msb_mag (hw : 0 < w) {a b : BitVec w} (h1 : a.msb = b.msb) (h2 : Fmt.mag a = Fmt.mag b) : a = b := by
  have e := BitVec.eq_of_toNat_eq h2
  apply BitVec.eq_of_getLsbD_eq
  intro i hi
  by_cases h : i = w - 1
  · subst h; simpa [BitVec.msb_eq_getLsbD_last] using h1
  · have := congrArg (fun x => BitVec.getLsbD x i) e
    simpa [negz, BitVec.getLsbD_twoPow, h, hi] using this

theorem same_iff (hw : 0 < w) (a b : BitVec w) : Fmt.same a b ↔ Fmt.key a = Fmt.key b := by
  unfold Fmt.same
  constructor
  · rintro (h | ⟨h1, h2⟩)
    · rw [h]
    · rw [(key_eq_zero a).2 h1, (key_eq_zero b).2 h2]
  · intro h
    by_cases hm : a.msb = b.msb
    · left
      apply msb_mag hw hm
      unfold Fmt.key at h
      rw [hm] at h
      split at h <;> omega
    · right
      unfold Fmt.key at h
      cases ha : a.msb <;> cases hb : b.msb <;> simp [ha, hb] at h hm <;> omega

theorem fsgn_eq (hw : 0 < w) {a : BitVec w} (h : ¬ F.nan a) : F.fsgn a = sgnOf (Fmt.key a) := by
  unfold Fmt.fsgn sgnOf Fmt.flt
  simp only [h, nan_zero F, key_zero hw, not_false_iff, true_and, gt_iff_lt]

theorem ofSgn_pos : F.ofSgn 1 = F.one := by simp [Fmt.ofSgn]
theorem ofSgn_neg : F.ofSgn (-1) = F.one ^^^ negz w := by simp [Fmt.ofSgn]
theorem ofSgn_zero : F.ofSgn 0 = 0 := by simp [Fmt.ofSgn]

theorem fcmpeqz_eq (hw : 0 < w) {a : BitVec w} (h : ¬ F.nan a) : I.fcmpeq F a 0 = if Fmt.mag a = 0 then BitVec.allOnes w else 0 := by
  unfold I.fcmpeq Fmt.feq
  simp only [h, nan_zero F, key_zero hw, key_eq_zero, not_false_iff, true_and]

theorem fsignum (hw : 0 < w) (h1 : F.one ||| negz w = F.one ^^^ negz w) {a : BitVec w} (h : ¬ F.nan a) :
    ~~~ (I.fcmpeq F a 0) &&& (F.one ||| (negz w &&& a)) = F.vsignum a := by
  unfold Fmt.vsignum
  rw [fsgn_eq F hw h, fcmpeqz_eq F hw h, negz_and hw]
  rcases lt_trichotomy (Fmt.key a) 0 with hk | hk | hk
  · obtain ⟨h2, h3⟩ := (key_neg_iff a).1 hk
    rw [ofInt_sgn_neg hk, ofSgn_neg, if_neg h3, if_pos h2, h1]; simp
  · rw [hk, ofInt_sgn_zero, ofSgn_zero, if_pos ((key_eq_zero a).1 hk)]; simp
  · obtain ⟨h2, h3⟩ := (key_pos_iff a).1 hk
    rw [ofInt_sgn_pos hk, ofSgn_pos, if_neg h3, if_neg (by simp [h2])]; simp

theorem fsignumN (hw : 0 < w) {a : BitVec w} (h : ¬ F.nan a) :
    (F.one ^^^ (negz w &&& a)) &&& ~~~ (I.fcmpeq F a 0) = F.vsignum a := by
  unfold Fmt.vsignum
  rw [fsgn_eq F hw h, fcmpeqz_eq F hw h, negz_and hw]
  rcases lt_trichotomy (Fmt.key a) 0 with hk | hk | hk
  · obtain ⟨h2, h3⟩ := (key_neg_iff a).1 hk
    rw [ofInt_sgn_neg hk, ofSgn_neg, if_neg h3, if_pos h2]; simp
  · rw [hk, ofInt_sgn_zero, ofSgn_zero, if_pos ((key_eq_zero a).1 hk)]; simp
  · obtain ⟨h2, h3⟩ := (key_pos_iff a).1 hk
    rw [ofInt_sgn_pos hk, ofSgn_pos, if_neg h3, if_neg (by simp [h2])]; simp

theorem not_nan_of_finite {a : BitVec w} (h : F.finite a) : ¬ F.nan a := by unfold Fmt.finite at h; unfold Fmt.nan; omega

theorem fsign (hw : 0 < w) {m : BitVec w → BitVec w → BitVec w} (hm : F.MulLaws m) {a b : BitVec w} (ha : F.finite a) (h : ¬ F.nan b) :
    Fmt.same (~~~ (I.fcmpeq F b 0) &&& (a ^^^ (negz w &&& b))) (F.vsign m a b) := by
  unfold Fmt.vsign
  rw [fsgn_eq F hw h, fcmpeqz_eq F hw h, negz_and hw]
  rcases lt_trichotomy (Fmt.key b) 0 with hk | hk | hk
  · obtain ⟨h2, h3⟩ := (key_neg_iff b).1 hk
    rw [ofInt_sgn_neg hk, ofSgn_neg, if_neg h3, if_pos h2, hm.neg a (not_nan_of_finite F ha)]; left; simp
  · rw [hk, ofInt_sgn_zero, ofSgn_zero, if_pos ((key_eq_zero b).1 hk)]
    right
    refine ⟨?_, hm.zero a ha⟩
    simp [Fmt.mag]
  · obtain ⟨h2, h3⟩ := (key_pos_iff b).1 hk
    rw [ofInt_sgn_pos hk, ofSgn_pos, if_neg h3, if_neg (by simp [h2]), hm.one a (not_nan_of_finite F ha)]; left; simp

theorem fsignN (hw : 0 < w) {m : BitVec w → BitVec w → BitVec w} (hm : F.MulLaws m) {a b : BitVec w} (ha : F.finite a) (h : ¬ F.nan b) :
    Fmt.same ((a ^^^ (negz w &&& b)) &&& ~~~ (I.fcmpeq F b 0)) (F.vsign m a b) := by
  rw [BitVec.and_comm]; exact fsign F hw hm ha h

/-- `r` is a number whose key is `x`. -/
def KeyIs (r : BitVec w) (x : Int) : Prop := ¬ F.nan r ∧ Fmt.key r = x

theorem kP_min {a b : BitVec w} (ha : ¬ F.nan a) (hb : ¬ F.nan b) : KeyIs F (F.vmin a b) (min (Fmt.key a) (Fmt.key b)) := by
  unfold Fmt.vmin Fmt.flt KeyIs
  simp only [ha, hb, not_false_iff, true_and]
  split
  · exact ⟨hb, by omega⟩
  · exact ⟨ha, by omega⟩
theorem kP_max {a b : BitVec w} (ha : ¬ F.nan a) (hb : ¬ F.nan b) : KeyIs F (F.vmax a b) (max (Fmt.key a) (Fmt.key b)) := by
  unfold Fmt.vmax Fmt.flt KeyIs
  simp only [ha, hb, not_false_iff, true_and]
  split
  · exact ⟨hb, by omega⟩
  · exact ⟨ha, by omega⟩
theorem kX_min {a b : BitVec w} (ha : ¬ F.nan a) (hb : ¬ F.nan b) : KeyIs F (I.fminX F a b) (min (Fmt.key a) (Fmt.key b)) := by
  unfold I.fminX Fmt.flt KeyIs
  simp only [ha, hb, not_false_iff, true_and]
  split
  · exact ⟨ha, by omega⟩
  · exact ⟨hb, by omega⟩
theorem kX_max {a b : BitVec w} (ha : ¬ F.nan a) (hb : ¬ F.nan b) : KeyIs F (I.fmaxX F a b) (max (Fmt.key a) (Fmt.key b)) := by
  unfold I.fmaxX Fmt.flt KeyIs
  simp only [ha, hb, not_false_iff, true_and]
  split
  · exact ⟨ha, by omega⟩
  · exact ⟨hb, by omega⟩

theorem mag_or {a b : BitVec w} (ha : Fmt.mag a = 0) (hb : Fmt.mag b = 0) : Fmt.mag (a ||| b) = 0 := by
  unfold Fmt.mag at *
  rw [BitVec.and_or_distrib_right]
  simp [ha, hb]
theorem mag_and {a b : BitVec w} (ha : Fmt.mag a = 0) : Fmt.mag (a &&& b) = 0 := by
  unfold Fmt.mag at *
  rw [BitVec.and_assoc, BitVec.and_comm b, ← BitVec.and_assoc, BitVec.eq_of_toNat_eq (y := 0) ha]
  simp

theorem nan_of_mag {a : BitVec w} (h : Fmt.mag a = 0) : ¬ F.nan a := by unfold Fmt.nan; omega

theorem kN_min (hw : 0 < w) {a b : BitVec w} (ha : ¬ F.nan a) (hb : ¬ F.nan b) : KeyIs F (I.fminN F a b) (min (Fmt.key a) (Fmt.key b)) := by
  unfold I.fminN KeyIs
  rw [if_neg ha, if_neg hb]
  split
  · exact ⟨ha, by omega⟩
  · split
    · exact ⟨hb, by omega⟩
    · have e : Fmt.key a = Fmt.key b := by omega
      rcases (same_iff hw a b).2 e with h | ⟨h1, h2⟩
      · subst h; simp [ha]
      · have := mag_or h1 h2
        exact ⟨nan_of_mag F this, by rw [(key_eq_zero _).2 this, (key_eq_zero _).2 h1, (key_eq_zero _).2 h2]; rfl⟩
theorem kN_max (hw : 0 < w) {a b : BitVec w} (ha : ¬ F.nan a) (hb : ¬ F.nan b) : KeyIs F (I.fmaxN F a b) (max (Fmt.key a) (Fmt.key b)) := by
  unfold I.fmaxN KeyIs
  rw [if_neg ha, if_neg hb]
  split
  · exact ⟨hb, by omega⟩
  · split
    · exact ⟨ha, by omega⟩
    · have e : Fmt.key a = Fmt.key b := by omega
      rcases (same_iff hw a b).2 e with h | ⟨h1, h2⟩
      · subst h; simp [ha]
      · have := mag_and (b := b) h1
        exact ⟨nan_of_mag F this, by rw [(key_eq_zero _).2 this, (key_eq_zero _).2 h1, (key_eq_zero _).2 h2]; rfl⟩

variable {F} in
theorem KeyIs.same (hw : 0 < w) {r s : BitVec w} {x : Int} (hr : KeyIs F r x) (hs : KeyIs F s x) : Fmt.same r s :=
  (same_iff hw r s).2 (hr.2.trans hs.2.symm)

theorem fmin (hw : 0 < w) {a b : BitVec w} (ha : ¬ F.nan a) (hb : ¬ F.nan b) : Fmt.same (I.fminX F a b) (F.vmin a b) :=
  (kX_min F ha hb).same hw (kP_min F ha hb)
theorem fmax (hw : 0 < w) {a b : BitVec w} (ha : ¬ F.nan a) (hb : ¬ F.nan b) : Fmt.same (I.fmaxX F a b) (F.vmax a b) :=
  (kX_max F ha hb).same hw (kP_max F ha hb)
theorem fminN (hw : 0 < w) {a b : BitVec w} (ha : ¬ F.nan a) (hb : ¬ F.nan b) : Fmt.same (I.fminN F a b) (F.vmin a b) :=
  (kN_min F hw ha hb).same hw (kP_min F ha hb)
theorem fmaxN (hw : 0 < w) {a b : BitVec w} (ha : ¬ F.nan a) (hb : ¬ F.nan b) : Fmt.same (I.fmaxN F a b) (F.vmax a b) :=
  (kN_max F hw ha hb).same hw (kP_max F ha hb)
theorem fclamp (hw : 0 < w) {x a b : BitVec w} (hx : ¬ F.nan x) (ha : ¬ F.nan a) (hb : ¬ F.nan b) :
    Fmt.same (I.fminX F (I.fmaxX F x a) b) (F.vclamp x a b) := by
  have h1 := kX_max F hx ha
  have h2 := kP_max F hx ha
  have h3 := kX_min F h1.1 hb
  have h4 := kP_min F h2.1 hb
  rw [h1.2] at h3
  rw [h2.2] at h4
  exact h3.same hw h4
theorem fclampN (hw : 0 < w) {x a b : BitVec w} (hx : ¬ F.nan x) (ha : ¬ F.nan a) (hb : ¬ F.nan b) :
    Fmt.same (I.fminN F (I.fmaxN F x a) b) (F.vclamp x a b) := by
  have h1 := kN_max F hw hx ha
  have h2 := kP_max F hx ha
  have h3 := kN_min F hw h1.1 hb
  have h4 := kP_min F h2.1 hb
  rw [h1.2] at h3
  rw [h2.2] at h4
  exact h3.same hw h4

theorem one32 : f32.one ||| negz 32 = f32.one ^^^ negz 32 := by decide
theorem one64 : f64.one ||| negz 64 = f64.one ^^^ negz 64 := by decide

end LL
end Verif.SIMD
