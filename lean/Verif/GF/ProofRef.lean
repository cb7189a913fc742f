import Verif.GF.Proof
import Mathlib.RingTheory.Coprime.Basic
import Mathlib.RingTheory.PrincipalIdealDomain
namespace Verif.GF
open Polynomial GF2

variable {w M P : Nat}

theorem refStep_eq (h : HasDeg M P) (hM : 0 < M) (hw : M ≤ w) {a : Nat} (ha : a < 2 ^ M) (p b : Nat) :
    refStep w M P (p, a, b) = (if b.testBit 0 then p ^^^ a else p, xtime P M a, b / 2) := by
  unfold refStep
  dsimp only
  have h1 : (1 <<< (M - 1)) % 2 ^ w = 2 ^ (M - 1) := by
    rw [Nat.shiftLeft_eq, one_mul]
    exact Nat.mod_eq_of_lt (Nat.pow_lt_pow_right (by norm_num) (by omega))
  have h2 : (if a &&& ((1 <<< (M - 1)) % 2 ^ w) ≠ 0 then ((a <<< 1) % 2 ^ w) ^^^ (P % 2 ^ w)
      else (a <<< 1) % 2 ^ w) = xtime P M a := by
    rw [h1, Nat.and_two_pow, ← trunc_xtime h hM hw ha]
    cases a.testBit (M - 1)
    · simp
    · simp only [Bool.toNat_true, one_mul, if_true]
      rw [if_pos (by positivity), xor_mod, Nat.mod_mod]
  rw [h2, Nat.shiftRight_eq_div_pow, pow_one]
  congr 1
  rw [Nat.and_one_is_mod, Nat.testBit_zero]
  rcases Nat.mod_two_eq_zero_or_one b with hb | hb <;> simp [hb]

theorem refMul_ok (h : HasDeg M P) (hM : 0 < M) (hw : M ≤ w) {a b : Nat} (ha : a < 2 ^ M) (hb : b < 2 ^ M) :
    ∃ c, refMul w M P a b = some c ∧ c < 2 ^ M ∧ toR P c = toR P a * toR P b := by
  unfold refMul
  have main := forUp_inv (lo := 0) (hi := M) (s := (0, a, b)) (f := fun _ s => some (refStep w M P s))
    (fun i s => s.1 < 2 ^ M ∧ s.2.1 < 2 ^ M ∧ s.2.2 < 2 ^ (M - i) ∧
      toR P s.1 + toR P s.2.1 * toR P s.2.2 = toR P a * toR P b)
    (Nat.zero_le _) ⟨by positivity, ha, by simpa using hb, by simp [toR_zero]⟩ (by
      rintro i ⟨p, x, y⟩ _ hi ⟨hp, hx, hy, he⟩
      dsimp only at hp hx hy he
      refine Ok.some ?_
      rw [refStep_eq h hM hw hx]
      dsimp only
      refine ⟨?_, xtime_lt h.top h.2 hx, ?_, ?_⟩
      · split
        · exact Nat.xor_lt_two_pow hp hx
        · exact hp
      · rw [show M - i = (M - (i + 1)) + 1 by omega, pow_succ] at hy
        omega
      · have hy2 : toR P y = AdjoinRoot.root (natPoly P) * toR P (y / 2) + if y.testBit 0 then 1 else 0 := by
          unfold toR
          conv_lhs => rw [natPoly_half y]
          rw [map_add, map_mul, AdjoinRoot.mk_X]
          split <;> simp
        rw [← he, toR_xtime, hy2]
        split
        · rw [toR_xor]; ring
        · ring)
  obtain ⟨⟨p, x, y⟩, hr, hp, hx, hy, he⟩ := main
  dsimp only at hp hx hy he
  rw [hr]
  refine ⟨p, rfl, hp, ?_⟩
  have : y = 0 := by rw [Nat.sub_self, pow_zero] at hy; omega
  rw [this, toR_zero, mul_zero, add_zero] at he
  exact he

/-! ### The extended Euclidean loop -/

/-- `k` is the position of the highest set bit of `a`. -/
def Hi (a k : Nat) : Prop := 2 ^ k ≤ a ∧ a < 2 ^ (k + 1)

theorem Hi.of_ne_zero {a : Nat} (h : a ≠ 0) : Hi a (Nat.log2 a) :=
  ⟨Nat.log2_self_le h, Nat.lt_log2_self⟩

theorem Hi.top {a k : Nat} (h : Hi a k) : a.testBit k = true := HasDeg.top (M := k) (P := a) h

theorem Hi.unique {a k l : Nat} (h : Hi a k) (h' : Hi a l) : k = l := by
  have h1 : k < l + 1 := (Nat.pow_lt_pow_iff_right (by norm_num : 1 < 2)).1 (lt_of_le_of_lt h.1 h'.2)
  have h2 : l < k + 1 := (Nat.pow_lt_pow_iff_right (by norm_num : 1 < 2)).1 (lt_of_le_of_lt h'.1 h.2)
  omega

theorem deg32_ok {a k : Nat} (h : Hi a k) (hk : k < 32) : deg32 a = some k := by
  have hlt : a < 2 ^ 32 := lt_of_lt_of_le h.2 (Nat.pow_le_pow_right (by norm_num) (by omega))
  have h0 : a ≠ 0 := by have := h.1; have : 0 < 2 ^ k := by positivity
                        omega
  unfold deg32
  dsimp only
  rw [Nat.mod_eq_of_lt hlt, if_neg h0, (Hi.of_ne_zero h0).unique h]

theorem shift_hi {a k j : Nat} (h : Hi a k) : Hi (a <<< j) (k + j) := by
  unfold Hi
  rw [Nat.shiftLeft_eq]
  constructor
  · rw [pow_add]; exact Nat.mul_le_mul_right _ h.1
  · rw [show k + j + 1 = (k + 1) + j by omega, pow_add]
    exact (Nat.mul_lt_mul_right (by positivity)).2 h.2

theorem shift_lt {a n j : Nat} (h : a < 2 ^ n) : a <<< j < 2 ^ (n + j) := by
  rw [Nat.shiftLeft_eq, pow_add]
  exact (Nat.mul_lt_mul_right (by positivity)).2 h

theorem xor_hi_lt {a b k : Nat} (ha : Hi a k) (hb : Hi b k) : a ^^^ b < 2 ^ k := by
  apply Nat.lt_pow_two_of_testBit
  intro i hi
  rw [Nat.testBit_xor]
  by_cases hin : i = k
  · subst hin; rw [ha.top, hb.top]; rfl
  · have : 2 ^ (k + 1) ≤ 2 ^ i := Nat.pow_le_pow_right (by norm_num) (by omega)
    rw [Nat.testBit_eq_false_of_lt (lt_of_lt_of_le ha.2 this), Nat.testBit_eq_false_of_lt (lt_of_lt_of_le hb.2 this)]; rfl

/-- Loop invariant. -/
structure RcpInv (M P a : Nat) (s : RcpSt) : Prop where
  hr : Hi s.r s.k
  k1 : 1 ≤ s.k
  kM : s.k < M
  newr : s.newr < 2 ^ M
  cop : IsCoprime (natPoly s.r) (natPoly s.newr)
  newt : s.newt < 2 ^ (M - s.k + 1)
  t : ∀ l, Hi s.newr l → s.t < 2 ^ (M - l + 1)
  er : toR P s.r = toR P s.t * toR P a
  en : toR P s.newr = toR P s.newt * toR P a

theorem newr_ne_zero {a : Nat} {s : RcpSt} (I : RcpInv M P a s) : s.newr ≠ 0 := by
  intro h0
  have := I.cop
  rw [h0, natPoly_zero, isCoprime_zero_right] at this
  have h1 := natDegree_eq_zero_of_isUnit this
  rw [natDegree_natPoly I.hr.1 I.hr.2] at h1
  have := I.k1; omega

theorem hi_lt {a k n : Nat} (h : Hi a k) (hn : a < 2 ^ n) : k < n :=
  (Nat.pow_lt_pow_iff_right (by norm_num : 1 < 2)).1 (lt_of_le_of_lt h.1 hn)

theorem rcpStep_ok {a : Nat} (hM32 : M ≤ 32) (hw : M ≤ w) {s : RcpSt} (I : RcpInv M P a s) (hne : s.newr ≠ 1) :
    Ok (rcpStep w s) (fun s' => RcpInv M P a s' ∧ s'.newr + s'.r < s.newr + s.r) := by
  have h0 := newr_ne_zero I
  have hL := Hi.of_ne_zero h0
  set l := Nat.log2 s.newr with hl
  have hlM : l < M := hi_lt hL I.newr
  have hl1 : 1 ≤ l := by
    by_contra hc
    have : l = 0 := by omega
    rw [this] at hL
    have h1 := hL.2
    simp at h1; omega
  have hMw : ∀ n, n ≤ M → 2 ^ n ≤ 2 ^ w := fun n hn => Nat.pow_le_pow_right (by norm_num) (by omega)
  unfold rcpStep
  rw [deg32_ok hL (by omega), Option.bind_eq_bind, Option.bind_some]
  have hkM := I.kM
  have hk1 := I.k1
  have htl := I.t l hL
  by_cases hlk : l < s.k
  · rw [if_pos hlk]
    dsimp only
    rw [assertUB, if_pos (by omega), Option.bind_eq_bind, Option.bind_some]
    have sh : Hi (s.newr <<< (s.k - l)) s.k := by
      have := shift_hi (j := s.k - l) hL
      rwa [show l + (s.k - l) = s.k by omega] at this
    have e1 : (s.newr <<< (s.k - l)) % 2 ^ w = s.newr <<< (s.k - l) :=
      Nat.mod_eq_of_lt (lt_of_lt_of_le sh.2 (hMw _ (by omega)))
    have hnt : s.newt <<< (s.k - l) < 2 ^ (M - l + 1) := by
      have := shift_lt (j := s.k - l) I.newt
      rwa [show M - s.k + 1 + (s.k - l) = M - l + 1 by omega] at this
    have e2 : (s.newt <<< (s.k - l)) % 2 ^ w = s.newt <<< (s.k - l) :=
      Nat.mod_eq_of_lt (lt_of_lt_of_le hnt (hMw _ (by omega)))
    rw [e1, e2]
    have hlt : s.r ^^^ s.newr <<< (s.k - l) < 2 ^ s.k := xor_hi_lt I.hr sh
    refine Ok.some ⟨⟨hL, hl1, hlM, ?_, ?_, ?_, ?_, ?_, ?_⟩, ?_⟩ <;> dsimp only
    · exact lt_of_lt_of_le hlt (Nat.pow_le_pow_right (by norm_num) (by omega))
    · rw [natPoly_xor, natPoly_shiftLeft]
      have := I.cop.symm
      have h2 := IsCoprime.add_mul_left_right this (X ^ (s.k - l))
      rwa [mul_comm (natPoly s.newr)] at h2
    · exact Nat.xor_lt_two_pow htl hnt
    · intro l' hl'
      have hlk' := hi_lt hl' hlt
      exact lt_of_lt_of_le I.newt (Nat.pow_le_pow_right (by norm_num) (by omega))
    · exact I.en
    · rw [toR_xor, toR_xor, toR_shift, toR_shift, I.er, I.en]; ring
    · have := I.hr.1
      omega
  · rw [if_neg hlk]
    dsimp only
    rw [assertUB, if_pos (by omega), Option.bind_eq_bind, Option.bind_some]
    have sh : Hi (s.r <<< (l - s.k)) l := by
      have := shift_hi (j := l - s.k) I.hr
      rwa [show s.k + (l - s.k) = l by omega] at this
    have e1 : (s.r <<< (l - s.k)) % 2 ^ w = s.r <<< (l - s.k) :=
      Nat.mod_eq_of_lt (lt_of_lt_of_le sh.2 (hMw _ (by omega)))
    have hnt : s.t <<< (l - s.k) < 2 ^ (M - s.k + 1) := by
      have := shift_lt (j := l - s.k) htl
      rwa [show M - l + 1 + (l - s.k) = M - s.k + 1 by omega] at this
    have e2 : (s.t <<< (l - s.k)) % 2 ^ w = s.t <<< (l - s.k) :=
      Nat.mod_eq_of_lt (lt_of_lt_of_le hnt (hMw _ (by omega)))
    rw [e1, e2]
    have hlt : s.newr ^^^ s.r <<< (l - s.k) < 2 ^ l := xor_hi_lt hL sh
    refine Ok.some ⟨⟨I.hr, hk1, hkM, ?_, ?_, ?_, ?_, I.er, ?_⟩, ?_⟩ <;> dsimp only
    · exact lt_of_lt_of_le hlt (Nat.pow_le_pow_right (by norm_num) (by omega))
    · rw [natPoly_xor, natPoly_shiftLeft]
      have h2 := IsCoprime.add_mul_left_right I.cop (X ^ (l - s.k))
      rwa [mul_comm (natPoly s.r)] at h2
    · exact Nat.xor_lt_two_pow I.newt hnt
    · intro l' hl'
      have hlk' := hi_lt hl' hlt
      exact lt_of_lt_of_le htl (Nat.pow_le_pow_right (by norm_num) (by omega))
    · rw [toR_xor, toR_xor, toR_shift, toR_shift, I.er, I.en]; ring
    · have := hL.1
      omega

theorem refRcp_ok (h : HasDeg M P) (hM : 0 < M) (hM32 : M ≤ 32) (hw : M ≤ w) (hirr : Irreducible (natPoly P))
    {a : Nat} (ha : a < 2 ^ M) (h0 : a ≠ 0) (fuel : Nat) (hf : 2 ^ (M + 1) < fuel) :
    ∃ c, refRcp w M P fuel a = some c ∧ c < 2 ^ M ∧ toR P c * toR P a = 1 := by
  have hMw : 2 ^ M ≤ 2 ^ w := Nat.pow_le_pow_right (by norm_num) hw
  unfold refRcp
  rw [assertUB, if_pos h0, Option.bind_eq_bind, Option.bind_some]
  by_cases h1 : a = 1
  · rw [if_pos h1]
    refine ⟨a, rfl, ha, ?_⟩
    rw [h1, toR_one, mul_one]
  · rw [if_neg h1]
    have hk := Hi.of_ne_zero h0
    set k := Nat.log2 a
    have hkM : k < M := hi_lt hk ha
    have hk1 : 1 ≤ k := by
      by_contra hc
      have : k = 0 := by omega
      rw [this] at hk
      have h2 := hk.2
      simp at h2; omega
    rw [deg32_ok hk (by omega), Option.bind_eq_bind, Option.bind_some, assertUB, if_pos (by omega),
      Option.bind_eq_bind, Option.bind_some]
    dsimp only
    rw [assertUB, if_pos (by omega), Option.bind_some]
    have sh : Hi (a <<< (M - k)) M := by
      have := shift_hi (j := M - k) hk
      rwa [show k + (M - k) = M by omega] at this
    have hxlt : P ^^^ a <<< (M - k) < 2 ^ M := xor_hi_lt h sh
    have e1 : (P % 2 ^ w) ^^^ ((a <<< (M - k)) % 2 ^ w) = P ^^^ a <<< (M - k) := by
      rw [← xor_mod, Nat.mod_eq_of_lt (by omega)]
    have hjt : 2 ^ (M - k) < 2 ^ M := Nat.pow_lt_pow_right (by norm_num) (by omega)
    have e2 : 0 ^^^ ((1 <<< (M - k)) % 2 ^ w) = 2 ^ (M - k) := by
      rw [Nat.zero_xor, Nat.shiftLeft_eq, one_mul, Nat.mod_eq_of_lt (by omega)]
    rw [e1, e2]
    have hcop : IsCoprime (natPoly a) (natPoly P) := by
      apply IsCoprime.symm
      rw [Irreducible.coprime_iff_not_dvd hirr]
      intro hd
      have hne : natPoly a ≠ 0 := by rwa [Ne, natPoly_eq_zero]
      have h2 := natDegree_le_of_dvd hd hne
      rw [natDegree_natPoly hk.1 hk.2, h.natDegree] at h2
      omega
    have I0 : RcpInv M P a { newr := P ^^^ a <<< (M - k), r := a, newt := 2 ^ (M - k), t := 1, k := k } := by
      refine ⟨hk, hk1, hkM, hxlt, ?_, ?_, ?_, ?_, ?_⟩ <;> dsimp only
      · rw [natPoly_xor, natPoly_shiftLeft]
        have h2 := IsCoprime.add_mul_left_right hcop (X ^ (M - k))
        rwa [mul_comm (natPoly a)] at h2
      · exact Nat.pow_lt_pow_right (by norm_num) (by omega)
      · intro l hl
        exact Nat.one_lt_two_pow (by have := hi_lt hl hxlt; omega)
      · rw [toR_one, one_mul]
      · rw [toR_xor, toR_self, zero_add, toR_shift]
        unfold toR; rw [natPoly_two_pow, map_pow, AdjoinRoot.mk_X]
    obtain ⟨s, hs, I, hc⟩ := whileF_inv (c := fun s : RcpSt => s.newr != 1) (f := rcpStep w)
      (RcpInv M P a) (fun s => s.newr + s.r)
      (fun s I hc => rcpStep_ok hM32 hw I (by simpa using hc)) fuel _ I0 (by
        dsimp only
        have : 2 ^ (M + 1) = 2 ^ M + 2 ^ M := by rw [pow_succ]; ring
        omega)
    rw [hs, Option.bind_some]
    have hn1 : s.newr = 1 := by simpa using hc
    have hsk := I.k1
    have hskM := I.kM
    have hlt : s.newt < 2 ^ M := lt_of_lt_of_le I.newt (Nat.pow_le_pow_right (by norm_num) (by omega))
    refine ⟨s.newt, ?_, hlt, ?_⟩
    · unfold mkValue; dsimp only
      rw [Nat.mod_eq_of_lt (by omega), gN_eq, assertUB, if_pos (by omega)]; rfl
    · rw [← I.en, hn1, toR_one]

end Verif.GF
