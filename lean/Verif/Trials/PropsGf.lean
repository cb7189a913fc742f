import Verif.Trials.Gf
import Verif.Trials.PropsSort
import Verif.GF.Props
/- C84: tests/gf_test.cc -/
namespace Verif.Trials
open Verif.GF
variable {w M P : Nat} {T : Tab}

/-- The exhaustive test of a field passes: tables and bit-serial reference agree on all products and reciprocals. -/
theorem C84_gf_exhaustive (R : Ready w M P T) (hM : M ≤ 32) (fuel : Nat) (hf : 2 ^ (M + 1) < fuel) :
    gfExhaustive w M P fuel T = some () := by
  have hQ : 0 < 2 ^ M := by positivity
  have hle : 2 ^ M ≤ 2 ^ w := Nat.pow_le_pow_right (by norm_num) R.hw
  have hg : gQ M = 2 ^ M := by simp [gQ, Nat.shiftLeft_eq]
  have B := R.built
  have hirr := irreducible_of_primitive B.hM B.deg B.prim
  unfold gfExhaustive
  rw [seq_iff, loop_iff, loop_iff, hg]
  simp only [Option.bind_eq_bind]
  constructor
  · intro j _ hj
    rw [mkValue_ok B hj, Option.bind_some, loop_iff]
    intro i _ hi
    obtain ⟨y, hy, -⟩ := C20_mul R.hM R.hw R.deg (a := j) (b := i) (by omega) (by omega)
    rw [mkValue_ok B hi, Option.bind_some, (C20_agree R R.hw (by omega) (by omega)).1, Nat.mod_eq_of_lt (by omega : j < 2 ^ w),
      Nat.mod_eq_of_lt (by omega : i < 2 ^ w), hy]
    simp [assertUB]
  · intro i h0 hi
    obtain ⟨y, hy, -⟩ := C20_rcp R.hM hM R.hw R.deg hirr (a := i) (by omega) (by omega) fuel hf
    rw [mkValue_ok B hi, Option.bind_some, (C20_agree R R.hw (a := i) (b := i) (by omega) (by omega)).2.2.1 hM (by omega) fuel hf,
      Nat.mod_eq_of_lt (by omega : i < 2 ^ w), hy]
    simp [assertUB]

/-- What the exhaustive test checks, whatever the tables hold: every product, zeros included, and every reciprocal. -/
theorem C84_gf_exhaustive_checks (h0 : 0 < M) (hw : M ≤ w) (fuel : Nat) (T : Tab) :
    gfExhaustive w M P fuel T = some () ↔
      (∀ j < 2 ^ M, ∀ i < 2 ^ M, ∃ y, mulVV w M T j i = some y ∧ refMul w M P j i = some y) ∧
      (∀ i < 2 ^ M, i ≠ 0 → ∃ y, rcpV w M T i = some y ∧ refRcp w M P fuel i = some y) := by
  have hQ : 0 < 2 ^ M := by positivity
  have hle : 2 ^ M ≤ 2 ^ w := Nat.pow_le_pow_right (by norm_num) hw
  have hg : gQ M = 2 ^ M := by simp [gQ, Nat.shiftLeft_eq]
  have mk : ∀ j, j < 2 ^ M → mkValue w M j = some j := by
    intro j hj
    unfold mkValue
    dsimp only
    rw [Nat.mod_eq_of_lt (by omega), assertUB, if_pos (by unfold gN; omega)]; rfl
  have both : ∀ e f : Option Nat, (e.bind fun x => f.bind fun y => assertUB (x = y)) = some () ↔ ∃ y, e = some y ∧ f = some y := by
    intro e f
    cases e <;> cases f <;> simp [assertUB, eq_comm]
  unfold gfExhaustive
  rw [seq_iff, loop_iff, loop_iff, hg]
  simp only [Option.bind_eq_bind]
  refine and_congr ?_ ?_
  · constructor
    · intro h j hj i hi
      have := h j (by omega) hj
      rw [mk j hj, Option.bind_some, loop_iff] at this
      have := this i (by omega) hi
      rwa [mk i hi, Option.bind_some, both, Nat.mod_eq_of_lt (by omega : j < 2 ^ w), Nat.mod_eq_of_lt (by omega : i < 2 ^ w)] at this
    · intro h j _ hj
      rw [mk j hj, Option.bind_some, loop_iff]
      intro i _ hi
      rw [mk i hi, Option.bind_some, both, Nat.mod_eq_of_lt (by omega : j < 2 ^ w), Nat.mod_eq_of_lt (by omega : i < 2 ^ w)]
      exact h j hj i hi
  · constructor
    · intro h i hi h0
      have := h i (by omega) hi
      rwa [mk i hi, Option.bind_some, both, Nat.mod_eq_of_lt (by omega : i < 2 ^ w)] at this
    · intro h i h1 hi
      rw [mk i hi, Option.bind_some, both, Nat.mod_eq_of_lt (by omega : i < 2 ^ w)]
      exact h i hi (by omega)

/-- A block of the test, for any field of degree up to 32, whatever the uninitialised tables hold: with an expression
that evaluates to the number asserted it passes exactly if the polynomial is primitive. -/
theorem C84_gf_block (h0 : 0 < M) (hM : M ≤ 32) (hw : M ≤ w) (h : HasDeg M P) (fuel : Nat) (hf : 2 ^ (M + 1) < fuel)
    (lhs : Tab → Nat → Nat → Nat → Option Nat) (a b c d : Nat) (ha : a < 2 ^ M) (hb : b < 2 ^ M) (hc : c < 2 ^ M) (hd : d < 2 ^ M)
    (hl : ∀ T, Ready w M P T → lhs T a b c = some d) (T0 : Tab) (hs : Sized M T0) :
    gfBlock w M P fuel lhs a b c d T0 = some () ↔ Primitive M P := by
  rw [← C18_iff h0 hw h hs]
  constructor
  · intro hb
    unfold gfBlock at hb
    rw [Option.bind_eq_bind, Option.bind_eq_some_iff] at hb
    obtain ⟨T, hT, -⟩ := hb
    exact ⟨T, hT⟩
  · rintro ⟨T, hT⟩
    have R : Ready w M P T := ⟨h0, hw, h, T0, hs, hT⟩
    have B := R.built
    unfold gfBlock
    have he : eqV M d d = some true := ((C19_eq R (a := d) (b := d) (by omega) (by omega)).1).2 rfl
    simp only [Option.bind_eq_bind]
    rw [hT, Option.bind_some, mkValue_ok B ha, Option.bind_some, mkValue_ok B hb, Option.bind_some, mkValue_ok B hc, Option.bind_some, mkValue_ok B hd, Option.bind_some, hl T R, Option.bind_some, he, Option.bind_some]
    rw [C84_gf_exhaustive R hM fuel hf]
    rfl

theorem quot_of_mul (R : Ready w M P T) {a b q : Nat} (ha : a < 2 ^ M) (hb : b < 2 ^ M) (hq : q < 2 ^ M) (h0 : b ≠ 0)
    (h : refMul w M P q b = some a) : divVV w M T a b = some q := by
  obtain ⟨v, hv, hvl, hve⟩ := C19_divVV R (a := a) (b := b) (by omega) (by omega) h0
  obtain ⟨p, hp, -, hpe⟩ := C20_mul R.hM R.hw R.deg (a := q) (b := b) (by omega) (by omega)
  rw [h] at hp
  cases hp
  obtain ⟨i, -, hil, hi⟩ := C19_rcpV R (a := b) (by omega) h0
  have : toR P v = toR P q := by
    calc toR P v = (toR P v * toR P b) * toR P i := by rw [mul_assoc, mul_comm (toR P b), hi, mul_one]
      _ = (toR P q * toR P b) * toR P i := by rw [hve, hpe]
      _ = toR P q := by rw [mul_assoc, mul_comm (toR P b), hi, mul_one]
  rw [hv, toR_inj R.deg (by omega) hq this]

theorem rcp_of_mul (R : Ready w M P T) {b q : Nat} (hb : b < 2 ^ M) (hq : q < 2 ^ M) (h0 : b ≠ 0)
    (h : refMul w M P q b = some 1) : rcpV w M T b = some q := by
  obtain ⟨v, hv, hvl, hve⟩ := C19_rcpV R (a := b) (by omega) h0
  obtain ⟨p, hp, -, hpe⟩ := C20_mul R.hM R.hw R.deg (a := q) (b := b) (by omega) (by omega)
  rw [h] at hp
  cases hp
  have : toR P v = toR P q := by
    calc toR P v = (toR P q * toR P b) * toR P v := by rw [← hpe, toR_one, one_mul]
      _ = toR P q * (toR P v * toR P b) := by ring
      _ = toR P q := by rw [hve, mul_one]
  rw [hv, toR_inj R.deg (by omega) hq this]

/-- The four blocks of gf_test.cc pass, whatever the uninitialised tables hold. -/
theorem C84_gf_test :
    (∀ T0, Sized 4 T0 → gfBlock 8 4 0b10011 100 (lhs1 8 4) 3 7 15 6 T0 = some ()) ∧
    (∀ T0, Sized 8 T0 → gfBlock 8 8 0b100011101 1000 (lhs2 8 8) 154 83 144 63 T0 = some ()) ∧
    (∀ T0, Sized 16 T0 → gfBlock 16 16 0b10001000000001011 200000 (lhs3 16 16) 42145 13346 40958 35941 T0 = some ()) ∧
    (∀ T0, Sized 16 T0 → gfBlock 16 16 0b10000000000101101 200000 (lhs4 16 16) 38532 7932 34283 22281 T0 = some ()) := by
  refine ⟨fun T0 hs => ?_, fun T0 hs => ?_, fun T0 hs => ?_, fun T0 hs => ?_⟩
  · refine (C84_gf_block (by norm_num) (by norm_num) (by norm_num) (by unfold HasDeg; norm_num) _ (by norm_num) _ _ _ _ _
      (by norm_num) (by norm_num) (by norm_num) (by norm_num) (fun T R => ?_) T0 hs).2 prim_4_13
    unfold lhs1
    rw [(C20_agree R R.hw (a := 3) (b := 7) (by norm_num) (by norm_num)).1,
      show refMul 8 4 0b10011 3 7 = some 9 by decide +kernel]
    decide +kernel
  · refine (C84_gf_block (by norm_num) (by norm_num) (by norm_num) (by unfold HasDeg; norm_num) _ (by norm_num) _ _ _ _ _
      (by norm_num) (by norm_num) (by norm_num) (by norm_num) (fun T R => ?_) T0 hs).2 prim_8_11D
    unfold lhs2
    obtain ⟨v, hv, hvl, hve⟩ := C19_fmaVV R (a := 154) (b := 83) (c := 144) (by norm_num) (by norm_num) (by norm_num)
    obtain ⟨p, hp, hpl, hpe⟩ := C20_mul R.hM R.hw R.deg (a := 154) (b := 83) (by norm_num) (by norm_num)
    rw [show refMul 8 8 0b100011101 154 83 = some 175 by decide +kernel] at hp
    cases hp
    rw [← hpe, ← toR_xor] at hve
    rw [hv, toR_inj R.deg (by omega) (by decide) hve]
    decide
  · refine (C84_gf_block (by norm_num) (by norm_num) (by norm_num) (by unfold HasDeg; norm_num) _ (by norm_num) _ _ _ _ _
      (by norm_num) (by norm_num) (by norm_num) (by norm_num) (fun T R => ?_) T0 hs).2 prim_16_1100B
    unfold lhs3
    rw [quot_of_mul R (q := 5019) (by norm_num) (by norm_num) (by norm_num) (by norm_num) (by decide +kernel)]
    decide +kernel
  · refine (C84_gf_block (by norm_num) (by norm_num) (by norm_num) (by unfold HasDeg; norm_num) _ (by norm_num) _ _ _ _ _
      (by norm_num) (by norm_num) (by norm_num) (by norm_num) (fun T R => ?_) T0 hs).2 prim_16_1002D
    unfold lhs4
    rw [rcp_of_mul R (q := 23679) (by norm_num) (by norm_num) (by norm_num) (by decide +kernel), Option.bind_eq_bind, Option.bind_some,
      show addV 16 16 23679 34283 = some 55700 by decide +kernel, Option.bind_some]
    exact quot_of_mul R (by norm_num) (by norm_num) (by norm_num) (by norm_num) (by decide +kernel)

/-- A polynomial that is not primitive fails, whatever is asserted. -/
example (lhs : Tab → Nat → Nat → Nat → Option Nat) : gfBlock 8 4 0b11111 100 lhs 3 7 15 6 ⟨List.replicate 16 0, List.replicate 16 0⟩ = none := by
  have : tables 8 4 0b11111 ⟨List.replicate 16 0, List.replicate 16 0⟩ = none := by rfl
  unfold gfBlock; rw [this]; rfl

/-- So does a wrong number. -/
example : gfBlock 8 4 0b10011 100 (lhs1 8 4) 3 7 15 5 ⟨List.replicate 16 0, List.replicate 16 0⟩ = none := by decide +kernel

end Verif.Trials
