import Verif.GF.ProofRef
import Mathlib.Tactic.NormNum.Prime
/- C18, C19, C20 (galois_field.hh).

Specification (Verif/GF/Ring.lean): `GFR POLY` is `AdjoinRoot` of the binary polynomial with
the bits of `POLY` as coefficients, i.e. GF(2)[x]/(POLY); `toR POLY v` is the residue class of the
polynomial whose coefficients are the bits of `v`; `HasDeg M POLY` says that POLY has degree `M`;
`Primitive M POLY` says that the class of `x` has multiplicative order `2 ^ M - 1`. -/
namespace Verif.GF
open Polynomial GF2

/-- The class of `x`. -/
noncomputable abbrev xR (POLY : Nat) : GFR POLY := AdjoinRoot.root (natPoly POLY)

/-- The expression evaluates without failed assertion or out-of-bounds access to the (unique)
storage representation, in range, of the ring element `r`. -/
def Computes (M POLY : Nat) (e : Option Nat) (r : GFR POLY) : Prop :=
  ∃ v, e = some v ∧ v ≤ 2 ^ M - 1 ∧ toR POLY v = r

/-- The same for an `Index` expression: it evaluates to an exponent in range whose power of `x`
is `r`. -/
def ComputesI (M POLY : Nat) (e : Option Nat) (r : GFR POLY) : Prop :=
  ∃ i, e = some i ∧ i < 2 ^ M - 1 ∧ xR POLY ^ i = r

variable {w M P : Nat} {T0 T : Tab}

/-- Arrays of `Q` elements. -/
def Sized (M : Nat) (T : Tab) : Prop := T.log.length = 2 ^ M ∧ T.exp.length = 2 ^ M

/-! ### C18 -/

/-- The table constructor passes its assertions exactly for primitive polynomials. -/
theorem C18_iff (hM : 0 < M) (hw : M ≤ w) (h : HasDeg M P) (hs : Sized M T0) :
    (∃ T, tables w M P T0 = some T) ↔ Primitive M P := by
  constructor
  · rintro ⟨T, ht⟩; exact primitive_of_tables hM hw h T0 T ht
  · intro hp
    obtain ⟨T, ht, _⟩ := tables_built hM hw h hp T0 hs.1 hs.2
    exact ⟨T, ht⟩

/-- The tables have been constructed for a degree-`M` polynomial in a wide enough type. -/
structure Ready (w M P : Nat) (T : Tab) : Prop where
  hM : 0 < M
  hw : M ≤ w
  deg : HasDeg M P
  tab : ∃ T0, Sized M T0 ∧ tables w M P T0 = some T

theorem Ready.built (R : Ready w M P T) : Built w M P T := by
  obtain ⟨T0, hs, ht⟩ := R.tab
  obtain ⟨T', ht', B⟩ := tables_built R.hM R.hw R.deg (primitive_of_tables R.hM R.hw R.deg T0 T ht) T0 hs.1 hs.2
  rw [ht] at ht'
  cases ht'
  exact B

/-- `index` and `value` are mutually inverse between the non-zero values and `0 .. 2^M - 2`, and
`value i` is `x ^ i`. -/
theorem C18_inverse (R : Ready w M P T) :
    (∀ i, i < 2 ^ M - 1 → ∃ v, value w M T i = some v ∧ v ≠ 0 ∧ v ≤ 2 ^ M - 1 ∧
        index w M T v = some i ∧ toR P v = xR P ^ i) ∧
    (∀ v, v ≠ 0 → v ≤ 2 ^ M - 1 → ∃ i, index w M T v = some i ∧ i < 2 ^ M - 1 ∧
        value w M T i = some v ∧ toR P v = xR P ^ i) := by
  have B := R.built
  have hN := B.N
  constructor
  · intro i hi
    obtain ⟨v, hv, hlt, he⟩ := value_ok B hi
    have h0 : v ≠ 0 := by
      rintro rfl
      rw [toR_zero] at he
      exact root_pow_ne_zero B.hM B.deg B.prim i he.symm
    obtain ⟨j, hj, hjl, hje⟩ := index_ok B hlt h0
    have : (xtime P M)^[i] 1 = (xtime P M)^[j] 1 :=
      toR_inj B.deg (iter_lt B.deg B.hM i) (iter_lt B.deg B.hM j) (by rw [toR_iter, toR_iter, hje, he])
    have hij := iter_inj B.deg B.hM B.prim hi hjl this
    exact ⟨v, hv, h0, by omega, by rw [hj, hij], he⟩
  · intro v h0 hv
    obtain ⟨i, hi, hil, hie⟩ := index_ok B (a := v) (by omega) h0
    obtain ⟨u, hu, hul, hue⟩ := value_ok B hil
    have : u = v := toR_inj B.deg hul (by omega) (by rw [hue, hie])
    exact ⟨i, hi, hil, by rw [hu, this], hie.symm⟩

/-! ### C19 -/

/-- The ring is a field with `2 ^ M` elements, and every element is the class of exactly one
storage value in range. -/
theorem C19_field (R : Ready w M P T) :
    IsField (GFR P) ∧ Nat.card (GFR P) = 2 ^ M ∧ ∀ r : GFR P, ∃! v, v ≤ 2 ^ M - 1 ∧ toR P v = r := by
  have B := R.built
  have hQ : 0 < 2 ^ M := by positivity
  haveI : Fact (Irreducible (natPoly P)) := ⟨irreducible_of_primitive B.hM B.deg B.prim⟩
  refine ⟨Field.toIsField _, card_R B.deg, fun r => ?_⟩
  obtain ⟨v, hv, he⟩ := toR_surj B.deg r
  refine ⟨v, ⟨by omega, he⟩, ?_⟩
  rintro u ⟨hu, hue⟩
  exact toR_inj B.deg (by omega) hv (by rw [hue, he])

section
variable (R : Ready w M P T) {a b c : Nat}
include R

theorem C19_add (ha : a ≤ 2 ^ M - 1) (hb : b ≤ 2 ^ M - 1) :
    Computes M P (addV w M a b) (toR P a + toR P b) := by
  have hQ : 0 < 2 ^ M := by positivity
  have := Nat.xor_lt_two_pow (show a < 2 ^ M by omega) (show b < 2 ^ M by omega)
  exact ⟨_, addV_ok R.built (by omega) (by omega), by omega, toR_xor P a b⟩

theorem C19_neg (ha : a ≤ 2 ^ M - 1) : Computes M P (negV a) (-toR P a) :=
  ⟨a, rfl, ha, by rw [eq_neg_iff_add_eq_zero, toR_add_self]⟩

theorem C19_sub (ha : a ≤ 2 ^ M - 1) (hb : b ≤ 2 ^ M - 1) :
    Computes M P (subV w M a b) (toR P a - toR P b) := by
  have : toR P a - toR P b = toR P a + toR P b := by
    rw [sub_eq_add_neg, neg_eq_of_add_eq_zero_left (toR_add_self _)]
  rw [this]; exact C19_add R ha hb

theorem C19_mulII (ha : a < 2 ^ M - 1) (hb : b < 2 ^ M - 1) :
    ComputesI M P (mulII w M a b) (xR P ^ a * xR P ^ b) := by
  have B := R.built
  exact ⟨_, mulII_ok B ha hb, Nat.mod_lt _ B.N, by rw [root_mod B, pow_add]⟩

theorem C19_divII (ha : a < 2 ^ M - 1) (hb : b < 2 ^ M - 1) :
    ∃ i, divII w M a b = some i ∧ i < 2 ^ M - 1 ∧ xR P ^ i * xR P ^ b = xR P ^ a := by
  have B := R.built
  refine ⟨_, divII_ok B ha hb, Nat.mod_lt _ B.N, ?_⟩
  rw [root_mod B, ← pow_add, show a + (2 ^ M - 1) - b + b = a + (2 ^ M - 1) by omega, pow_add, root_N B, mul_one]

theorem C19_rcpI (ha : a < 2 ^ M - 1) :
    ∃ i, rcpI w M a = some i ∧ i < 2 ^ M - 1 ∧ xR P ^ i * xR P ^ a = 1 := by
  have B := R.built
  refine ⟨_, rcpI_ok B ha, Nat.mod_lt _ B.N, ?_⟩
  rw [root_mod B, ← pow_add, show 2 ^ M - 1 - a + a = 2 ^ M - 1 by omega, root_N B]

theorem C19_value (ha : a < 2 ^ M - 1) : Computes M P (value w M T a) (xR P ^ a) := by
  obtain ⟨v, hv, hlt, he⟩ := value_ok R.built ha
  exact ⟨v, hv, by omega, he⟩

theorem C19_index (ha : a ≤ 2 ^ M - 1) (h0 : a ≠ 0) : ComputesI M P (index w M T a) (toR P a) := by
  have hQ : 0 < 2 ^ M := by positivity
  exact index_ok R.built (by omega) h0

omit R in
theorem mk0 (R : Ready w M P T) : mkValue w M 0 = some 0 := mkValue_ok R.built (by positivity)

omit R in
private theorem as_if {p : Prop} [Decidable p] (h : p) {β : Type} (f : Unit → Option β) :
    (assertUB p >>= f) = f () := by rw [assertUB, if_pos h]; rfl

theorem C19_mulVV (ha : a ≤ 2 ^ M - 1) (hb : b ≤ 2 ^ M - 1) :
    Computes M P (mulVV w M T a b) (toR P a * toR P b) := by
  unfold mulVV
  rw [gN_eq, as_if ha, as_if hb]
  by_cases h0 : a = 0 ∨ b = 0
  · rw [if_pos h0, mk0 R]
    refine ⟨0, rfl, by omega, ?_⟩
    rcases h0 with rfl | rfl <;> simp [toR_zero]
  · rw [if_neg h0]
    obtain ⟨i, hi, hil, hie⟩ := C19_index R ha (by tauto)
    obtain ⟨j, hj, hjl, hje⟩ := C19_index R hb (by tauto)
    obtain ⟨k, hk, hkl, hke⟩ := C19_mulII R hil hjl
    rw [hi, hj]; simp only [Option.bind_eq_bind, Option.bind_some]
    rw [hk, Option.bind_some, ← hie, ← hje, ← hke]
    exact C19_value R hkl

theorem C19_mulIV (ha : a < 2 ^ M - 1) (hb : b ≤ 2 ^ M - 1) :
    Computes M P (mulIV w M T a b) (xR P ^ a * toR P b) := by
  unfold mulIV
  rw [gN_eq, as_if ha, as_if hb]
  by_cases h0 : b = 0
  · rw [if_pos h0, mk0 R]
    exact ⟨0, rfl, by omega, by simp [h0, toR_zero]⟩
  · rw [if_neg h0]
    obtain ⟨j, hj, hjl, hje⟩ := C19_index R hb h0
    obtain ⟨k, hk, hkl, hke⟩ := C19_mulII R ha hjl
    rw [hj]; simp only [Option.bind_eq_bind, Option.bind_some]
    rw [hk, Option.bind_some, ← hje, ← hke]
    exact C19_value R hkl

theorem C19_mulVI (ha : a ≤ 2 ^ M - 1) (hb : b < 2 ^ M - 1) :
    Computes M P (mulVI w M T a b) (toR P a * xR P ^ b) := by
  unfold mulVI
  rw [gN_eq, as_if ha, as_if hb]
  by_cases h0 : a = 0
  · rw [if_pos h0, mk0 R]
    exact ⟨0, rfl, by omega, by simp [h0, toR_zero]⟩
  · rw [if_neg h0]
    obtain ⟨i, hi, hil, hie⟩ := C19_index R ha h0
    obtain ⟨k, hk, hkl, hke⟩ := C19_mulII R hil hb
    rw [hi]; simp only [Option.bind_eq_bind, Option.bind_some]
    rw [hk, Option.bind_some, ← hie, ← hke]
    exact C19_value R hkl

theorem C19_rcpV (ha : a ≤ 2 ^ M - 1) (h0 : a ≠ 0) :
    ∃ v, rcpV w M T a = some v ∧ v ≤ 2 ^ M - 1 ∧ toR P v * toR P a = 1 := by
  unfold rcpV
  rw [gN_eq, as_if ha, as_if h0]
  obtain ⟨i, hi, hil, hie⟩ := C19_index R ha h0
  obtain ⟨k, hk, hkl, hke⟩ := C19_rcpI R hil
  obtain ⟨v, hv, hvl, hve⟩ := C19_value R hkl
  rw [hi]; simp only [Option.bind_eq_bind, Option.bind_some]
  rw [hk, Option.bind_some]
  exact ⟨v, hv, hvl, by rw [hve, ← hie]; exact hke⟩

theorem C19_divVV (ha : a ≤ 2 ^ M - 1) (hb : b ≤ 2 ^ M - 1) (h0 : b ≠ 0) :
    ∃ v, divVV w M T a b = some v ∧ v ≤ 2 ^ M - 1 ∧ toR P v * toR P b = toR P a := by
  unfold divVV
  rw [gN_eq, as_if ha, as_if hb, as_if h0]
  by_cases ha0 : a = 0
  · rw [if_pos ha0, mk0 R]
    exact ⟨0, rfl, by omega, by simp [ha0, toR_zero]⟩
  · rw [if_neg ha0]
    obtain ⟨i, hi, hil, hie⟩ := C19_index R ha ha0
    obtain ⟨j, hj, hjl, hje⟩ := C19_index R hb h0
    obtain ⟨k, hk, hkl, hke⟩ := C19_divII R hil hjl
    obtain ⟨v, hv, hvl, hve⟩ := C19_value R hkl
    rw [hi, hj]; simp only [Option.bind_eq_bind, Option.bind_some]
    rw [hk, Option.bind_some]
    exact ⟨v, hv, hvl, by rw [hve, ← hie, ← hje, hke]⟩

theorem C19_divIV (ha : a < 2 ^ M - 1) (hb : b ≤ 2 ^ M - 1) (h0 : b ≠ 0) :
    ∃ v, divIV w M T a b = some v ∧ v ≤ 2 ^ M - 1 ∧ toR P v * toR P b = xR P ^ a := by
  unfold divIV
  rw [gN_eq, as_if ha, as_if hb, as_if h0]
  obtain ⟨j, hj, hjl, hje⟩ := C19_index R hb h0
  obtain ⟨k, hk, hkl, hke⟩ := C19_divII R ha hjl
  obtain ⟨v, hv, hvl, hve⟩ := C19_value R hkl
  rw [hj]; simp only [Option.bind_eq_bind, Option.bind_some]
  rw [hk, Option.bind_some]
  exact ⟨v, hv, hvl, by rw [hve, ← hje, hke]⟩

theorem C19_divVI (ha : a ≤ 2 ^ M - 1) (hb : b < 2 ^ M - 1) :
    ∃ v, divVI w M T a b = some v ∧ v ≤ 2 ^ M - 1 ∧ toR P v * xR P ^ b = toR P a := by
  unfold divVI
  rw [gN_eq, as_if ha, as_if hb]
  by_cases ha0 : a = 0
  · rw [if_pos ha0, mk0 R]
    exact ⟨0, rfl, by omega, by simp [ha0, toR_zero]⟩
  · rw [if_neg ha0]
    obtain ⟨i, hi, hil, hie⟩ := C19_index R ha ha0
    obtain ⟨k, hk, hkl, hke⟩ := C19_divII R hil hb
    obtain ⟨v, hv, hvl, hve⟩ := C19_value R hkl
    rw [hi]; simp only [Option.bind_eq_bind, Option.bind_some]
    rw [hk, Option.bind_some]
    exact ⟨v, hv, hvl, by rw [hve, ← hie, hke]⟩

theorem C19_fmaII (ha : a < 2 ^ M - 1) (hb : b < 2 ^ M - 1) (hc : c ≤ 2 ^ M - 1) :
    Computes M P (fmaII w M T a b c) (xR P ^ a * xR P ^ b + toR P c) := by
  unfold fmaII
  rw [gN_eq, as_if ha, as_if hb, as_if hc]
  obtain ⟨k, hk, hkl, hke⟩ := C19_mulII R ha hb
  obtain ⟨v, hv, hvl, hve⟩ := C19_value R hkl
  simp only [Option.bind_eq_bind]
  rw [hk, Option.bind_some, hv, Option.bind_some, ← hke, ← hve]
  exact C19_add R hvl hc

theorem C19_fmaIV (ha : a < 2 ^ M - 1) (hb : b ≤ 2 ^ M - 1) (hc : c ≤ 2 ^ M - 1) :
    Computes M P (fmaIV w M T a b c) (xR P ^ a * toR P b + toR P c) := by
  unfold fmaIV
  rw [gN_eq, as_if ha, as_if hb, as_if hc]
  by_cases h0 : b = 0
  · rw [if_pos h0]
    exact ⟨c, rfl, hc, by simp [h0, toR_zero]⟩
  · rw [if_neg h0]
    obtain ⟨j, hj, hjl, hje⟩ := C19_index R hb h0
    obtain ⟨k, hk, hkl, hke⟩ := C19_mulII R ha hjl
    obtain ⟨v, hv, hvl, hve⟩ := C19_value R hkl
    simp only [Option.bind_eq_bind]
    rw [hj, Option.bind_some, hk, Option.bind_some, hv, Option.bind_some, ← hje, ← hke, ← hve]
    exact C19_add R hvl hc

theorem C19_fmaVI (ha : a ≤ 2 ^ M - 1) (hb : b < 2 ^ M - 1) (hc : c ≤ 2 ^ M - 1) :
    Computes M P (fmaVI w M T a b c) (toR P a * xR P ^ b + toR P c) := by
  unfold fmaVI
  rw [gN_eq, as_if ha, as_if hb, as_if hc]
  by_cases h0 : a = 0
  · rw [if_pos h0]
    exact ⟨c, rfl, hc, by simp [h0, toR_zero]⟩
  · rw [if_neg h0]
    obtain ⟨i, hi, hil, hie⟩ := C19_index R ha h0
    obtain ⟨k, hk, hkl, hke⟩ := C19_mulII R hil hb
    obtain ⟨v, hv, hvl, hve⟩ := C19_value R hkl
    simp only [Option.bind_eq_bind]
    rw [hi, Option.bind_some, hk, Option.bind_some, hv, Option.bind_some, ← hie, ← hke, ← hve]
    exact C19_add R hvl hc

theorem C19_fmaVV (ha : a ≤ 2 ^ M - 1) (hb : b ≤ 2 ^ M - 1) (hc : c ≤ 2 ^ M - 1) :
    Computes M P (fmaVV w M T a b c) (toR P a * toR P b + toR P c) := by
  unfold fmaVV
  rw [gN_eq, as_if ha, as_if hb, as_if hc]
  by_cases h0 : a = 0 ∨ b = 0
  · rw [if_pos h0]
    refine ⟨c, rfl, hc, ?_⟩
    rcases h0 with rfl | rfl <;> simp [toR_zero]
  · rw [if_neg h0]
    obtain ⟨i, hi, hil, hie⟩ := C19_index R ha (by tauto)
    obtain ⟨j, hj, hjl, hje⟩ := C19_index R hb (by tauto)
    obtain ⟨k, hk, hkl, hke⟩ := C19_mulII R hil hjl
    obtain ⟨v, hv, hvl, hve⟩ := C19_value R hkl
    simp only [Option.bind_eq_bind]
    rw [hi, Option.bind_some, hj, Option.bind_some, hk, Option.bind_some, hv, Option.bind_some,
      ← hie, ← hje, ← hke, ← hve]
    exact C19_add R hvl hc

/-- Comparison of values is equality of field elements. -/
theorem C19_eq (ha : a ≤ 2 ^ M - 1) (hb : b ≤ 2 ^ M - 1) :
    (eqV M a b = some true ↔ toR P a = toR P b) ∧ (neV M a b = some true ↔ toR P a ≠ toR P b) := by
  have hQ : 0 < 2 ^ M := by positivity
  have key : a = b ↔ toR P a = toR P b :=
    ⟨fun h => by rw [h], fun h => toR_inj R.deg (by omega) (by omega) h⟩
  unfold eqV neV
  rw [gN_eq, as_if ha, as_if hb, as_if ha, as_if hb, ← key]
  simp [key]
end

/-! ### C20 -/

/-- The bit-serial product is multiplication modulo POLY, for every degree-`M` polynomial. -/
theorem C20_mul (hM : 0 < M) (hw : M ≤ w) (h : HasDeg M P) {a b : Nat} (ha : a ≤ 2 ^ M - 1) (hb : b ≤ 2 ^ M - 1) :
    Computes M P (refMul w M P a b) (toR P a * toR P b) := by
  have hQ : 0 < 2 ^ M := by positivity
  obtain ⟨c, hc, hl, he⟩ := refMul_ok h hM hw (a := a) (b := b) (by omega) (by omega)
  exact ⟨c, hc, by omega, he⟩

theorem C20_add (hM : 0 < M) (hw : M ≤ w) (h : HasDeg M P) {a b : Nat} (ha : a ≤ 2 ^ M - 1) (hb : b ≤ 2 ^ M - 1) :
    Computes M P (refAdd w M a b) (toR P a + toR P b) := by
  have hQ : 0 < 2 ^ M := by positivity
  have hle : 2 ^ M ≤ 2 ^ w := Nat.pow_le_pow_right (by norm_num) hw
  have hx := Nat.xor_lt_two_pow (show a < 2 ^ M by omega) (show b < 2 ^ M by omega)
  refine ⟨a ^^^ b, ?_, by omega, toR_xor P a b⟩
  unfold refAdd mkValue
  dsimp only
  rw [Nat.mod_eq_of_lt (by omega), gN_eq, assertUB, if_pos (by omega)]; rfl

/-- For an irreducible polynomial of degree at most 32 and a non-zero operand the Euclidean loop
terminates (within `2 ^ (M + 1)` iterations), never hits undefined behaviour, and returns the
inverse. -/
theorem C20_rcp (hM : 0 < M) (hM32 : M ≤ 32) (hw : M ≤ w) (h : HasDeg M P) (hirr : Irreducible (natPoly P))
    {a : Nat} (ha : a ≤ 2 ^ M - 1) (h0 : a ≠ 0) (fuel : Nat) (hf : 2 ^ (M + 1) < fuel) :
    ∃ c, refRcp w M P fuel a = some c ∧ c ≤ 2 ^ M - 1 ∧ toR P c * toR P a = 1 := by
  have hQ : 0 < 2 ^ M := by positivity
  obtain ⟨c, hc, hl, he⟩ := refRcp_ok h hM hM32 hw hirr (a := a) (by omega) h0 fuel hf
  exact ⟨c, hc, by omega, he⟩

/-- Division: the quotient times the divisor is the dividend. -/
theorem C20_div (hM : 0 < M) (hM32 : M ≤ 32) (hw : M ≤ w) (h : HasDeg M P) (hirr : Irreducible (natPoly P))
    {a b : Nat} (ha : a ≤ 2 ^ M - 1) (hb : b ≤ 2 ^ M - 1) (h0 : b ≠ 0) (fuel : Nat) (hf : 2 ^ (M + 1) < fuel) :
    ∃ c, refDiv w M P fuel a b = some c ∧ c ≤ 2 ^ M - 1 ∧ toR P c * toR P b = toR P a := by
  obtain ⟨r, hr, hrl, hre⟩ := C20_rcp hM hM32 hw h hirr hb h0 fuel hf
  obtain ⟨c, hc, hcl, hce⟩ := C20_mul hM hw h ha hrl
  unfold refDiv
  rw [assertUB, if_pos h0, hr]
  refine ⟨c, hc, hcl, ?_⟩
  rw [hce, mul_assoc, hre, mul_one]

/-- Table-based and bit-serial implementations give the same storage values. -/
theorem C20_agree (R : Ready w M P T) {w' : Nat} (hw' : M ≤ w') {a b : Nat} (ha : a ≤ 2 ^ M - 1) (hb : b ≤ 2 ^ M - 1) :
    mulVV w M T a b = refMul w' M P a b ∧ addV w M a b = refAdd w' M a b ∧
    (M ≤ 32 → a ≠ 0 → ∀ fuel, 2 ^ (M + 1) < fuel → rcpV w M T a = refRcp w' M P fuel a) ∧
    (M ≤ 32 → b ≠ 0 → ∀ fuel, 2 ^ (M + 1) < fuel → divVV w M T a b = refDiv w' M P fuel a b) := by
  have hQ : 0 < 2 ^ M := by positivity
  have B := R.built
  have hirr := irreducible_of_primitive B.hM B.deg B.prim
  have uniq : ∀ {e e' : Option Nat} {r : GFR P}, Computes M P e r → Computes M P e' r → e = e' := by
    rintro e e' r ⟨v, rfl, hv, he⟩ ⟨v', rfl, hv', he'⟩
    rw [toR_inj B.deg (show v < 2 ^ M by omega) (show v' < 2 ^ M by omega) (by rw [he, he'])]
  refine ⟨uniq (C19_mulVV R ha hb) (C20_mul B.hM hw' B.deg ha hb),
    uniq (C19_add R ha hb) (C20_add B.hM hw' B.deg ha hb), ?_, ?_⟩
  · intro hM32 h0 fuel hf
    obtain ⟨v, hv, hvl, hve⟩ := C19_rcpV R ha h0
    obtain ⟨c, hc, hcl, hce⟩ := C20_rcp B.hM hM32 hw' B.deg hirr ha h0 fuel hf
    have : toR P v = toR P c := by
      calc toR P v = toR P v * (toR P c * toR P a) := by rw [hce, mul_one]
        _ = (toR P v * toR P a) * toR P c := by ring
        _ = toR P c := by rw [hve, one_mul]
    exact uniq ⟨v, hv, hvl, rfl⟩ ⟨c, hc, hcl, this.symm⟩
  · intro hM32 h0 fuel hf
    obtain ⟨v, hv, hvl, hve⟩ := C19_divVV R ha hb h0
    obtain ⟨c, hc, hcl, hce⟩ := C20_div B.hM hM32 hw' B.deg hirr ha hb h0 fuel hf
    obtain ⟨i, _, _, hi⟩ := C20_rcp B.hM hM32 hw' B.deg hirr hb h0 fuel hf
    have : toR P v = toR P c := by
      calc toR P v = (toR P v * toR P b) * toR P i := by rw [mul_assoc, mul_comm (toR P b), hi, mul_one]
        _ = (toR P c * toR P b) * toR P i := by rw [hve, hce]
        _ = toR P c := by rw [mul_assoc, mul_comm (toR P b), hi, mul_one]
    exact uniq ⟨v, hv, hvl, rfl⟩ ⟨c, hc, hcl, this.symm⟩

/-! ### Concrete fields -/

/-- Executable primitivity test: `x ^ N = 1` and `x ^ (N / p) ≠ 1` for the primes in `l`. -/
def primCheck (M P : Nat) (l : List Nat) : Bool :=
  powmod P M M (2 ^ M - 1) == 1 && l.all fun p => powmod P M M ((2 ^ M - 1) / p) != 1

theorem powmod_toR (h : HasDeg M P) (hM : 0 < M) {k : Nat} (hk : k < 2 ^ M) :
    powmod P M M k < 2 ^ M ∧ toR P (powmod P M M k) = xR P ^ k := by
  obtain ⟨h1, h2⟩ := powmod_spec hM h.top h.2 M k hk
  refine ⟨h1, ?_⟩
  unfold toR xR
  rw [← AdjoinRoot.mk_X, ← map_pow, AdjoinRoot.mk_eq_mk]
  exact h2

theorem primitive_of_check (h : HasDeg M P) (hM : 0 < M) (l : List Nat)
    (hl : ∀ q, q.Prime → q ∣ 2 ^ M - 1 → q ∈ l) (hc : primCheck M P l = true) : Primitive M P := by
  unfold primCheck at hc
  rw [Bool.and_eq_true, beq_iff_eq, List.all_eq_true] at hc
  have hN := N_pos hM
  refine orderOf_eq_of_pow_and_pow_div_prime hN ?_ ?_
  · have := (powmod_toR h hM (k := 2 ^ M - 1) (by omega)).2
    rw [← this, hc.1, toR_one]
  · intro q hq hd heq
    have h1 := hc.2 q (hl q hq hd)
    obtain ⟨h2, h3⟩ := powmod_toR h hM (k := (2 ^ M - 1) / q) (by have := Nat.div_le_self (2 ^ M - 1) q; omega)
    have heq' : toR P (powmod P M M ((2 ^ M - 1) / q)) = toR P 1 := by rw [h3, toR_one]; exact heq
    have := toR_inj h h2 (Nat.one_lt_two_pow (by omega)) heq'
    rw [this] at h1
    simp at h1

theorem mem_of_prime_dvd_prod (l : List Nat) (hl : ∀ p ∈ l, p.Prime) (q : Nat) (hq : q.Prime)
    (h : q ∣ l.prod) : q ∈ l := by
  induction l with
  | nil => simp at h; subst h; exact absurd hq Nat.not_prime_one
  | cons a t ih =>
    rw [List.prod_cons, hq.dvd_mul] at h
    rcases h with h | h
    · have := (Nat.prime_dvd_prime_iff_eq hq (hl a (by simp))).1 h
      simp [this]
    · simp [ih (fun p hp => hl p (by simp [hp])) h]

/-- The polynomials used by the tests are primitive. -/
theorem prim_4_13 : Primitive 4 0x13 :=
  primitive_of_check (by unfold HasDeg; norm_num) (by norm_num) [3, 5]
    (fun q hq hd => mem_of_prime_dvd_prod _ (by simp; norm_num) q hq (by norm_num at hd ⊢; exact hd)) (by decide +kernel)
theorem prim_7_89 : Primitive 7 0x89 :=
  primitive_of_check (by unfold HasDeg; norm_num) (by norm_num) [127]
    (fun q hq hd => mem_of_prime_dvd_prod _ (by simp; norm_num) q hq (by norm_num at hd ⊢; exact hd)) (by decide +kernel)
theorem prim_8_11D : Primitive 8 0x11D :=
  primitive_of_check (by unfold HasDeg; norm_num) (by norm_num) [3, 5, 17]
    (fun q hq hd => mem_of_prime_dvd_prod _ (by simp; norm_num) q hq (by norm_num at hd ⊢; exact hd)) (by decide +kernel)
theorem prim_14 : Primitive 14 0b100000000101011 :=
  primitive_of_check (by unfold HasDeg; norm_num) (by norm_num) [3, 43, 127]
    (fun q hq hd => mem_of_prime_dvd_prod _ (by simp; norm_num) q hq (by norm_num at hd ⊢; exact hd)) (by decide +kernel)
theorem prim_15 : Primitive 15 0b1000000000101101 :=
  primitive_of_check (by unfold HasDeg; norm_num) (by norm_num) [7, 31, 151]
    (fun q hq hd => mem_of_prime_dvd_prod _ (by simp; norm_num) q hq (by norm_num at hd ⊢; exact hd)) (by decide +kernel)
theorem prim_16_1100B : Primitive 16 0b10001000000001011 :=
  primitive_of_check (by unfold HasDeg; norm_num) (by norm_num) [3, 5, 17, 257]
    (fun q hq hd => mem_of_prime_dvd_prod _ (by simp; norm_num) q hq (by norm_num at hd ⊢; exact hd)) (by decide +kernel)
theorem prim_16_1002D : Primitive 16 0b10000000000101101 :=
  primitive_of_check (by unfold HasDeg; norm_num) (by norm_num) [3, 5, 17, 257]
    (fun q hq hd => mem_of_prime_dvd_prod _ (by simp; norm_num) q hq (by norm_num at hd ⊢; exact hd)) (by decide +kernel)

/-- So the tables of those fields can be built (here: storage exactly as wide as the field), and
the hypotheses of C18–C20 are met. -/
theorem C18_tests_build :
    (∃ T, Ready 8 4 0x13 T) ∧ (∃ T, Ready 8 7 0x89 T) ∧ (∃ T, Ready 8 8 0x11D T) ∧
    (∃ T, Ready 16 14 0b100000000101011 T) ∧ (∃ T, Ready 16 15 0b1000000000101101 T) ∧
    (∃ T, Ready 16 16 0b10001000000001011 T) ∧ (∃ T, Ready 16 16 0b10000000000101101 T) := by
  have key : ∀ {w M P : Nat}, 0 < M → M ≤ w → HasDeg M P → Primitive M P → ∃ T, Ready w M P T := by
    intro w M P hM hw h hp
    have hs : Sized M ⟨List.replicate (2 ^ M) 0, List.replicate (2 ^ M) 0⟩ :=
      ⟨List.length_replicate .., List.length_replicate ..⟩
    obtain ⟨T, ht⟩ := (C18_iff hM hw h hs).2 hp
    exact ⟨T, hM, hw, h, _, hs, ht⟩
  refine ⟨key ?_ ?_ ?_ prim_4_13, key ?_ ?_ ?_ prim_7_89, key ?_ ?_ ?_ prim_8_11D, key ?_ ?_ ?_ prim_14,
    key ?_ ?_ ?_ prim_15, key ?_ ?_ ?_ prim_16_1100B, key ?_ ?_ ?_ prim_16_1002D⟩ <;>
  first | (unfold HasDeg; norm_num; done) | (norm_num; done)

/-- A polynomial that is irreducible but not primitive (x^4+x^3+x^2+x+1, order 5) and a reducible
one fail the constructor's assertions. -/
example : tables 8 4 0b11111 ⟨List.replicate 16 0, List.replicate 16 0⟩ = none ∧
    tables 8 4 0b10001 ⟨List.replicate 16 0, List.replicate 16 0⟩ = none := by
  constructor <;> rfl

/-- Concrete values in GF(2^8) with 8-bit storage: 0x80 * 2 = 0x1D and 2 * 0x8E = 1. -/
example : refMul 8 8 0x11D 0x80 2 = some 0x1D ∧ refRcp 8 8 0x11D 1000 2 = some 0x8E := by
  constructor <;> rfl

/-- Where the 32-bit degree computation breaks: for a field of degree 33 and operand `2 ^ 32` the
reference `rcp` evaluates `__builtin_clz(0)`. -/
theorem C20_rcp_clz_limit (P fuel : Nat) : refRcp 64 33 P fuel (2 ^ 32) = none := by
  unfold refRcp
  rw [assertUB, if_pos (by norm_num), Option.bind_eq_bind, Option.bind_some, if_neg (by norm_num)]
  have : deg32 (2 ^ 32) = none := by decide
  rw [this]; rfl

end Verif.GF
