import Verif.RS.Gf
import Verif.GF.Props
import Mathlib.Algebra.Field.TransferInstance
import Mathlib.Algebra.Ring.TransferInstance
/- The table-driven operators of galois_field.hh as an instance of the interface `Ops`, and the
proof that they are field arithmetic. -/
namespace Verif.RS
open Verif.GF

/-- galois_field.hh:21-56 `Value`: a number that passed the constructor's assertion. -/
structure Val (M : Nat) where
  v : Nat
  lt : v < 2 ^ M
deriving DecidableEq

theorem Val.ext' {M : Nat} {a b : Val M} (h : a.v = b.v) : a = b := by
  cases a; cases b; cases h; rfl

/-- A result of a `Value` operator, with its range. -/
def toVal (M : Nat) (e : Option Nat) : Option (Val M) :=
  e.bind fun n => if h : n < 2 ^ M then some ⟨n, h⟩ else none

/-- A result of an `Index` operator, with its range. -/
def toIdx (M : Nat) (e : Option Nat) : Option (Fin (2 ^ M - 1)) :=
  e.bind fun n => if h : n < 2 ^ M - 1 then some ⟨n, h⟩ else none

/-- galois_field.hh: the operators of `GaloisField<M, POLY, TYPE>` with tables `T`.  `u`, `ui` are
the contents of uninitialised variables. -/
def tableOps (w M : Nat) (T : Tab) (u : Val M) (ui : Fin (2 ^ M - 1)) : Ops (Val M) (Fin (2 ^ M - 1)) where
  N := gN M
  M := M
  junk := u
  junkI := ui
  mkV n := toVal M (mkValue w M n)
  mkI n := toIdx M (mkIndex w M n)
  num x := x.v
  numI i := i.1
  index x := toIdx M (GF.index w M T x.v)
  value i := toVal M (GF.value w M T i.1)
  add x y := toVal M (addV w M x.v y.v)
  mulVV x y := toVal M (GF.mulVV w M T x.v y.v)
  divVV x y := toVal M (GF.divVV w M T x.v y.v)
  mulIV i y := toVal M (GF.mulIV w M T i.1 y.v)
  mulVI x i := toVal M (GF.mulVI w M T x.v i.1)
  mulII i j := toIdx M (GF.mulII w M i.1 j.1)
  divII i j := toIdx M (GF.divII w M i.1 j.1)
  fmaII i j c := toVal M (GF.fmaII w M T i.1 j.1 c.v)
  fmaIV i y c := toVal M (GF.fmaIV w M T i.1 y.v c.v)
  fmaVV x y c := toVal M (GF.fmaVV w M T x.v y.v c.v)

variable {w M P : Nat} {T : Tab}

/-- The correspondence of storage values and residue classes. -/
noncomputable def valEquiv (R : Ready w M P T) : Val M ≃ GFR P :=
  Equiv.ofBijective (fun x => toR P x.v)
    ⟨fun a b hab => Val.ext' (toR_inj R.deg a.lt b.lt hab), fun x => by
      obtain ⟨a, ha, he⟩ := toR_surj R.deg x
      exact ⟨⟨a, ha⟩, he⟩⟩

theorem Ready.irr (R : Ready w M P T) : Irreducible (GF2.natPoly P) :=
  irreducible_of_primitive R.hM R.deg R.built.prim

/-- The field structure of the storage values. -/
noncomputable abbrev valField (R : Ready w M P T) : Field (Val M) :=
  haveI : Fact (Irreducible (GF2.natPoly P)) := ⟨Ready.irr R⟩
  (valEquiv R).field

/-- As a ring isomorphism. -/
noncomputable def valIso (R : Ready w M P T) :
    letI := valField R
    Val M ≃+* GFR P :=
  letI := valField R
  haveI : Fact (Irreducible (GF2.natPoly P)) := ⟨Ready.irr R⟩
  { valEquiv R with
    map_mul' := fun a b => (valEquiv R).apply_symm_apply _
    map_add' := fun a b => (valEquiv R).apply_symm_apply _ }

theorem valIso_apply (R : Ready w M P T) (x : Val M) : 
    letI := valField R
    valIso R x = toR P x.v := rfl

open Classical in
/-- The field of the storage values with its numbering. -/
noncomputable def valGf (R : Ready w M P T) (hM : 1 < M) : @Gf (Val M) (valField R) :=
  letI := valField R
  { M := M
    w := w
    hM := hM
    hw := R.hw
    al := (valIso R).symm (xR P)
    ord := by
      have h := orderOf_injective ((valIso R).symm : GFR P →* Val M) (valIso R).symm.injective (xR P)
      rw [← R.built.prim]
      exact h
    log := fun x => if h : x = 0 then 0 else
      (exists_pow R.hM R.deg R.built.prim (x := valIso R x) ((map_ne_zero_iff _ (valIso R).injective).2 h)).choose
    log_lt := by
      intro x
      have hN := N_pos R.hM
      split
      · exact hN
      · rename_i h
        exact (exists_pow R.hM R.deg R.built.prim (x := valIso R x)
          ((map_ne_zero_iff _ (valIso R).injective).2 h)).choose_spec.1
    al_log := by
      intro x hx
      rw [dif_neg hx]
      apply (valIso R).injective
      rw [map_pow, RingEquiv.apply_symm_apply]
      exact (exists_pow R.hM R.deg R.built.prim (x := valIso R x)
          ((map_ne_zero_iff _ (valIso R).injective).2 hx)).choose_spec.2
    num := fun x => x.v
    val := fun n => if h : n < 2 ^ M then ⟨n, h⟩ else ⟨0, by positivity⟩
    num_lt := fun x => x.lt
    val_num := fun x => by rw [dif_pos x.lt]
    num_val := fun n hn => by rw [dif_pos hn]
    num_add := by
      intro x y
      have h1 : toR P (x + y).v = toR P (x.v ^^^ y.v) := by
        rw [toR_xor, ← valIso_apply R, map_add]; rfl
      exact toR_inj R.deg (x + y).lt (Nat.xor_lt_two_pow x.lt y.lt) h1
    num_one := by
      have h1 : toR P (1 : Val M).v = toR P 1 := by
        rw [toR_one, ← valIso_apply R, map_one]
      exact toR_inj R.deg (1 : Val M).lt (by have := Nat.one_lt_two_pow (n := M) (by omega); omega) h1 }

theorem toVal_some {e : Option Nat} {v : Nat} (he : e = some v) (x : Val M) (hx : x.v = v) :
    toVal M e = some x := by
  subst he hx
  simp [toVal, x.lt]

theorem toIdx_some {e : Option Nat} {v : Nat} (he : e = some v) (x : Fin (2 ^ M - 1)) (hx : x.1 = v) :
    toIdx M e = some x := by
  subst he hx
  simp [toIdx]

/-- A `Value` expression that computes the class of a field expression. -/
theorem toVal_computes (R : Ready w M P T) {e : Option Nat} {r : GFR P} (h : Computes M P e r) (x : Val M)
    (hx : toR P x.v = r) : toVal M e = some x := by
  obtain ⟨v, hv, hle, hr⟩ := h
  refine toVal_some hv x ?_
  have hQ : 0 < 2 ^ M := by positivity
  exact toR_inj R.deg x.lt (by omega) (hx.trans hr.symm)

/-- The operators of galois_field.hh are field arithmetic. -/
theorem tableOps_eq (R : Ready w M P T) (hM : 1 < M) (u : Val M) (ui : Fin (2 ^ M - 1)) :
    letI := valField R
    tableOps w M T u ui = (valGf R hM).fieldOps u ui := by
  letI := valField R
  have hQ : 0 < 2 ^ M := by positivity
  have hval : ∀ x : Val M, x.v ≤ 2 ^ M - 1 := fun x => by have := x.lt; omega
  have hal : ∀ i : Nat, toR P ((valGf R hM).al ^ i).v = xR P ^ i := by
    intro i
    rw [← valIso_apply R, map_pow]
    congr 1
    exact (valIso R).apply_symm_apply _
  have hmul : ∀ x y : Val M, toR P (x * y).v = toR P x.v * toR P y.v := fun x y => by
    rw [← valIso_apply R, map_mul]; rfl
  have hadd : ∀ x y : Val M, toR P (x + y).v = toR P x.v + toR P y.v := fun x y => by
    rw [← valIso_apply R, map_add]; rfl
  have hN : gN M = 2 ^ M - 1 := gN_eq M
  have hzero : ∀ x : Val M, x.v = 0 ↔ x = 0 := fun x => (valGf R hM).num_eq_zero (x := x)
  unfold tableOps Gf.fieldOps
  congr 1
  · funext n
    show toVal M (mkValue w M n) = if n % 2 ^ w < 2 ^ M then some ((valGf R hM).val (n % 2 ^ w)) else none
    unfold mkValue
    dsimp only
    rw [hN, assertUB]
    by_cases h : n % 2 ^ w < 2 ^ M
    · rw [if_pos h, if_pos (by omega)]
      refine toVal_some (v := n % 2 ^ w) rfl _ ?_
      exact (valGf R hM).num_val _ h
    · rw [if_neg h, if_neg (by omega)]; rfl
  · funext n
    show toIdx M (mkIndex w M n) = if h : n % 2 ^ w < 2 ^ M - 1 then some ⟨n % 2 ^ w, h⟩ else none
    unfold mkIndex
    dsimp only
    rw [hN, assertUB]
    by_cases h : n % 2 ^ w < 2 ^ M - 1
    · rw [dif_pos h, if_pos h]
      exact toIdx_some (v := n % 2 ^ w) rfl _ rfl
    · rw [dif_neg h, if_neg h]; rfl
  · funext x
    show toIdx M (GF.index w M T x.v) = if x.v = 0 then none else some ⟨(valGf R hM).log x, (valGf R hM).log_lt x⟩
    by_cases h : x.v = 0
    · rw [if_pos h]
      unfold GF.index
      rw [assertUB, assertUB]
      simp [h, toIdx]
    · rw [if_neg h]
      obtain ⟨i, hi, hil, hie⟩ := C19_index R (hval x) h
      refine toIdx_some hi _ ?_
      have h1 := (valGf R hM).al_log x (fun h0 => h ((hzero x).2 h0))
      have h2 : xR P ^ ((valGf R hM).log x) = xR P ^ i := by
        rw [hie, ← hal, h1]
      have := (valGf R hM).log_lt x
      exact (valGf R hM).al_pow_inj this hil (by
        apply (valIso R).injective
        rw [map_pow, map_pow]
        have : valIso R (valGf R hM).al = xR P := (valIso R).apply_symm_apply _
        rw [this]; exact h2)
  · funext i
    exact toVal_computes R (C19_value R i.2) _ (hal i.1)
  · funext x y
    exact toVal_computes R (C19_add R (hval x) (hval y)) _ (hadd x y)
  · funext x y
    exact toVal_computes R (C19_mulVV R (hval x) (hval y)) _ (hmul x y)
  · funext x y
    show toVal M (GF.divVV w M T x.v y.v) = if y.v = 0 then none else some (x / y)
    by_cases h : y.v = 0
    · rw [if_pos h]
      unfold GF.divVV
      rw [hN, assertUB, if_pos (hval x), assertUB, if_pos (hval y), assertUB]
      simp [h, toVal]
    · rw [if_neg h]
      obtain ⟨v, hv, hle, hve⟩ := C19_divVV R (hval x) (hval y) h
      refine toVal_some hv _ ?_
      have hy : y ≠ 0 := fun h0 => h ((hzero y).2 h0)
      have : (⟨v, by omega⟩ : Val M) * y = x := by
        apply (valIso R).injective
        rw [map_mul]; exact hve
      rw [← this, mul_div_cancel_right₀ _ hy]
  · funext i y
    refine toVal_computes R (C19_mulIV R i.2 (hval y)) _ ?_
    rw [hmul, hal]
  · funext x i
    refine toVal_computes R (C19_mulVI R (hval x) i.2) _ ?_
    rw [hmul, hal]
  · funext i j
    exact toIdx_some (mulII_ok R.built i.2 j.2) _ rfl
  · funext i j
    exact toIdx_some (divII_ok R.built i.2 j.2) _ rfl
  · funext i j c
    refine toVal_computes R (C19_fmaII R i.2 j.2 (hval c)) _ ?_
    rw [hadd, hmul, hal, hal]
  · funext i y c
    refine toVal_computes R (C19_fmaIV R i.2 (hval y) (hval c)) _ ?_
    rw [hadd, hmul, hal]
  · funext x y c
    refine toVal_computes R (C19_fmaVV R (hval x) (hval y) (hval c)) _ ?_
    rw [hadd, hmul]

end Verif.RS
