import Verif.RS.Model
import Mathlib.Algebra.Field.Basic
import Mathlib.GroupTheory.OrderOfElement
import Mathlib.Data.Nat.Bitwise
import Mathlib.Tactic.Ring
import Mathlib.Tactic.LinearCombination
/- Field arithmetic as an instance of the interface `Ops`, for any field whose elements are
numbered such that addition is xor and that has a primitive element. -/
namespace Verif.RS

/-- A field with `2 ^ M` elements, a generator `al` of its multiplicative group, and a numbering
of its elements under which addition is exclusive or. -/
structure Gf (F : Type) [Field F] where
  M : Nat
  w : Nat
  hM : 1 < M
  hw : M ≤ w
  al : F
  ord : orderOf al = 2 ^ M - 1
  log : F → Nat
  log_lt : ∀ x, log x < 2 ^ M - 1
  al_log : ∀ x, x ≠ 0 → al ^ log x = x
  num : F → Nat
  val : Nat → F
  num_lt : ∀ x, num x < 2 ^ M
  val_num : ∀ x, val (num x) = x
  num_val : ∀ n, n < 2 ^ M → num (val n) = n
  num_add : ∀ x y, num (x + y) = num x ^^^ num y
  num_one : num 1 = 1

namespace Gf
variable {F : Type} [Field F] (G : Gf F)

def N : Nat := 2 ^ G.M - 1

theorem four_le : 4 ≤ 2 ^ G.M := by
  have := Nat.pow_le_pow_right (n := 2) (by norm_num) (show 2 ≤ G.M from G.hM)
  simpa using this

theorem N_ge : 3 ≤ G.N := by have := G.four_le; unfold N; omega
theorem N_pos : 0 < G.N := by have := G.N_ge; omega
theorem Q_eq : 2 ^ G.M = G.N + 1 := by have := G.four_le; unfold N; omega

theorem num_zero : G.num 0 = 0 := by
  have := G.num_add 0 0
  simpa using this

theorem num_inj {x y : F} (h : G.num x = G.num y) : x = y := by
  rw [← G.val_num x, h, G.val_num]

theorem num_eq_zero {x : F} : G.num x = 0 ↔ x = 0 := by
  constructor
  · intro h; exact G.num_inj (by rw [h, G.num_zero])
  · rintro rfl; exact G.num_zero

theorem num_eq_one {x : F} : G.num x = 1 ↔ x = 1 := by
  constructor
  · intro h; exact G.num_inj (by rw [h, G.num_one])
  · rintro rfl; exact G.num_one

theorem val_zero : G.val 0 = 0 := by rw [← G.num_zero, G.val_num]
theorem val_one : G.val 1 = 1 := by rw [← G.num_one, G.val_num]

include G in
theorem add_self (x : F) : x + x = 0 := by
  rw [← G.num_eq_zero, G.num_add, Nat.xor_self]

include G in
theorem neg_eq (x : F) : -x = x := by
  have := G.add_self x
  exact neg_eq_of_add_eq_zero_left this

include G in
theorem sub_eq (x y : F) : x - y = x + y := by
  rw [sub_eq_add_neg, G.neg_eq]

include G in
theorem two_eq : (2 : F) = 0 := by
  have := G.add_self 1
  rw [one_add_one_eq_two] at this
  exact this

include G in
theorem eq_of_add {x y : F} (h : x + y = 0) : x = y := by
  rw [← G.sub_eq] at h; exact sub_eq_zero.1 h

theorem al_pow_N : G.al ^ G.N = 1 := by
  unfold N; rw [← G.ord]; exact pow_orderOf_eq_one _

theorem al_ne : G.al ≠ 0 := by
  intro h
  have := G.al_pow_N
  rw [h, zero_pow (by have := G.N_pos; omega)] at this
  exact zero_ne_one this

theorem al_pow_ne (k : Nat) : G.al ^ k ≠ 0 := pow_ne_zero _ G.al_ne

theorem al_pow_mod (k : Nat) : G.al ^ (k % G.N) = G.al ^ k := by
  have := pow_mod_orderOf G.al k
  rw [G.ord] at this; exact this

theorem al_pow_inj {i j : Nat} (hi : i < G.N) (hj : j < G.N) (h : G.al ^ i = G.al ^ j) : i = j := by
  have hi' : i < orderOf G.al := by rw [G.ord]; exact hi
  have hj' : j < orderOf G.al := by rw [G.ord]; exact hj
  exact pow_injOn_Iio_orderOf (by simpa using hi') (by simpa using hj') h

theorem log_al {i : Nat} (hi : i < G.N) : G.log (G.al ^ i) = i :=
  G.al_pow_inj (G.log_lt _) hi (G.al_log _ (G.al_pow_ne i))

/-- The operators as exact field arithmetic.  `junk`, `junkI` are arbitrary. -/
def fieldOps (junk : F) (junkI : Fin G.N) : Ops F (Fin G.N) where
  N := G.N
  M := G.M
  junk := junk
  junkI := junkI
  mkV n := if n % 2 ^ G.w < 2 ^ G.M then some (G.val (n % 2 ^ G.w)) else none
  mkI n := if h : n % 2 ^ G.w < G.N then some ⟨n % 2 ^ G.w, h⟩ else none
  num := G.num
  numI i := i.1
  index x := if G.num x = 0 then none else some ⟨G.log x, G.log_lt x⟩
  value i := some (G.al ^ i.1)
  add x y := some (x + y)
  mulVV x y := some (x * y)
  divVV x y := if G.num y = 0 then none else some (x / y)
  mulIV i y := some (G.al ^ i.1 * y)
  mulVI x i := some (x * G.al ^ i.1)
  mulII i j := some ⟨(i.1 + j.1) % G.N, Nat.mod_lt _ G.N_pos⟩
  divII i j := some ⟨(i.1 + G.N - j.1) % G.N, Nat.mod_lt _ G.N_pos⟩
  fmaII i j c := some (G.al ^ i.1 * G.al ^ j.1 + c)
  fmaIV i y c := some (G.al ^ i.1 * y + c)
  fmaVV x y c := some (x * y + c)

theorem lt_w {n : Nat} (h : n ≤ G.N) : n < 2 ^ G.w := by
  have h1 := Nat.pow_le_pow_right (n := 2) (by norm_num) G.hw
  have := G.Q_eq; omega

variable (u : F) (ui : Fin G.N)

@[simp] theorem f_N : (G.fieldOps u ui).N = G.N := rfl
@[simp] theorem f_M : (G.fieldOps u ui).M = G.M := rfl
@[simp] theorem f_junk : (G.fieldOps u ui).junk = u := rfl
@[simp] theorem f_junkI : (G.fieldOps u ui).junkI = ui := rfl
@[simp] theorem f_num (x) : (G.fieldOps u ui).num x = G.num x := rfl
@[simp] theorem f_numI (x) : (G.fieldOps u ui).numI x = x.1 := rfl
@[simp] theorem f_value (i) : (G.fieldOps u ui).value i = some (G.al ^ i.1) := rfl
@[simp] theorem f_add (x y) : (G.fieldOps u ui).add x y = some (x + y) := rfl
@[simp] theorem f_mulVV (x y) : (G.fieldOps u ui).mulVV x y = some (x * y) := rfl
@[simp] theorem f_mulIV (x y) : (G.fieldOps u ui).mulIV x y = some (G.al ^ x.1 * y) := rfl
@[simp] theorem f_mulVI (x y) : (G.fieldOps u ui).mulVI x y = some (x * G.al ^ y.1) := rfl
@[simp] theorem f_mulII (x y) : (G.fieldOps u ui).mulII x y =
    some ⟨(x.1 + y.1) % G.N, Nat.mod_lt _ G.N_pos⟩ := rfl
@[simp] theorem f_divII (x y) : (G.fieldOps u ui).divII x y =
    some ⟨(x.1 + G.N - y.1) % G.N, Nat.mod_lt _ G.N_pos⟩ := rfl
@[simp] theorem f_fmaII (x y c) : (G.fieldOps u ui).fmaII x y c =
    some (G.al ^ x.1 * G.al ^ y.1 + c) := rfl
@[simp] theorem f_fmaIV (x y c) : (G.fieldOps u ui).fmaIV x y c =
    some (G.al ^ x.1 * y + c) := rfl
@[simp] theorem f_fmaVV (x y c) : (G.fieldOps u ui).fmaVV x y c = some (x * y + c) := rfl

theorem f_mkV {n : Nat} (h : n ≤ G.N) : (G.fieldOps u ui).mkV n = some (G.val n) := by
  have h1 := G.lt_w h
  have h2 := G.Q_eq
  simp only [fieldOps, Nat.mod_eq_of_lt h1, if_pos (show n < 2 ^ G.M by omega)]

@[simp] theorem f_mkV0 : (G.fieldOps u ui).mkV 0 = some 0 := by
  rw [f_mkV G u ui (by omega), G.val_zero]

@[simp] theorem f_mkV1 : (G.fieldOps u ui).mkV 1 = some 1 := by
  rw [f_mkV G u ui (by have := G.N_ge; omega), G.val_one]

theorem f_mkI {n : Nat} (h : n < G.N) : (G.fieldOps u ui).mkI n = some ⟨n, h⟩ := by
  have h1 := G.lt_w h.le
  simp only [fieldOps, Nat.mod_eq_of_lt h1, dif_pos h]

@[simp] theorem f_mkI1 : (G.fieldOps u ui).mkI 1 = some ⟨1, by have := G.N_ge; omega⟩ :=
  f_mkI G u ui _

theorem f_index {x : F} (h : x ≠ 0) :
    (G.fieldOps u ui).index x = some ⟨G.log x, G.log_lt x⟩ := by
  simp only [fieldOps, if_neg (mt G.num_eq_zero.1 h)]

theorem f_divVV {x y : F} (h : y ≠ 0) : (G.fieldOps u ui).divVV x y = some (x / y) := by
  simp only [fieldOps, if_neg (mt G.num_eq_zero.1 h)]

theorem al_div {i j : Nat} (hj : j < G.N) :
    G.al ^ ((i + G.N - j) % G.N) = G.al ^ i / G.al ^ j := by
  rw [G.al_pow_mod, eq_div_iff (G.al_pow_ne j), ← pow_add, show i + G.N - j + j = i + G.N by omega,
    pow_add, G.al_pow_N, mul_one]

end Gf
end Verif.RS
