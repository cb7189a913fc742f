import Batteries.Data.BitVec.Lemmas
import Mathlib.Tactic.Linarith
/- Vector registers as bit vectors, and their lanes.  Lane 0 is in the least significant bits (x86; Arm in little-endian mode). -/
namespace Verif.SIMD

/-- Lane `i` of width `w` of a register: `v[i]` of the union. -/
def lane {N : Nat} (w : Nat) (a : BitVec N) (i : Nat) : BitVec w := a.extractLsb' (i * w) w

/-- The register with the lanes `g 0, g 1, ..`. -/
def ofLanes (N w : Nat) (g : Nat → BitVec w) : BitVec N := BitVec.ofFnLE fun k : Fin N => (g (k / w)).getLsbD (k % w)

/-- Lane-wise operation with one operand. -/
def map1 {N : Nat} (w : Nat) (f : BitVec w → BitVec w) (a : BitVec N) : BitVec N := ofLanes N w fun i => f (lane w a i)
/-- Lane-wise operation with two operands. -/
def map2 {N : Nat} (w : Nat) (f : BitVec w → BitVec w → BitVec w) (a b : BitVec N) : BitVec N :=
  ofLanes N w fun i => f (lane w a i) (lane w b i)

/-- A `SIMD` union of several registers `m[0], m[1], ..` of `N` bits: `v[k]`. -/
def vw (N w : Nat) (m : Nat → BitVec N) (k : Nat) : BitVec w := lane w (m (k / (N / w))) (k % (N / w))

/-- What an uninitialised register holds. -/
opaque uninit (N : Nat) : BitVec N

/-- `for (int i = 0; i < M; ++i) tmp.m[i] = f(i);` on an uninitialised `tmp`. -/
def regs {N : Nat} (M : Nat) (f : Nat → BitVec N) : Nat → BitVec N := fun i => if i < M then f i else uninit N

theorem regs_lt {N M : Nat} (f : Nat → BitVec N) {i : Nat} (h : i < M) : regs M f i = f i := if_pos h

theorem lane_ofLanes {N w : Nat} (g : Nat → BitVec w) {i : Nat} (h : (i + 1) * w ≤ N) : lane w (ofLanes N w g) i = g i := by
  have e : (i + 1) * w = i * w + w := by rw [Nat.add_mul, Nat.one_mul]
  apply BitVec.eq_of_getLsbD_eq
  intro j hj
  have hw : 0 < w := by omega
  unfold lane ofLanes
  rw [BitVec.getLsbD_extractLsb', BitVec.getLsbD_ofFnLE, dif_pos (by omega)]
  have h1 : (i * w + j) / w = i := by rw [Nat.mul_comm, Nat.mul_add_div hw, Nat.div_eq_of_lt hj, Nat.add_zero]
  have h2 : (i * w + j) % w = j := by rw [Nat.mul_comm, Nat.mul_add_mod, Nat.mod_eq_of_lt hj]
  simp [hj, h1, h2]

theorem lane_map1 {N w : Nat} (f : BitVec w → BitVec w) (a : BitVec N) {i : Nat} (h : (i + 1) * w ≤ N) :
    lane w (map1 w f a) i = f (lane w a i) := by rw [map1, lane_ofLanes _ h]

theorem lane_map2 {N w : Nat} (f : BitVec w → BitVec w → BitVec w) (a b : BitVec N) {i : Nat} (h : (i + 1) * w ≤ N) :
    lane w (map2 w f a b) i = f (lane w a i) (lane w b i) := by rw [map2, lane_ofLanes _ h]

theorem lane_and {N w : Nat} (a b : BitVec N) (i : Nat) : lane w (a &&& b) i = lane w a i &&& lane w b i := by
  apply BitVec.eq_of_getLsbD_eq
  intro j hj
  simp [lane, hj]

theorem lane_or {N w : Nat} (a b : BitVec N) (i : Nat) : lane w (a ||| b) i = lane w a i ||| lane w b i := by
  apply BitVec.eq_of_getLsbD_eq
  intro j hj
  simp [lane, hj]

theorem lane_xor {N w : Nat} (a b : BitVec N) (i : Nat) : lane w (a ^^^ b) i = lane w a i ^^^ lane w b i := by
  apply BitVec.eq_of_getLsbD_eq
  intro j hj
  simp [lane, hj]

theorem lane_not {N w : Nat} (a : BitVec N) {i : Nat} (h : (i + 1) * w ≤ N) : lane w (~~~ a) i = ~~~ lane w a i := by
  have e : (i + 1) * w = i * w + w := by rw [Nat.add_mul, Nat.one_mul]
  apply BitVec.eq_of_getLsbD_eq
  intro j hj
  simp [lane, hj, show i * w + j < N by omega]

theorem lane_zero {N w : Nat} (i : Nat) : lane w (0 : BitVec N) i = 0 := by
  apply BitVec.eq_of_getLsbD_eq
  intro j hj
  simp [lane]

/-- The lanes determine the register. -/
theorem ext_lane {N w : Nat} (hw : 0 < w) {a b : BitVec N} (hN : w ∣ N) (h : ∀ i, (i + 1) * w ≤ N → lane w a i = lane w b i) : a = b := by
  apply BitVec.eq_of_getLsbD_eq
  intro k hk
  obtain ⟨n, rfl⟩ := hN
  have h1 : k / w < n := Nat.div_lt_of_lt_mul hk
  have h2 := h (k / w) (by rw [Nat.mul_comm w n]; exact Nat.mul_le_mul_right _ h1)
  have h3 := congrArg (fun x => BitVec.getLsbD x (k % w)) h2
  simp only [lane, BitVec.getLsbD_extractLsb', Nat.mod_lt k hw, decide_true, Bool.true_and] at h3
  rwa [Nat.mul_comm (k / w) w, Nat.div_add_mod] at h3

end Verif.SIMD
