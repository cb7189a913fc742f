import Verif.Polar.Float
import Mathlib.Tactic.Ring
import Mathlib.Algebra.Ring.Int.Parity
/- IEEE 754 binary formats with rounding to nearest, ties to even. -/
namespace Verif.Polar.Ieee

/-- The integer nearest to `x`; the even one of two. -/
def nearest (x : ℚ) : ℤ := if Int.fract x < 1 / 2 then ⌊x⌋ else if 1 / 2 < Int.fract x then ⌊x⌋ + 1 else if ⌊x⌋ % 2 = 0 then ⌊x⌋ else ⌊x⌋ + 1

/-- The exponent of the last place of a non-negative number, for precision `p`; `emin` is that of subnormal numbers. -/
def place (p : Nat) (emin : ℤ) (q : ℚ) : ℤ := max (Int.log 2 q + 1 - p) emin

/-- Rounding of a non-negative number. -/
def roundPos (p : Nat) (emin : ℤ) (q : ℚ) : ℚ := nearest (q / 2 ^ place p emin q) * 2 ^ place p emin q

def round (p : Nat) (emin : ℤ) (q : ℚ) : ℚ := if q < 0 then -roundPos p emin (-q) else roundPos p emin q

/-- The numbers of the format: `p` significant bits, last place at least `emin`. -/
def Rep (p : Nat) (emin : ℤ) (q : ℚ) : Prop := ∃ m e : ℤ, |m| < 2 ^ p ∧ emin ≤ e ∧ q = m * 2 ^ e

theorem nearest_floor (x : ℚ) : nearest x = ⌊x⌋ ∨ nearest x = ⌊x⌋ + 1 := by
  unfold nearest
  split_ifs <;> simp

theorem nearest_int (n : ℤ) : nearest n = n := by
  unfold nearest
  rw [if_pos (by simp)]
  simp

theorem nearest_mono {x y : ℚ} (h : x ≤ y) : nearest x ≤ nearest y := by
  have hf := Int.floor_le_floor h
  rcases Int.lt_or_eq_of_le hf with hl | he
  · rcases nearest_floor x with a | a <;> rcases nearest_floor y with b | b <;> omega
  · have : Int.fract x ≤ Int.fract y := by
      unfold Int.fract
      rw [he]; linarith
    unfold nearest
    rw [he]
    split_ifs <;> first | omega | (exfalso; linarith)

variable {p : Nat} {emin : ℤ}

theorem pow_pos' (e : ℤ) : (0 : ℚ) < 2 ^ e := zpow_pos (by norm_num) e

theorem log_lt (q : ℚ) : q < 2 ^ (Int.log 2 q + 1) := by
  have := Int.lt_zpow_succ_log_self (b := 2) (by norm_num) q
  simpa using this

theorem log_le {q : ℚ} (h : 0 < q) : (2 : ℚ) ^ Int.log 2 q ≤ q := by
  have := Int.zpow_log_le_self (b := 2) (by norm_num) h
  simpa using this

/-- A power of two on the grid is an integer number of last places. -/
theorem grid {e k : ℤ} (h : e ≤ k) : ∃ n : ℤ, (2 : ℚ) ^ k = n * 2 ^ e := by
  refine ⟨2 ^ (k - e).toNat, ?_⟩
  push_cast
  rw [← zpow_natCast, Int.toNat_of_nonneg (by omega), ← zpow_add₀ (by norm_num)]
  congr 1
  omega

theorem roundPos_zero : roundPos p emin 0 = 0 := by
  unfold roundPos
  have : nearest (0 / 2 ^ place p emin 0) = 0 := by
    rw [zero_div]
    have := nearest_int 0
    simpa using this
  rw [this]; simp

theorem roundPos_nonneg {q : ℚ} (h : 0 ≤ q) : 0 ≤ roundPos p emin q := by
  unfold roundPos
  have h1 : (0 : ℤ) ≤ nearest (q / 2 ^ place p emin q) := by
    have := nearest_mono (x := ((0 : ℤ) : ℚ)) (y := q / 2 ^ place p emin q) (by push_cast; have := pow_pos' (place p emin q); positivity)
    rwa [nearest_int] at this
  have := pow_pos' (place p emin q)
  positivity

/-- Rounding does not cross a number of the grid. -/
theorem roundPos_le {q : ℚ} {k : ℤ} (h : q ≤ 2 ^ k) (hk : place p emin q ≤ k) : roundPos p emin q ≤ 2 ^ k := by
  obtain ⟨n, hn⟩ := grid hk
  have hp := pow_pos' (place p emin q)
  unfold roundPos
  have : nearest (q / 2 ^ place p emin q) ≤ n := by
    rw [← nearest_int n]
    refine nearest_mono ?_
    rw [div_le_iff₀ hp, ← hn]
    exact h
  rw [hn]
  exact mul_le_mul_of_nonneg_right (by exact_mod_cast this) hp.le

theorem le_roundPos {q : ℚ} {k : ℤ} (h : 2 ^ k ≤ q) (hk : place p emin q ≤ k) : 2 ^ k ≤ roundPos p emin q := by
  obtain ⟨n, hn⟩ := grid hk
  have hp := pow_pos' (place p emin q)
  unfold roundPos
  have : n ≤ nearest (q / 2 ^ place p emin q) := by
    rw [← nearest_int n]
    refine nearest_mono ?_
    rw [le_div_iff₀ hp, ← hn]
    exact h
  rw [hn]
  exact mul_le_mul_of_nonneg_right (by exact_mod_cast this) hp.le

theorem roundPos_mono (hp : 1 ≤ p) {x y : ℚ} (h0 : 0 ≤ x) (h : x ≤ y) : roundPos p emin x ≤ roundPos p emin y := by
  rcases h0.eq_or_lt with rfl | h0
  · rw [roundPos_zero]; exact roundPos_nonneg h
  have hy : 0 < y := h0.trans_le h
  have hl : Int.log 2 x ≤ Int.log 2 y := Int.log_mono_right h0 h
  have he : place p emin x ≤ place p emin y := by unfold place; omega
  rcases Int.lt_or_eq_of_le he with hlt | heq
  · have h1 : place p emin y = Int.log 2 y + 1 - p := by unfold place at *; omega
    have h2 : Int.log 2 x + 1 ≤ Int.log 2 y := by unfold place at *; omega
    have h3 : x ≤ 2 ^ Int.log 2 y := (log_lt x).le.trans (zpow_le_zpow_right₀ (by norm_num) h2)
    exact (roundPos_le h3 (by omega)).trans (le_roundPos (log_le hy) (by omega))
  · unfold roundPos
    rw [heq]
    have hpp := pow_pos' (place p emin y)
    refine mul_le_mul_of_nonneg_right ?_ hpp.le
    exact_mod_cast nearest_mono (div_le_div_of_nonneg_right h hpp.le)

theorem roundPos_rep (hp : 1 ≤ p) {q : ℚ} (h : 0 ≤ q) : Rep p emin (roundPos p emin q) := by
  set e := place p emin q with he
  have hpp := pow_pos' e
  have h1 : q / 2 ^ e ≤ ((2 ^ p : ℤ) : ℚ) := by
    rw [div_le_iff₀ hpp]
    push_cast
    rw [← zpow_natCast, ← zpow_add₀ (by norm_num)]
    exact (log_lt q).le.trans (zpow_le_zpow_right₀ (by norm_num) (by unfold place at he; omega))
  have h2 : nearest (q / 2 ^ e) ≤ 2 ^ p := by
    have := nearest_mono h1
    rwa [nearest_int] at this
  have h3 : (0 : ℤ) ≤ nearest (q / 2 ^ e) := by
    have := nearest_mono (x := ((0 : ℤ) : ℚ)) (y := q / 2 ^ e) (by push_cast; positivity)
    rwa [nearest_int] at this
  have hemin : emin ≤ e := by unfold place at he; omega
  rcases Int.lt_or_eq_of_le h2 with hl | heq
  · exact ⟨nearest (q / 2 ^ e), e, by rwa [abs_of_nonneg h3], hemin, rfl⟩
  · refine ⟨1, e + p, ?_, by omega, ?_⟩
    · rw [abs_one]; exact one_lt_pow₀ (by norm_num) (by omega)
    · unfold roundPos
      rw [← he, heq]
      push_cast
      rw [zpow_add₀ (by norm_num), zpow_natCast]; ring

theorem roundPos_exact {q : ℚ} (h : 0 ≤ q) (hr : Rep p emin q) : roundPos p emin q = q := by
  rcases h.eq_or_lt with rfl | h0
  · exact roundPos_zero
  obtain ⟨m, e, hm, he, rfl⟩ := hr
  set q : ℚ := m * 2 ^ e with hq
  have hpp := pow_pos' e
  have hle : place p emin q ≤ e := by
    have h1 : (2 : ℚ) ^ Int.log 2 q < 2 ^ (e + p) := by
      refine (log_le h0).trans_lt ?_
      rw [hq, zpow_add₀ (by norm_num), mul_comm, zpow_natCast]
      refine mul_lt_mul_of_pos_left ?_ hpp
      have := (abs_lt.1 hm).2
      exact_mod_cast this
    have h2 : Int.log 2 q < e + p := (zpow_lt_zpow_iff_right₀ (by norm_num)).1 h1
    unfold place
    omega
  obtain ⟨n, hn⟩ := grid hle
  have hpe := pow_pos' (place p emin q)
  have h1 : q / 2 ^ place p emin q = ((m * n : ℤ) : ℚ) := by
    rw [div_eq_iff hpe.ne']
    conv_lhs => rw [hq, hn]
    push_cast; ring
  unfold roundPos
  rw [h1, nearest_int, ← h1, div_mul_cancel₀ _ hpe.ne']

theorem rep_neg {q : ℚ} (h : Rep p emin q) : Rep p emin (-q) := by
  obtain ⟨m, e, h1, h2, rfl⟩ := h
  exact ⟨-m, e, by rwa [abs_neg], h2, by push_cast; ring⟩

theorem round_mono (hp : 1 ≤ p) {x y : ℚ} (h : x ≤ y) : round p emin x ≤ round p emin y := by
  unfold round
  split_ifs with h1 h2 h2
  · have := roundPos_mono (emin := emin) hp (x := -y) (y := -x) (by linarith) (by linarith)
    linarith
  · have h3 := roundPos_nonneg (p := p) (emin := emin) (q := -x) (by linarith)
    have h4 := roundPos_nonneg (p := p) (emin := emin) (q := y) (by linarith)
    linarith
  · linarith
  · exact roundPos_mono hp (by linarith) h

end Ieee

/-- The IEEE 754 binary format with precision `p`, least exponent `emin` of the last place, and numbers below `2^emax`, rounding to
nearest even. -/
def ieee (p : Nat) (emin : ℤ) (emax : Nat) (hp : 1 ≤ p) (he : emin ≤ 0) (hm : 1 ≤ emax) : Rounding where
  rep := Ieee.Rep p emin
  rnd := Ieee.round p emin
  huge := 2 ^ emax
  zero := ⟨0, 0, by simp, he, by simp⟩
  one := ⟨1, 0, by rw [abs_one]; exact one_lt_pow₀ (by norm_num) (by omega), he, by simp⟩
  neg q h := Ieee.rep_neg h
  twice := by
    rintro q ⟨m, e, h1, h2, rfl⟩
    exact ⟨m, e + 1, h1, by omega, by rw [zpow_add₀ (by norm_num)]; ring⟩
  out q := by
    unfold Ieee.round
    split_ifs with h
    · exact Ieee.rep_neg (Ieee.roundPos_rep hp (by linarith))
    · exact Ieee.roundPos_rep hp (by linarith)
  exact q h := by
    unfold Ieee.round
    split_ifs with h'
    · rw [Ieee.roundPos_exact (by linarith) (Ieee.rep_neg h), neg_neg]
    · exact Ieee.roundPos_exact (by linarith) h
  mono _ _ h := Ieee.round_mono hp h
  one_lt := one_lt_pow₀ (by norm_num) (by omega)

/-- IEEE 754 binary32, `float` -/
def binary32 : Rounding := ieee 24 (-149) 128 (by norm_num) (by norm_num) (by norm_num)
/-- IEEE 754 binary64, `double` -/
def binary64 : Rounding := ieee 53 (-1074) 1024 (by norm_num) (by norm_num) (by norm_num)

end Verif.Polar
