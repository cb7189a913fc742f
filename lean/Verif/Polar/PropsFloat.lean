import Verif.Polar.FloatProof
import Verif.Polar.Ieee
/- C59: the polar encoder and the successive cancellation decoder on `float` and `double`. -/
namespace Verif.Polar
variable {τ : Type}

/-! ### Specification -/

/-- The symbol 1 or -1 as a floating point number. -/
def flSym (x : Int) : Fl := .fin (x : ℚ)

/-- The floating point value `s` is a number of the format or an infinity, is not zero, and has the sign of the symbol `x`. -/
def HasSign (F : Rounding) (s : Fl) (x : Int) : Prop :=
  (∃ q : ℚ, s = .fin q ∧ F.rep q ∧ |q| < F.huge ∧ 0 < q * x) ∨ (s = .inf false ∧ x = 1) ∨ (s = .inf true ∧ x = -1)

def qsign (v : ℚ) : Int := if 0 < v then 1 else if v < 0 then -1 else 0

/-- Min-sum decoding of real soft values, where `r` is done to every sum. -/
def minSum (r : ℚ → ℚ) : Arith ℚ := ⟨fun a b => qsign a * qsign b * min |a| |b|, fun h a b => r (h * a + b), qsign⟩

/-! ### Proofs -/

theorem HasSign.spec {F : Rounding} {s : Fl} {x : Int} (hx : Sym x) (h : HasSign F s x) : s.Num F ∧ s.Sgn x := by
  rcases h with ⟨q, rfl, h1, h2, h3⟩ | ⟨rfl, rfl⟩ | ⟨rfl, rfl⟩
  · refine ⟨⟨h1, h2⟩, ?_⟩
    rcases hx with rfl | rfl
    · exact Or.inl ⟨rfl, by push_cast at h3; linarith⟩
    · exact Or.inr ⟨rfl, by push_cast at h3; linarith⟩
  · exact ⟨trivial, by simp [Fl.Sgn]⟩
  · exact ⟨trivial, by simp [Fl.Sgn]⟩

theorem qsign_cases (v : ℚ) : (0 < v ∧ qsign v = 1) ∨ (v = 0 ∧ qsign v = 0) ∨ (v < 0 ∧ qsign v = -1) := by
  unfold qsign
  rcases lt_trichotomy v 0 with h | h | h
  · exact Or.inr (Or.inr ⟨h, by rw [if_neg (by linarith), if_pos h]⟩)
  · exact Or.inr (Or.inl ⟨h, by simp [h]⟩)
  · exact Or.inl ⟨h, by rw [if_pos h]⟩

theorem qsign_pos {v : ℚ} (h : 0 < v) : qsign v = 1 := if_pos h
theorem qsign_neg {v : ℚ} (h : v < 0) : qsign v = -1 := by unfold qsign; rw [if_neg (by linarith), if_pos h]

theorem qsign_mul_pos {x : Int} (hx : x = 1 ∨ x = 0 ∨ x = -1) {m : ℚ} (hm : 0 < m) : qsign (x * m) = x := by
  rcases hx with rfl | rfl | rfl
  · exact qsign_pos (by push_cast; linarith)
  · simp [qsign]
  · exact qsign_neg (by push_cast; linarith)

theorem minF_sign (a b : ℚ) : qsign (qsign a * qsign b * min |a| |b|) = qsign a * qsign b := by
  by_cases ha : a = 0
  · subst ha; simp [qsign]
  by_cases hb : b = 0
  · subst hb; simp [qsign]
  have := qsign_mul_pos (x := qsign a * qsign b) (m := min |a| |b|) (by
    rcases qsign_cases a with ⟨_, e⟩ | ⟨_, e⟩ | ⟨_, e⟩ <;> rcases qsign_cases b with ⟨_, e'⟩ | ⟨_, e'⟩ | ⟨_, e'⟩ <;> rw [e, e'] <;> norm_num) (lt_min (abs_pos.2 ha) (abs_pos.2 hb))
  rw [← this]; push_cast; rfl

theorem qsign_abs (a : ℚ) : |(qsign a : ℚ)| ≤ 1 := by
  rcases qsign_cases a with ⟨_, e⟩ | ⟨_, e⟩ | ⟨_, e⟩ <;> rw [e] <;> norm_num

theorem minF_abs (a b : ℚ) : |(qsign a : ℚ) * qsign b * (min |a| |b|)| ≤ |a| := by
  rw [abs_mul, abs_mul, abs_of_nonneg (le_min (abs_nonneg a) (abs_nonneg b))]
  have h1 := qsign_abs a
  have h2 := qsign_abs b
  have h3 : |(qsign a : ℚ)| * |(qsign b : ℚ)| ≤ 1 := mul_le_one₀ h1 (abs_nonneg _) h2
  calc _ ≤ 1 * min |a| |b| := mul_le_mul_of_nonneg_right h3 (le_min (abs_nonneg a) (abs_nonneg b))
    _ ≤ _ := by rw [one_mul]; exact min_le_left _ _

/-- `F a b` is 0, ±a or ±b. -/
theorem minF_cases (a b : ℚ) : ∃ c, (c = a ∨ c = b ∨ c = 0) ∧ ((qsign a : ℚ) * qsign b * min |a| |b| = c ∨ (qsign a : ℚ) * qsign b * min |a| |b| = -c) := by
  have hz : ∀ x y : ℚ, x = 0 ∨ x = 1 ∨ x = -1 → y = 0 ∨ y = 1 ∨ y = -1 → x * y = 0 ∨ x * y = 1 ∨ x * y = -1 := by
    rintro x y (rfl | rfl | rfl) (rfl | rfl | rfl) <;> norm_num
  have hs : ∀ v : ℚ, (qsign v : ℚ) = 0 ∨ (qsign v : ℚ) = 1 ∨ (qsign v : ℚ) = -1 := by
    intro v
    rcases qsign_cases v with ⟨_, e⟩ | ⟨_, e⟩ | ⟨_, e⟩ <;> rw [e] <;> norm_num
  have := hz _ _ (hs a) (hs b)
  generalize (qsign a : ℚ) * qsign b = w at this ⊢
  rcases this with rfl | rfl | rfl
  · exact ⟨0, by simp, by simp⟩
  all_goals
    rcases min_choice |a| |b| with m | m <;> rw [m]
    · refine ⟨a, by simp, ?_⟩
      rcases abs_choice a with k | k <;> rw [k] <;> simp
    · refine ⟨b, by simp, ?_⟩
      rcases abs_choice b with k | k <;> rw [k] <;> simp

/-- The soft values at depth `t` when those of depth 0 are bounded by `B`. -/
def RF (F : Rounding) (B : ℚ) (t : Nat) (v : ℚ) : Prop := F.rep v ∧ |v| ≤ B * 2 ^ t

theorem rep_minF {F : Rounding} {a b : ℚ} (ha : F.rep a) (hb : F.rep b) : F.rep ((qsign a : ℚ) * qsign b * min |a| |b|) := by
  obtain ⟨c, hc, h⟩ := minF_cases a b
  have : F.rep c := by rcases hc with rfl | rfl | rfl <;> first | assumption | exact F.zero
  rcases h with h | h <;> rw [h]
  · exact this
  · exact F.neg _ this

theorem abs_sym_mul_add {x : Int} (hx : Sym x) (a b : ℚ) : |(x : ℚ) * a + b| ≤ |a| + |b| := by
  refine (abs_add_le _ _).trans ?_
  rw [abs_mul]
  rcases hx with rfl | rfl <;> simp

theorem rnd_abs {F : Rounding} {C q : ℚ} (hC : F.rep C) (h : |q| ≤ C) : |F.rnd q| ≤ C := by
  obtain ⟨h1, h2⟩ := abs_le.1 h
  have a := F.mono _ _ h1
  have b := F.mono _ _ h2
  rw [F.exact _ (F.neg _ hC)] at a
  rw [F.exact _ hC] at b
  exact abs_le.2 ⟨a, b⟩

theorem rep_pow {F : Rounding} {B : ℚ} (hB : F.rep B) (t : Nat) : F.rep (B * 2 ^ t) := by
  induction t with
  | zero => simpa using hB
  | succ t ih => have := F.twice _ ih; rwa [show 2 * (B * 2 ^ t) = B * 2 ^ (t + 1) by rw [pow_succ]; ring] at this

theorem floatLaws (F : Rounding) {B : ℚ} (hB : F.rep B) : (minSum F.rnd).Laws (RF F B) where
  rF t a b ha hb := by
    have hB0 : 0 ≤ B * 2 ^ t := (abs_nonneg a).trans ha.2
    refine ⟨rep_minF ha.1 hb.1, (minF_abs a b).trans (ha.2.trans ?_)⟩
    rw [pow_succ]; linarith
  rG t h a b hh ha hb := by
    refine ⟨F.out _, rnd_abs (rep_pow hB _) ((abs_sym_mul_add hh a b).trans ?_)⟩
    have h1 := ha.2
    have h2 := hb.2
    rw [pow_succ]; linarith
  sgn a := by
    rcases qsign_cases a with ⟨_, e⟩ | ⟨_, e⟩ | ⟨_, e⟩ <;> simp [minSum, e]
  F_sgn _ a b _ _ := minF_sign a b
  G_sgn _ a b ha hb h1 h2 := by
    show qsign (F.rnd (((qsign a * qsign b : Int) : ℚ) * a + b)) = qsign b
    change qsign a ≠ 0 at h1
    change qsign b ≠ 0 at h2
    have hb := hb.1
    rcases qsign_cases a with ⟨h, e⟩ | ⟨h, e⟩ | ⟨h, e⟩ <;> rcases qsign_cases b with ⟨h', e'⟩ | ⟨h', e'⟩ | ⟨h', e'⟩ <;> (try exact absurd e h1) <;> (try exact absurd e' h2) <;> rw [e, e'] <;> push_cast <;> rw [add_comm]
    · exact qsign_pos (Fl.rnd_pos hb h' (by linarith))
    · exact qsign_neg (Fl.rnd_neg hb h' (by linarith))
    · exact qsign_pos (Fl.rnd_pos hb h' (by linarith))
    · exact qsign_neg (Fl.rnd_neg hb h' (by linarith))

theorem signum_fin (v : ℚ) : Fl.signum (.fin v) = flSym (qsign v) := by
  unfold flSym Fl.signum Fl.lt
  rcases qsign_cases v with ⟨h, e⟩ | ⟨h, e⟩ | ⟨h, e⟩ <;> rw [e]
  · simp [h, h.le]
  · simp [h]
  · simp [h, h.le]

theorem min_fin (a b : ℚ) : Fl.min (.fin a) (.fin b) = .fin (min a b) := by
  unfold Fl.min Fl.lt
  by_cases h : b < a
  · rw [if_pos (by simpa using h), min_eq_right h.le]
  · rw [if_neg (by simpa using h), min_eq_left (by linarith)]

theorem sgn01 (v : ℚ) : qsign v = 1 ∨ qsign v = 0 ∨ qsign v = -1 := by
  rcases qsign_cases v with ⟨_, e⟩ | ⟨_, e⟩ | ⟨_, e⟩ <;> simp [e]

theorem mul01 {F : Rounding} {x : Int} (hx : x = 1 ∨ x = 0 ∨ x = -1) {q : ℚ} (h : F.rep q) (hq : |q| < F.huge) : Fl.mul F (flSym x) (.fin q) = .fin (x * q) := by
  unfold flSym
  refine Fl.ofQ_rep ?_ ?_
  · rcases hx with rfl | rfl | rfl
    · simpa using h
    · simpa using F.zero
    · simpa using F.neg _ h
  · rcases hx with rfl | rfl | rfl
    · simpa using hq
    · have := F.one_lt; simp; linarith
    · simpa using hq

theorem sym_small {F : Rounding} {x : Int} (hx : x = 1 ∨ x = 0 ∨ x = -1) : F.rep (x : ℚ) ∧ |(x : ℚ)| < F.huge := by
  have := F.one_lt
  rcases hx with rfl | rfl | rfl
  · simpa using ⟨F.one, this⟩
  · simpa using ⟨F.zero, by linarith⟩
  · simpa using ⟨F.neg _ F.one, this⟩

theorem prod_fin {F : Rounding} {a b : ℚ} (ha : F.rep a) (hb : F.rep b) (ba : |a| < F.huge) :
    Fl.mul F (Fl.mul F (Fl.signum (.fin a)) (Fl.signum (.fin b))) (Fl.min (Fl.abs (.fin a)) (Fl.abs (.fin b))) = .fin (qsign a * qsign b * min |a| |b|) := by
  have h := sym_small (F := F) (sgn01 b)
  rw [signum_fin a, signum_fin b]
  conv_lhs => rw [show flSym (qsign b) = Fl.fin (qsign b : ℚ) from rfl]
  rw [mul01 (sgn01 a) h.1 h.2]
  show Fl.mul F _ (Fl.min (.fin |a|) (.fin |b|)) = _
  rw [min_fin]
  have e : Fl.fin ((qsign a : ℚ) * qsign b) = flSym (qsign a * qsign b) := by unfold flSym; push_cast; rfl
  have hm : F.rep |a| ∧ F.rep |b| := ⟨by rcases abs_choice a with k | k <;> rw [k] <;> first | exact ha | exact F.neg _ ha,
    by rcases abs_choice b with k | k <;> rw [k] <;> first | exact hb | exact F.neg _ hb⟩
  rw [e, mul01 (by rcases sgn01 a with k | k | k <;> rcases sgn01 b with k' | k' | k' <;> rw [k, k'] <;> norm_num)
    (by rcases min_choice |a| |b| with k | k <;> rw [k] <;> first | exact hm.1 | exact hm.2)
    (by rw [abs_of_nonneg (le_min (abs_nonneg a) (abs_nonneg b))]; exact (min_le_left _ _).trans_lt ba)]
  push_cast; rfl

theorem madd_fin {F : Rounding} {x : Int} {a b C : ℚ} (hx : Sym x) (ha : F.rep a) (ba : |a| < F.huge) (hC : F.rep C) (h : |a| + |b| ≤ C) (hh : C < F.huge) :
    Fl.add F (Fl.mul F (flSym x) (.fin a)) (.fin b) = .fin (F.rnd (x * a + b)) := by
  rw [mul01 (by rcases hx with h | h <;> simp [h]) ha ba]
  show Fl.ofQ F _ = _
  unfold Fl.ofQ
  rw [if_pos ((rnd_abs hC ((abs_sym_mul_add hx a b).trans h)).trans_lt hh)]

theorem laneF (F : Rounding) {B : ℚ} (hB : F.rep B) {M : Nat} (hh : B * 2 ^ M < F.huge) {H : PH τ} (g : τ → Fl)
    (h1 : g H.one = .fin 1) (h2 : ∀ a b, g (H.qmul a b) = Fl.mul F (g a) (g b)) (h3 : ∀ a, g (H.signum a) = Fl.signum (g a))
    (h4 : ∀ a b, g (H.prod a b) = Fl.mul F (Fl.mul F (Fl.signum (g a)) (Fl.signum (g b))) (Fl.min (Fl.abs (g a)) (Fl.abs (g b))))
    (h5 : ∀ a b c, g (H.madd a b c) = Fl.add F (Fl.mul F (g a) (g b)) (g c)) :
    Lane H (minSum F.rnd) M (RF F B) (fun a v => g a = .fin v) (fun a x => g a = flSym x) where
  one := by rw [h1]; simp [flSym]
  qmul := by
    rintro a b x y hx hy ha hb
    rw [h2, ha, hb]; exact Fl.mul_sym hx hy
  signum := by
    rintro a v ha -
    rw [h3, ha]; exact signum_fin v
  prod := by
    rintro t a b v w ht hv hw ha hb
    have hB0 : 0 ≤ B := by
      have := (abs_nonneg v).trans hv.2
      exact nonneg_of_mul_nonneg_left this (by positivity)
    have hb' : B * 2 ^ t < F.huge := (mul_le_mul_of_nonneg_left (pow_le_pow_right₀ (by norm_num) ht.le) hB0).trans_lt hh
    rw [h4, ha, hb]
    exact prod_fin hv.1 hw.1 (hv.2.trans_lt hb')
  madd := by
    rintro t h a b x v w ht hx hv hw hh' ha hb
    have hB0 : 0 ≤ B := by
      have := (abs_nonneg v).trans hv.2
      exact nonneg_of_mul_nonneg_left this (by positivity)
    have hb' : B * 2 ^ (t + 1) < F.huge := (mul_le_mul_of_nonneg_left (pow_le_pow_right₀ (by norm_num) ht) hB0).trans_lt hh
    have e : B * 2 ^ (t + 1) = B * 2 ^ t + B * 2 ^ t := by rw [pow_succ]; ring
    have hbt : 0 ≤ B * 2 ^ t := by positivity
    have hv2 := hv.2
    have hw2 := hw.2
    rw [h5, hh', ha, hb]
    exact madd_fin hx hv.1 (by linarith) (rep_pow hB (t + 1)) (by linarith) hb'

/-- Two arithmetics that agree on what occurs make the same decisions. -/
theorem softAt_agree {V : Type} {A A' : Arith V} {R : Nat → V → Prop} {M : Nat} {σ : Nat → V} {u : Nat → Int} (hu : ∀ i, Sym (u i)) (hσ : ∀ i, i < 2 ^ M → R 0 (σ i))
    (rF : ∀ t a b, t < M → R t a → R t b → R (t + 1) (A.F a b) ∧ A'.F a b = A.F a b)
    (rG : ∀ t h a b, t < M → Sym h → R t a → R t b → R (t + 1) (A.G h a b) ∧ A'.G h a b = A.G h a b) :
    ∀ t n i, t ≤ M → i < 2 ^ (M - t) → R t (softAt A M σ u t n i) ∧ softAt A' M σ u t n i = softAt A M σ u t n i := by
  intro t
  induction t with
  | zero => intro n i _ hi; exact ⟨hσ i hi, rfl⟩
  | succ t ih =>
    intro n i ht hi
    have e : 2 ^ (M - t) = 2 * 2 ^ (M - (t + 1)) := by rw [show M - t = M - (t + 1) + 1 by omega, pow_succ]; ring
    obtain ⟨a1, a2⟩ := ih (n / 2) i (by omega) (by omega)
    obtain ⟨b1, b2⟩ := ih (n / 2) (2 ^ (M - (t + 1)) + i) (by omega) (by omega)
    simp only [softAt, a2, b2]
    split
    · exact rF t _ _ (by omega) a1 b1
    · exact rG t _ _ _ (by omega) (polar_sym (fun j => hu _) hi) a1 b1

theorem minSum_agree (F : Rounding) {M : Nat} {s : Nat → ℚ} {fr : Nat → Prop} [DecidablePred fr] {R : Nat → ℚ → Prop} (hs : ∀ j, j < 2 ^ M → R 0 (s j))
    (rF : ∀ t a b, t < M → R t a → R t b → R (t + 1) (qsign a * qsign b * min |a| |b|))
    (rG : ∀ t h a b, t < M → Sym h → R t a → R t b → R (t + 1) (h * a + b))
    (hrep : ∀ t v, t ≤ M → R t v → F.rep v) (hd : Decided (minSum id) M s fr) :
    Decided (minSum F.rnd) M s fr ∧ decisions (minSum F.rnd) M s fr (2 ^ M) = decisions (minSum id) M s fr (2 ^ M) := by
  have hu : ∀ i, Sym ((decisions (minSum id) M s fr (2 ^ M)).getD i 1) := by
    intro i
    by_cases hi : i < 2 ^ M
    · rw [decisions_getD _ _ _ _ hi]
      split
      · exact Or.inl rfl
      · rename_i hf
        have := hd i hi hf
        rcases sgn01 (softAt (minSum id) M s ((decisions (minSum id) M s fr i).getD · 1) M i 0) with h | h | h
        · exact Or.inl h
        · exact absurd h this
        · exact Or.inr h
    · rw [List.getD_eq_default _ _ (by rw [decisions_length]; omega)]; exact Or.inl rfl
  have := softAt_agree (A := minSum id) (A' := minSum F.rnd) (M := M) (σ := s) (R := R) hu hs (fun t a b ht ha hb => ⟨rF t a b ht ha hb, rfl⟩)
    (fun t h a b ht hh ha hb => ⟨rG t h a b ht hh ha hb, F.exact _ (hrep (t + 1) _ ht (rG t h a b ht hh ha hb))⟩)
  obtain ⟨h1, h2⟩ := decided_of (A := minSum F.rnd) (M := M) (s := s) (fr := fr) (u := ((decisions (minSum id) M s fr (2 ^ M)).getD · 1)) (by
    intro i hi
    rw [(this M i 0 le_rfl (by simp)).2]
    have e : softAt (minSum id) M s ((decisions (minSum id) M s fr (2 ^ M)).getD · 1) M i 0 = softAt (minSum id) M s ((decisions (minSum id) M s fr i).getD · 1) M i 0 :=
      softAt_congr _ M s M i le_rfl (fun j hj => by
        rw [Nat.sub_self, pow_zero, Nat.mul_one] at hj
        exact decisions_pre _ M s fr hj (hj.trans hi)) 0
    rw [e, decisions_getD _ _ _ _ hi]
    by_cases hf : fr i
    · rw [if_pos hf, if_pos hf]
    · rw [if_neg hf, if_neg hf]
      exact ⟨rfl, hd i hi hf⟩)
  refine ⟨h1, ext_getD 1 (by rw [decisions_length, decisions_length]) fun i hi => h2 i (by rwa [decisions_length] at hi)⟩

/-- What the lanes of `PolarDecoder<float>` and `PolarDecoder<SIMD<float, W>>` write. -/
theorem sc_float (F : Rounding) {H : PH τ} (g : τ → Fl)
    (h1 : g H.one = .fin 1) (h2 : ∀ a b, g (H.qmul a b) = Fl.mul F (g a) (g b)) (h3 : ∀ a, g (H.signum a) = Fl.signum (g a))
    (h4 : ∀ a b, g (H.prod a b) = Fl.mul F (Fl.mul F (Fl.signum (g a)) (Fl.signum (g b))) (Fl.min (Fl.abs (g a)) (Fl.abs (g b))))
    (h5 : ∀ a b c, g (H.madd a b c) = Fl.add F (Fl.mul F (g a) (g b)) (g c))
    {MAX_M : Nat} {soft hard codeword out : List τ} {frozen : List Nat} {level : Nat} (hcall : Call MAX_M soft hard codeword frozen level)
    {B : ℚ} (hB : F.rep B) (hh : B * 2 ^ level < F.huge) {s : Nat → ℚ} (hs : ∀ j, j < 2 ^ level → g (codeword.getD j H.one) = .fin (s j) ∧ F.rep (s j) ∧ |s j| ≤ B)
    (hd : Decided (minSum F.rnd) level s (Frozen frozen)) (ho : freeBelow frozen (2 ^ level) ≤ out.length) {r : List τ}
    (hr : scDecode H MAX_M soft hard out codeword frozen level = some r) :
    (r.take (freeBelow frozen (2 ^ level))).map g = (freeSymbols (Frozen frozen) (decisions (minSum F.rnd) level s (Frozen frozen) (2 ^ level))).map flSym := by
  have := sct_lane (floatLaws F hB) (laneF F hB hh g h1 h2 h3 h4 h5) hcall s (fun j hj => ⟨(hs j hj).2.1, by simpa using (hs j hj).2.2⟩) (fun j hj => (hs j hj).1) hd ho hr
  generalize r.take _ = l at this
  generalize freeSymbols _ _ = l' at this
  induction this with
  | nil => rfl
  | cons h _ ih => rw [List.map_cons, List.map_cons, h, ih]

/-! ### C59 -/

/-- `PolarEncoder<float>`, `PolarEncoder<double>`: messages of ±1.0 are encoded as those of ±1 (C35), without rounding. -/
theorem C59_encode (F : Rounding) (codeword : List Fl) (message : List Int) (frozen : List Nat) (level : Nat) (hl : 1 ≤ level)
    (hf : 2 ^ level ≤ 32 * frozen.length) (hm : freeBelow frozen (2 ^ level) ≤ message.length)
    (hc : 2 ^ level ≤ codeword.length) (hi : ∀ x ∈ message, x = 1 ∨ x = -1) :
    ∃ cw, encode (phF F) codeword (message.map flSym) frozen level = some cw ∧ cw.length = codeword.length ∧
      ∀ j, cw.getD j .nan = if j < 2 ^ level then flSym (polar level (symbolAt frozen message) j) else codeword.getD j .nan := by
  rw [← rank_eq] at hm
  obtain ⟨cw, e, h1, h2⟩ := encode_ok (H := phF F) (message := message.map flSym) (frozen := frozen) (k := level) (c := codeword) .nan hl hf (by simpa using hm) hc
  refine ⟨cw, e, h1, fun j => ?_⟩
  rw [h2]
  split
  · rename_i hj
    have := complete_F F frozen message
    change complete (phF F).one (fbit frozen) (message.map flSym) = _ at this
    rw [this, P_F F _ (symbolAt_sym hi), P_prod level _ j hj]
    rfl
  · rfl

/-- `PolarDecoder<float>`, `PolarDecoder<double>` invert the encoder: if the soft values have the signs of the codeword, then the
message comes out, however large, small or different the soft values are; infinities are allowed, and so are sums that overflow. -/
theorem C59_decode (F : Rounding) (MAX_M : Nat) (soft hard codeword out : List Fl) (message : List Int) (frozen : List Nat) (level : Nat)
    (hcall : Call MAX_M soft hard codeword frozen level)
    (hm : freeBelow frozen (2 ^ level) ≤ message.length) (hi : ∀ x ∈ message, x = 1 ∨ x = -1)
    (hsign : ∀ j, j < 2 ^ level → HasSign F (codeword.getD j .nan) (polar level (symbolAt frozen message) j))
    (ho : freeBelow frozen (2 ^ level) ≤ out.length) :
    scDecode (phF F) MAX_M soft hard out codeword frozen level =
      some ((message.take (freeBelow frozen (2 ^ level))).map flSym ++ out.drop (freeBelow frozen (2 ^ level))) := by
  obtain ⟨g1, g2, g3, g4, g5, g6, g7, g8⟩ := hcall
  rw [← rank_eq] at hm ho ⊢
  rw [List.map_take]
  refine scDecode_ok (lawsF F) g2 (by omega) g3 g4 g5 g6 g7 g8 (by simpa using hm) ?_ ho fun j hj => ?_
  · intro x hx
    obtain ⟨y, hy, rfl⟩ := List.mem_map.1 hx
    exact ⟨y, hi y hy, rfl⟩
  · have := complete_F F frozen message
    change complete (phF F).one (fbit frozen) (message.map flSym) = _ at this
    rw [this, P_F F _ (symbolAt_sym hi), P_prod level _ j hj]
    have hg : codeword.getD j (phF F).one = codeword.getD j .nan := by rw [← getElem_eq_getD (by omega), ← getElem_eq_getD (by omega)]
    rw [hg]
    exact ⟨_, rfl, (hsign j hj).spec (polar_sym (symbolAt_sym hi) hj)⟩

/-- `PolarDecoder<float>`, `PolarDecoder<double>` on any finite soft values that cannot overflow (of magnitude at most `B`, a number
of the format with `B * 2^level` in range) make the decisions of the textbook's successive cancellation decoder with the
min-sum rule, where every sum is rounded once; unless some decision has to be made on a soft value of 0. -/
theorem C59_sc (F : Rounding) (MAX_M : Nat) (soft hard codeword out : List Fl) (frozen : List Nat) (level : Nat) (hcall : Call MAX_M soft hard codeword frozen level)
    (B : ℚ) (hB : F.rep B) (hh : B * 2 ^ level < F.huge) (s : Nat → ℚ) (hs : ∀ j, j < 2 ^ level → codeword.getD j .nan = .fin (s j) ∧ F.rep (s j) ∧ |s j| ≤ B)
    (hd : Decided (minSum F.rnd) level s (Frozen frozen)) (ho : freeBelow frozen (2 ^ level) ≤ out.length) :
    scDecode (phF F) MAX_M soft hard out codeword frozen level =
      some ((freeSymbols (Frozen frozen) (decisions (minSum F.rnd) level s (Frozen frozen) (2 ^ level))).map flSym ++ out.drop (freeBelow frozen (2 ^ level))) := by
  obtain ⟨l, hl, e⟩ := C37_in_bounds (H := phF F) MAX_M soft hard codeword out frozen level hcall ho
  have := sc_float F (H := phF F) id rfl (fun _ _ => rfl) (fun _ => rfl) (fun _ _ => rfl) (fun _ _ _ => rfl) hcall hB hh (s := s) (fun j hj => by
    have hc := hcall.codeword_len
    have hg : codeword.getD j (phF F).one = codeword.getD j .nan := by rw [← getElem_eq_getD (by omega), ← getElem_eq_getD (by omega)]
    rw [hg]; exact hs j hj) hd ho e
  rw [e, ← this, List.map_id]
  congr 2
  simp [← hl]

/-- The same for registers of `W` codewords (`PolarDecoder<SIMD<float, W>>`, `PolarDecoder<SIMD<double, W>>` with the portable
functions of simd.hh), lane by lane: what the other lanes hold, be it NaNs, does not matter. -/
theorem C59_simd (F : Rounding) (W MAX_M : Nat) (soft hard codeword out : List (Fin W → Fl)) (frozen : List Nat) (level : Nat) (hcall : Call MAX_M soft hard codeword frozen level)
    (ho : freeBelow frozen (2 ^ level) ≤ out.length) :
    ∃ l, l.length = freeBelow frozen (2 ^ level) ∧
      scDecode (phFV F W) MAX_M soft hard out codeword frozen level = some (l ++ out.drop (freeBelow frozen (2 ^ level))) ∧
      ∀ (k : Fin W) (B : ℚ) (s : Nat → ℚ), F.rep B → B * 2 ^ level < F.huge →
        (∀ j, j < 2 ^ level → codeword.getD j (fun _ => .nan) k = .fin (s j) ∧ F.rep (s j) ∧ |s j| ≤ B) → Decided (minSum F.rnd) level s (Frozen frozen) →
        l.map (fun x => x k) = (freeSymbols (Frozen frozen) (decisions (minSum F.rnd) level s (Frozen frozen) (2 ^ level))).map flSym := by
  obtain ⟨l, hl, e⟩ := C37_in_bounds (H := phFV F W) MAX_M soft hard codeword out frozen level hcall ho
  refine ⟨l, hl, e, fun k B s hB hh hs hd => ?_⟩
  have := sc_float F (H := phFV F W) (fun x => x k) rfl (fun _ _ => rfl) (fun _ => rfl) (fun _ _ => rfl) (fun _ _ _ => rfl) hcall hB hh (s := s) (fun j hj => by
    have hc := hcall.codeword_len
    have hg : codeword.getD j (phFV F W).one = codeword.getD j (fun _ => .nan) := by rw [← getElem_eq_getD (by omega), ← getElem_eq_getD (by omega)]
    rw [hg]; exact hs j hj) hd ho e
  rw [← this]
  congr 1
  simp [← hl]

/-- Soft values that are multiples of one power of two, `2^e`, and need at most `p - level` bits: nothing is ever rounded, and the
decisions are those of the textbook's decoder with exact sums.  `p` is 24 for `float` and 53 for `double`, `level` at most 20. -/
theorem C59_exact (p : Nat) (emin : ℤ) (emax : Nat) (hp : 1 ≤ p) (he : emin ≤ 0) (hm : 1 ≤ emax) (MAX_M : Nat) (soft hard codeword out : List Fl) (frozen : List Nat) (level : Nat)
    (hcall : Call MAX_M soft hard codeword frozen level) (e : ℤ) (hlo : emin ≤ e) (hhi : e + p < emax) (hpl : level ≤ p) (m : Nat → ℤ) (s : Nat → ℚ)
    (hs : ∀ j, j < 2 ^ level → codeword.getD j .nan = .fin (s j) ∧ s j = m j * 2 ^ e ∧ |m j| ≤ 2 ^ (p - level))
    (hd : Decided (minSum id) level s (Frozen frozen)) (ho : freeBelow frozen (2 ^ level) ≤ out.length) :
    scDecode (phF (ieee p emin emax hp he hm)) MAX_M soft hard out codeword frozen level =
      some ((freeSymbols (Frozen frozen) (decisions (minSum id) level s (Frozen frozen) (2 ^ level))).map flSym ++ out.drop (freeBelow frozen (2 ^ level))) := by
  set F := ieee p emin emax hp he hm with hF
  have hpe := Ieee.pow_pos' e
  have hrep : ∀ (k : ℤ) (t : Nat), t ≤ level → |k| ≤ 2 ^ (p - level + t) → F.rep (k * 2 ^ e) := by
    intro k t ht hk
    have hk' : |k| ≤ 2 ^ p := hk.trans (pow_le_pow_right₀ (by norm_num) (by omega))
    rcases hk'.lt_or_eq with h | h
    · exact ⟨k, e, h, hlo, rfl⟩
    · refine ⟨k.sign, e + p, ?_, by omega, ?_⟩
      · refine lt_of_le_of_lt ?_ (one_lt_pow₀ (by norm_num) (show p ≠ 0 by omega) : (1 : ℤ) < 2 ^ p)
        rcases lt_trichotomy k 0 with h | h | h
        · rw [Int.sign_eq_neg_one_of_neg h]; norm_num
        · subst h; simp
        · rw [Int.sign_eq_one_of_pos h]; norm_num
      · have h' : (k : ℚ) = (k.sign : ℚ) * 2 ^ p := by
          have := Int.sign_mul_abs k
          rw [h] at this
          exact_mod_cast this.symm
        rw [h', zpow_add₀ (by norm_num), zpow_natCast]; ring
  have hB : F.rep (2 ^ (p - level) * 2 ^ e) := by
    have := hrep (2 ^ (p - level)) 0 (by omega) (by rw [abs_of_nonneg (by positivity)]; simp)
    exact_mod_cast this
  obtain ⟨h1, h2⟩ := minSum_agree F (M := level) (s := s) (fr := Frozen frozen) (R := fun t v => ∃ k : ℤ, v = k * 2 ^ e ∧ |k| ≤ 2 ^ (p - level + t))
    (fun j hj => ⟨m j, (hs j hj).2.1, (hs j hj).2.2⟩) (by
      rintro t a b ht ⟨k, rfl, hk⟩ ⟨l, rfl, hl⟩
      have hmono : (2 : ℤ) ^ (p - level + t) ≤ 2 ^ (p - level + (t + 1)) := pow_le_pow_right₀ (by norm_num) (by omega)
      obtain ⟨c, hc, h⟩ := minF_cases (k * 2 ^ e) (l * 2 ^ e)
      obtain ⟨n, rfl, hn⟩ : ∃ n : ℤ, c = n * 2 ^ e ∧ |n| ≤ 2 ^ (p - level + t) := by
        rcases hc with h | h | h
        · exact ⟨k, h, hk⟩
        · exact ⟨l, h, hl⟩
        · exact ⟨0, by rw [h]; simp, by rw [abs_zero]; positivity⟩
      rcases h with h | h
      · exact ⟨n, h, hn.trans hmono⟩
      · exact ⟨-n, by rw [h]; push_cast; ring, by rw [abs_neg]; exact hn.trans hmono⟩) (by
      rintro t h a b ht hh ⟨k, rfl, hk⟩ ⟨l, rfl, hl⟩
      refine ⟨h * k + l, by push_cast; ring, ?_⟩
      have e2 : (2 : ℤ) ^ (p - level + (t + 1)) = 2 ^ (p - level + t) + 2 ^ (p - level + t) := by rw [← Nat.add_assoc, pow_succ]; ring
      refine (abs_add_le _ _).trans ?_
      rw [abs_mul, show |h| = 1 by rcases hh with rfl | rfl <;> rfl, one_mul, e2]
      exact add_le_add hk hl) (by
      rintro t v ht ⟨k, rfl, hk⟩
      exact hrep k t ht hk) hd
  rw [← h2]
  refine C59_sc F MAX_M soft hard codeword out frozen level hcall _ hB ?_ s (fun j hj => ?_) h1 ho
  · show _ < (2 : ℚ) ^ emax
    have : (2 : ℚ) ^ (p - level) * 2 ^ e * 2 ^ level = 2 ^ (e + p) := by
      rw [zpow_add₀ (by norm_num), zpow_natCast]
      conv_rhs => rw [show p = (p - level) + level by omega, pow_add]
      ring
    rw [this, ← zpow_natCast]
    exact zpow_lt_zpow_right₀ (by norm_num) hhi
  · obtain ⟨a, b, c⟩ := hs j hj
    refine ⟨a, by rw [b]; exact hrep (m j) 0 (by omega) c, ?_⟩
    rw [b, abs_mul, abs_of_pos hpe]
    refine mul_le_mul_of_nonneg_right ?_ hpe.le
    exact_mod_cast c

/-! ### Cases -/

/-- The received values of PropsSct.lean, in quarters, as numbers and as `float`s: the conditions of `C59_exact` and `C59_sc` hold ... -/
def quarters : List ℚ := received.map fun x => (x : ℚ) / 4

theorem quarters_decided : Decided (minSum id) 5 (quarters.getD · 0) (Frozen [0x177f7fff]) := by
  refine (decided_of (u := fun _ => 1) ?_).1
  decide +kernel

/-- ... so `PolarDecoder<float, 5>` corrects the four wrong signs. -/
example : scDecode (phF binary32) 5 (List.replicate 64 .nan) (List.replicate 32 .nan) (List.replicate 7 (.fin 5)) (quarters.map .fin) [0x177f7fff] 5 =
    some ((freeSymbols (Frozen [0x177f7fff]) (decisions (minSum id) 5 (quarters.getD · 0) (Frozen [0x177f7fff]) (2 ^ 5))).map flSym ++ [.fin 5]) := by
  have hf : freeBelow [0x177f7fff] (2 ^ 5) = 6 := by decide +kernel
  have := C59_exact 24 (-149) 128 (by norm_num) (by norm_num) (by norm_num) 5 (List.replicate 64 .nan) (List.replicate 32 .nan) (quarters.map .fin) (List.replicate 7 (.fin 5)) [0x177f7fff] 5
    ⟨by norm_num, by norm_num, by norm_num, by simp, by simp, by simp [quarters, received], by norm_num, by simp⟩ (-2) (by norm_num) (by norm_num) (by norm_num) (received.getD · 0) (quarters.getD · 0)
    (by decide +kernel) quarters_decided (by rw [hf]; simp)
  rw [hf] at this
  exact this

/-- Infinities among the soft values: those of the codeword of the message 1, 1, 1, 1, 1, 1. -/
example : ∀ j, j < 2 ^ 5 → HasSign binary32 ((List.replicate 30 (Fl.inf false) ++ [Fl.fin 1, Fl.fin 2]).getD j .nan) (polar 5 (symbolAt [0x177f7fff] [1, 1, 1, 1, 1, 1]) j) := by
  intro j hj
  have hp : polar 5 (symbolAt [0x177f7fff] [1, 1, 1, 1, 1, 1]) j = 1 := by
    unfold polar
    refine Finset.prod_eq_one fun i _ => ?_
    unfold symbolAt
    split
    · rfl
    · generalize freeBelow [0x177f7fff] i = n
      have : ∀ n < 6, [1, 1, 1, 1, 1, 1].getD n (1 : Int) = 1 := by decide
      by_cases hn : n < 6
      · exact this n hn
      · exact List.getD_eq_default _ _ (by simp; omega)
  rw [hp]
  have : j < 30 ∨ j = 30 ∨ j = 31 := by omega
  rcases this with h | rfl | rfl
  · refine Or.inr (Or.inl ⟨?_, rfl⟩)
    rw [List.getD_append _ _ _ _ (by rw [List.length_replicate]; exact h), List.getD_eq_getElem?_getD, List.getElem?_replicate, if_pos h]
    rfl
  · exact Or.inl ⟨1, by simp, binary32.one, Fl.one_huge, by norm_num⟩
  · refine Or.inl ⟨2, by simp, ?_, ?_, by norm_num⟩
    · have := binary32.twice 1 binary32.one
      simpa using this
    · show |(2 : ℚ)| < 2 ^ 128
      norm_num

/-- The condition on overflow is needed: without it a sum can be an infinity, and a later one a NaN (`huge` plus `-huge`), on which
no decision is made: `signum` of it is 0. -/
example : Fl.signum (Fl.madd binary32 (.fin 1) (.inf false) (.inf true)) = .fin 0 := by decide +kernel

end Verif.Polar
