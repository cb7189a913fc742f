import Verif.Polar.Float
import Verif.Polar.PropsSct
/- Arithmetic with ±1 in floating point is exact; sums of numbers of one sign have that sign. -/
namespace Verif.Polar
namespace Fl
variable {F : Rounding}

/-- A value of the format that is not a NaN. -/
def Num (F : Rounding) : Fl → Prop
  | nan => False
  | inf _ => True
  | fin q => F.rep q ∧ |q| < F.huge

def neg : Fl → Fl
  | nan => nan
  | inf a => inf (!a)
  | fin q => fin (-q)

/-- `0 < s` or `s < 0`, as the symbol 1 or -1 -/
def Sgn : Fl → Int → Prop
  | nan, _ => False
  | inf a, x => x = if a then -1 else 1
  | fin q, x => (x = 1 ∧ 0 < q) ∨ (x = -1 ∧ q < 0)

theorem ofQ_rep {q : ℚ} (h : F.rep q) (hb : |q| < F.huge) : ofQ F q = fin q := by
  unfold ofQ; rw [F.exact q h, if_pos hb]

theorem one_huge : |(1 : ℚ)| < F.huge := by rw [abs_one]; exact F.one_lt

theorem mul_one' {x : Fl} (h : Num F x) : mul F (fin 1) x = x := by
  cases x with
  | nan => exact h.elim
  | inf a => have : ¬ (1 : ℚ) < 0 := by norm_num
             simp [mul, this]
  | fin q => simp only [mul, one_mul]; exact ofQ_rep h.1 h.2

theorem mul_neg {x : Fl} (h : Num F x) : mul F (fin (-1)) x = neg x := by
  cases x with
  | nan => exact h.elim
  | inf a => simp [mul, neg]
  | fin q =>
    simp only [mul, neg_mul, one_mul, neg]
    exact ofQ_rep (F.neg _ h.1) (by rw [abs_neg]; exact h.2)

theorem num_one : Num F (fin 1) := ⟨F.one, one_huge⟩
theorem num_neg {x : Fl} (h : Num F x) : Num F (neg x) := by
  cases x with
  | nan => exact h.elim
  | inf a => trivial
  | fin q => exact ⟨F.neg _ h.1, by rw [abs_neg]; exact h.2⟩

theorem num_sym {x : Int} (h : Sym x) : Num F (fin x) := by
  rcases h with rfl | rfl
  · simpa using num_one
  · have := num_neg (F := F) num_one
    simpa [neg] using this

theorem mul_sym {x y : Int} (hx : Sym x) (hy : Sym y) : mul F (fin x) (fin y) = fin ((x * y : Int) : ℚ) := by
  rcases hx with rfl | rfl
  · have := mul_one' (num_sym (F := F) hy)
    simpa using this
  · have := mul_neg (num_sym (F := F) hy)
    simpa [neg] using this

theorem signum_sgn {s : Fl} {x : Int} (h : Sgn s x) : signum s = fin x := by
  cases s with
  | nan => exact h.elim
  | inf a => cases a <;> simp [Sgn] at h <;> subst h <;> simp [signum, lt]
  | fin q =>
    rcases h with ⟨rfl, h⟩ | ⟨rfl, h⟩
    · simp [signum, lt, h, h.le]
    · simp [signum, lt, h, h.le]

theorem num_abs {x : Fl} (h : Num F x) : Num F (abs x) := by
  cases x with
  | nan => exact h.elim
  | inf a => trivial
  | fin q =>
    refine ⟨?_, by rw [abs_abs]; exact h.2⟩
    rcases abs_choice q with e | e <;> rw [e]
    · exact h.1
    · exact F.neg _ h.1

theorem num_min {x y : Fl} (h : Num F x) (h' : Num F y) : Num F (min x y) := by
  unfold min; split <;> assumption

theorem sgn_abs {s : Fl} {x : Int} (h : Sgn s x) : Sgn (abs s) 1 := by
  cases s with
  | nan => exact h.elim
  | inf a => simp [Sgn, abs]
  | fin q =>
    refine Or.inl ⟨rfl, abs_pos.2 ?_⟩
    rintro rfl
    rcases h with ⟨_, h⟩ | ⟨_, h⟩ <;> exact lt_irrefl _ h

theorem sgn_min {s t : Fl} {x : Int} (h : Sgn s x) (h' : Sgn t x) : Sgn (min s t) x := by
  unfold min; split <;> assumption

theorem sgn_neg {s : Fl} {x : Int} (h : Sgn s x) : Sgn (neg s) (-x) := by
  cases s with
  | nan => exact h.elim
  | inf a => cases a <;> simp [Sgn, neg] at h ⊢ <;> omega
  | fin q =>
    rcases h with ⟨rfl, h⟩ | ⟨rfl, h⟩
    · exact Or.inr ⟨rfl, by linarith⟩
    · exact Or.inl ⟨rfl, by linarith⟩

theorem mul_sgn {s : Fl} {x y : Int} (hx : Sym x) (hn : Num F s) (h : Sgn s y) : Num F (mul F (fin x) s) ∧ Sgn (mul F (fin x) s) (x * y) := by
  rcases hx with rfl | rfl
  · rw [show ((1 : Int) : ℚ) = 1 by norm_num, mul_one' hn, one_mul]; exact ⟨hn, h⟩
  · rw [show ((-1 : Int) : ℚ) = -1 by norm_num, mul_neg hn, neg_one_mul]; exact ⟨num_neg hn, sgn_neg h⟩

theorem num_ofQ (q : ℚ) : Num F (ofQ F q) := by
  unfold ofQ
  split
  · exact ⟨F.out q, by assumption⟩
  · trivial

/-- A rounded sum of positive numbers is positive. -/
theorem rnd_pos {p q : ℚ} (hp : F.rep p) (h : 0 < p) (h' : 0 < q) : 0 < F.rnd (p + q) := by
  have := F.mono p (p + q) (by linarith)
  rw [F.exact p hp] at this
  linarith

theorem rnd_neg {p q : ℚ} (hp : F.rep p) (h : p < 0) (h' : q < 0) : F.rnd (p + q) < 0 := by
  have := F.mono (p + q) p (by linarith)
  rw [F.exact p hp] at this
  linarith

theorem add_sgn {s t : Fl} {y : Int} (hs : Num F s) (ht : Num F t) (h : Sgn s y) (h' : Sgn t y) : Num F (add F s t) ∧ Sgn (add F s t) y := by
  cases s with
  | nan => exact h.elim
  | inf a =>
    cases t with
    | nan => exact h'.elim
    | inf b =>
      have : a = b := by cases a <;> cases b <;> simp [Sgn] at h h' <;> first | rfl | omega
      simp only [add, this, if_true]; exact ⟨trivial, h'⟩
    | fin q => exact ⟨trivial, h⟩
  | fin p =>
    cases t with
    | nan => exact h'.elim
    | inf b => exact ⟨trivial, h'⟩
    | fin q =>
      refine ⟨num_ofQ _, ?_⟩
      show Sgn (ofQ F (p + q)) y
      rcases h with ⟨rfl, h⟩ | ⟨rfl, h⟩
      · rcases h' with ⟨_, h'⟩ | ⟨h0, _⟩
        · have := rnd_pos (F := F) hs.1 h h'
          unfold ofQ
          split
          · exact Or.inl ⟨rfl, this⟩
          · simp [Sgn, this.le]
        · omega
      · rcases h' with ⟨h0, _⟩ | ⟨_, h'⟩
        · omega
        · have := rnd_neg (F := F) hs.1 h h'
          unfold ofQ
          split
          · exact Or.inr ⟨rfl, this⟩
          · simp [Sgn, this]

theorem prod_sgn {s t : Fl} {x y : Int} (hx : Sym x) (hy : Sym y) (hs : Num F s) (ht : Num F t) (h : Sgn s x) (h' : Sgn t y) :
    Num F (prod F s t) ∧ Sgn (prod F s t) (x * y) := by
  unfold prod
  rw [signum_sgn h, signum_sgn h', mul_sym hx hy]
  have := mul_sgn (hx.mul hy) (num_min (num_abs hs) (num_abs ht)) (sgn_min (sgn_abs h) (sgn_abs h'))
  rwa [mul_one] at this

theorem madd_sgn {s t : Fl} {x y : Int} (hx : Sym x) (hs : Num F s) (ht : Num F t) (h : Sgn s (x * y)) (h' : Sgn t y) :
    Num F (madd F (fin x) s t) ∧ Sgn (madd F (fin x) s t) y := by
  obtain ⟨a, b⟩ := mul_sgn hx hs h
  rw [← mul_assoc, hx.sq, one_mul] at b
  exact add_sgn a ht b h'

end Fl

theorem sgn_symm {s : Fl} {x : Int} (h : Fl.Sgn s x) : Sym x := by
  cases s with
  | nan => exact h.elim
  | inf a => cases a <;> simp [Fl.Sgn] at h <;> subst h <;> simp [Sym]
  | fin q => exact h.imp (·.1) (·.1)

theorem lawsF (F : Rounding) : Laws (phF F) (fun a => ∃ x : Int, Sym x ∧ a = .fin x) (fun s a => ∃ x : Int, a = .fin x ∧ s.Num F ∧ s.Sgn x) where
  one := ⟨1, Or.inl rfl, by simp [phF]⟩
  q_hard := by
    rintro _ _ ⟨x, hx, rfl⟩ ⟨y, hy, rfl⟩
    exact ⟨x * y, hx.mul hy, Fl.mul_sym hx hy⟩
  signum := by
    rintro s _ ⟨x, rfl, -, h⟩
    exact Fl.signum_sgn h
  prod := by
    rintro a b _ _ ⟨x, hx, rfl⟩ ⟨y, hy, rfl⟩ ⟨z, e, hn, h⟩ ⟨w, e', hn', h'⟩
    have e1 : x * y = z := by
      have : Fl.fin ((x * y : Int) : ℚ) = Fl.fin z := by rw [← e]; exact (Fl.mul_sym hx hy).symm
      exact_mod_cast Fl.fin.inj this
    have e2 : y = w := by simpa using e'
    subst e1 e2
    have := Fl.prod_sgn (hx.mul hy) hy hn hn' h h'
    rw [mul_assoc, hy.sq, mul_one] at this
    exact ⟨x, rfl, this⟩
  madd := by
    rintro a b _ _ ⟨x, hx, rfl⟩ ⟨y, hy, rfl⟩ ⟨z, e, hn, h⟩ ⟨w, e', hn', h'⟩
    have e1 : x * y = z := by
      have : Fl.fin ((x * y : Int) : ℚ) = Fl.fin z := by rw [← e]; exact (Fl.mul_sym hx hy).symm
      exact_mod_cast Fl.fin.inj this
    have e2 : y = w := by simpa using e'
    subst e1 e2
    exact ⟨y, rfl, Fl.madd_sgn hx hn hn' h h'⟩
  medial := by
    rintro _ _ _ _ ⟨x, hx, rfl⟩ ⟨y, hy, rfl⟩ ⟨z, hz, rfl⟩ ⟨w, hw, rfl⟩
    dsimp only [phF]
    rw [Fl.mul_sym hx hy, Fl.mul_sym hz hw, Fl.mul_sym hx hz, Fl.mul_sym hy hw, Fl.mul_sym (hx.mul hy) (hz.mul hw), Fl.mul_sym (hx.mul hz) (hy.mul hw)]
    congr 2; ring
  cancel := by
    rintro _ _ ⟨x, hx, rfl⟩ ⟨y, hy, rfl⟩
    dsimp only [phF]
    rw [Fl.mul_sym hx hy, Fl.mul_sym (hx.mul hy) hy, mul_assoc, hy.sq, mul_one]
  one_one := by
    have := Fl.mul_sym (F := F) (x := 1) (y := 1) (Or.inl rfl) (Or.inl rfl)
    simpa [phF] using this

theorem P_F (F : Rounding) (u : Nat → Int) (hu : ∀ i, Sym (u i)) : ∀ (s j : Nat), P (phF F).qmul s (fun i => Fl.fin (u i : Int)) j = Fl.fin ((P (· * ·) s u j : Int) : ℚ) := by
  intro s
  induction s with
  | zero => intro j; rfl
  | succ s ih =>
    intro j
    simp only [P]
    split
    · rw [ih, ih]; exact Fl.mul_sym (P_sym s u hu _) (P_sym s u hu _)
    · exact ih j

/-- The symbols of a message, as floating point numbers. -/
theorem complete_F (F : Rounding) (frozen : List Nat) (message : List Int) :
    complete (phF F).one (fbit frozen) (message.map fun x : Int => Fl.fin (x : ℚ)) = fun i => Fl.fin ((symbolAt frozen message i : Int) : ℚ) := by
  funext i
  rw [← complete_eq]
  unfold complete
  split
  · simp [phF, ph8]
  · simp only [List.getD_eq_getElem?_getD, List.getElem?_map]
    cases message[rank (fbit frozen) i]? <;> simp [phF, ph8]

end Verif.Polar
