import Verif.Targets.PropsFloat
import Verif.SIMD.PropsPort
/- C83 for lanes of `float` and `double` (simd.hh): the templates in terms of the numbers that the lanes stand for.  `Fl` is a number, an infinity or
not a number (NaN); `Fl.lt` is IEEE 754's `<`, which no NaN satisfies. -/
namespace Verif.Targets
open Verif.SIMD Verif.SIMD.T Verif.Polar

namespace Format
variable {w : Nat} (X : Format w)

/-- Lane `k` of an operand as a number. -/
def V (a : List (BitVec w)) (k : Nat) : Fl := X.val (a.getD k 0)

/-- Defined, with `W` lanes that stand for `v 0`, `v 1`, .. -/
def Floats (W : Nat) (r : Option (List (BitVec w))) (v : Nat → Fl) : Prop := ∃ l, r = some l ∧ l.length = W ∧ ∀ k, k < W → X.V l k = v k

end Format

/-- The number with the other sign. -/
def Fl.opp : Fl → Fl
  | .nan => .nan
  | .inf s => .inf !s
  | .fin q => .fin (-q)

variable {w W : Nat} {X : Format w} {tmp a b : List (BitVec w)}

theorem Floats.of {f : Nat → Option (BitVec w)} {g : Nat → BitVec w} {v : Nat → Fl} (hl : tmp.length = W)
    (h : ∀ k, k < W → f k = some (g k)) (hv : ∀ k, k < W → X.val (g k) = v k) : X.Floats W (each W tmp f) v :=
  ⟨_, each_some hl h, by simp, fun k hk => by unfold Format.V; rw [range_getD hk]; exact hv k hk⟩

theorem val_opp (hw : 0 < w) (a : BitVec w) : X.val (a ^^^ negz w) = Fl.opp (X.val a) := by
  have h1 : X.F.nan (a ^^^ negz w) ↔ X.F.nan a := by unfold Fmt.nan; rw [Format.mag_neg]
  have h2 : X.F.finite (a ^^^ negz w) ↔ X.F.finite a := by unfold Fmt.finite; rw [Format.mag_neg]
  unfold Format.val Targets.val
  simp only [h1, h2]
  rw [Format.mag_neg, Format.msb_neg hw]
  split
  · rfl
  · split
    · show Fl.fin _ = Fl.fin (-_)
      cases a.msb <;> simp
    · rfl

/-- `==` of patterns is equality of the numbers, except that a NaN is not equal to itself. -/
theorem val_eq (h : X.Ok) (a b : BitVec w) : X.F.feq a b ↔ X.val a ≠ .nan ∧ X.val a = X.val b := by
  unfold Fmt.feq
  constructor
  · rintro ⟨h1, h2, h3⟩
    exact ⟨fun e => h1 (Format.val_nan.1 e), Format.val_same h ((LL.same_iff h.w a b).2 h3)⟩
  · rintro ⟨h1, h2⟩
    have na : ¬ X.F.nan a := fun e => h1 (Format.val_nan.2 e)
    have nb : ¬ X.F.nan b := fun e => h1 (h2.trans (Format.val_nan.2 e))
    refine ⟨na, nb, ?_⟩
    have irr : ∀ x : Fl, Fl.lt x x = false := fun x => by cases x <;> simp [Fl.lt]
    have l1 := Format.val_lt h a b
    have l2 := Format.val_lt h b a
    rw [h2, irr] at l1 l2
    have l1 := of_decide_eq_false l1.symm
    have l2 := of_decide_eq_false l2.symm
    unfold Fmt.flt at l1 l2
    simp only [na, nb, not_false_iff, true_and] at l1 l2
    omega

/-- Comparisons: masks of what IEEE 754 says about the numbers (so nothing holds for a NaN). -/
theorem C83_float_compare (h : X.Ok) (ht : tmp.length = W) (ha : a.length = W) (hb : b.length = W) :
    Masks W (vcgtzF X.F W tmp a) (fun k => Fl.lt (.fin 0) (X.V a k) = true) ∧ Masks W (vceqzF X.F W tmp a) (fun k => X.V a k = .fin 0) ∧
    Masks W (vcltzF X.F W tmp a) (fun k => Fl.lt (X.V a k) (.fin 0) = true) ∧
    Masks W (vclezF X.F W tmp a) (fun k => Fl.lt (X.V a k) (.fin 0) = true ∨ X.V a k = .fin 0) ∧
    Masks W (vcgtF X.F W tmp a b) (fun k => Fl.lt (X.V b k) (X.V a k) = true) ∧
    Masks W (vceqF X.F W tmp a b) (fun k => X.V a k ≠ .nan ∧ X.V a k = X.V b k) := by
  have eq0 : ∀ x, X.F.feq x 0 ↔ X.val x = .fin 0 := fun x => by
    rw [val_eq h, Format.val_zero h]
    exact ⟨fun e => e.2, fun e => ⟨by rw [e]; exact fun h => Fl.noConfusion h, e⟩⟩
  refine ⟨Masks.of ht (fun k hk => one_arg ha hk) fun k _ => ?_, Masks.of ht (fun k hk => one_arg ha hk) fun k _ => ?_,
    Masks.of ht (fun k hk => one_arg ha hk) fun k _ => ?_, Masks.of ht (fun k hk => one_arg ha hk) fun k _ => ?_,
    Masks.of ht (fun k hk => two_arg ha hb hk) fun k _ => ?_, Masks.of ht (fun k hk => two_arg ha hb hk) fun k _ => ?_⟩
  · unfold Format.V; rw [← Format.val_zero h, Format.val_lt h]
  · rw [decide_eq_true_iff, eq0]; rfl
  · unfold Format.V; rw [← Format.val_zero h, Format.val_lt h]
  · unfold Format.V
    rw [← eq0, ← Format.val_zero h, Format.val_lt h, decide_eq_true_iff, decide_eq_true_iff]
    unfold Fmt.fle Fmt.flt Fmt.feq
    constructor
    · rintro ⟨h1, h2, h3⟩
      rcases Int.lt_or_eq_of_le h3 with h3 | h3
      · exact Or.inl ⟨h1, h2, h3⟩
      · exact Or.inr ⟨h1, h2, h3⟩
    · rintro (⟨h1, h2, h3⟩ | ⟨h1, h2, h3⟩)
      · exact ⟨h1, h2, h3.le⟩
      · exact ⟨h1, h2, h3.le⟩
  · unfold Format.V; rw [Format.val_lt h]
  · rw [decide_eq_true_iff, val_eq h]; rfl

/-- `vneg`, `vabs`, `vsignum` (0 for a NaN), `vmin`, `vmax` (the first operand if one is a NaN) and `vclamp`; `vcopysign` has the magnitude of its first
operand and the sign bit of the second one, bit by bit. -/
theorem C83_float_values (h : X.Ok) (lo hi : BitVec w) (ht : tmp.length = W) (ha : a.length = W) (hb : b.length = W) :
    X.Floats W (vnegF W tmp a) (fun k => Fl.opp (X.V a k)) ∧ X.Floats W (vabsF W tmp a) (fun k => Fl.abs (X.V a k)) ∧
    X.Floats W (vsignumF X.F W tmp a) (fun k => Fl.signum (X.V a k)) ∧
    X.Floats W (vminF X.F W tmp a b) (fun k => if Fl.lt (X.V b k) (X.V a k) then X.V b k else X.V a k) ∧
    X.Floats W (vmaxF X.F W tmp a b) (fun k => if Fl.lt (X.V a k) (X.V b k) then X.V b k else X.V a k) ∧
    X.Floats W (vclampF X.F W tmp a lo hi) (fun k =>
      let m := if Fl.lt (X.V a k) (X.val lo) then X.val lo else X.V a k
      if Fl.lt (X.val hi) m then X.val hi else m) ∧
    SIMD.T.Bits W (vcopysignF W tmp a b) fun k j => if j = w - 1 then SIMD.T.B b k j else SIMD.T.B a k j := by
  have hmin : ∀ x y, X.val (if X.F.flt y x then y else x) = if Fl.lt (X.val y) (X.val x) then X.val y else X.val x := fun x y => by
    rw [Format.val_lt h]; by_cases hc : X.F.flt y x <;> simp [hc]
  have hmax : ∀ x y, X.val (if X.F.flt x y then y else x) = if Fl.lt (X.val x) (X.val y) then X.val y else X.val x := fun x y => by
    rw [Format.val_lt h]; by_cases hc : X.F.flt x y <;> simp [hc]
  refine ⟨Floats.of ht (fun k hk => one_arg ha hk) fun k _ => val_opp h.w _, Floats.of ht (fun k hk => one_arg ha hk) fun k _ => Format.val_abs _,
    Floats.of ht (fun k hk => one_arg ha hk) fun k _ => Format.val_signum h _, Floats.of ht (fun k hk => two_arg ha hb hk) fun k _ => hmin _ _,
    Floats.of ht (fun k hk => two_arg ha hb hk) fun k _ => hmax _ _, Floats.of ht (fun k hk => one_arg ha hk) fun k _ => ?_,
    SIMD.T.Bits.of ht (fun k hk => two_arg ha hb hk) fun k _ j hj => ?_⟩
  · exact (hmin _ _).trans (by rw [hmax]; rfl)
  · have hn : (negz w).getLsbD j = decide (j = w - 1) := by
      unfold negz
      rw [BitVec.getLsbD_twoPow]
      have := h.w
      by_cases e : j = w - 1
      · subst e; simp; omega
      · simp [e, Ne.symm e]
    unfold SIMD.T.B
    rw [BitVec.getLsbD_or, BitVec.getLsbD_and, BitVec.getLsbD_and, BitVec.getLsbD_not, hn]
    by_cases e : j = w - 1 <;> simp [e, hj]

/-- `vadd`, `vsub`, `vmul` and `vsign` (the first operand times 1, -1 or 0), on a machine whose arithmetic is IEEE 754's. -/
theorem C83_float_arith {A : Fpu w} (h : X.Ok) (ie : IsIeee X A) (hsub : ∀ a b, X.val (A.sub a b) = Fl.add X.R (X.val a) (Fl.opp (X.val b)))
    (ht : tmp.length = W) (ha : a.length = W) (hb : b.length = W) :
    X.Floats W (vaddF A W tmp a b) (fun k => Fl.add X.R (X.V a k) (X.V b k)) ∧ X.Floats W (vsubF A W tmp a b) (fun k => Fl.add X.R (X.V a k) (Fl.opp (X.V b k))) ∧
    X.Floats W (vmulF A W tmp a b) (fun k => Fl.mul X.R (X.V a k) (X.V b k)) ∧
    X.Floats W (vsignF X.F A W tmp a b) (fun k => Fl.mul X.R (Fl.signum (X.V b k)) (X.V a k)) :=
  ⟨Floats.of ht (fun k hk => two_arg ha hb hk) fun k _ => ie.add _ _, Floats.of ht (fun k hk => two_arg ha hb hk) fun k _ => hsub _ _,
   Floats.of ht (fun k hk => two_arg ha hb hk) fun k _ => ie.mul _ _,
   Floats.of ht (fun k hk => two_arg ha hb hk) fun k _ => (ie.mul _ _).trans (congrArg (fun y => Fl.mul X.R y _) (Format.val_signum h _))⟩

/-- On numbers `vsign` is exact: the number, the number with the other sign, or 0, as the second operand is positive, negative, or neither. -/
theorem C83_float_sign {A : Fpu w} (h : X.Ok) (ie : IsIeee X A) (ht : tmp.length = W) (ha : a.length = W) (hb : b.length = W) {l : List (BitVec w)}
    (hl : vsignF X.F A W tmp a b = some l) {k : Nat} (hk : k < W) {q : ℚ} (hq : X.V a k = .fin q) :
    (Fl.lt (.fin 0) (X.V b k) = true → X.V l k = .fin q) ∧ (Fl.lt (X.V b k) (.fin 0) = true → X.V l k = .fin (-q)) ∧ (X.V b k = .fin 0 → X.V l k = .fin 0) := by
  obtain ⟨l', e1, -, e3⟩ := (Floats.of (X := X) ht (fun k hk => two_arg ha hb hk) fun k _ => (ie.mul _ _).trans (congrArg (fun y => Fl.mul X.R y _) (Format.val_signum h (b.getD k 0))) :
    X.Floats W (vsignF X.F A W tmp a b) fun k => Fl.mul X.R (Fl.signum (X.V b k)) (X.V a k))
  obtain rfl : l' = l := Option.some.inj (e1.symm.trans hl)
  obtain ⟨hr, hh⟩ := Format.val_rep h hq
  have m1 : ∀ s : ℚ, (s = 1 ∨ s = -1 ∨ s = 0) → Fl.mul X.R (.fin s) (.fin q) = .fin (s * q) := fun s hs => by
    have hrep : X.R.rep (s * q) ∧ |s * q| < X.R.huge := by
      rcases hs with rfl | rfl | rfl
      · rw [one_mul]; exact ⟨hr, hh⟩
      · rw [neg_one_mul, abs_neg]; exact ⟨X.R.neg _ hr, hh⟩
      · rw [zero_mul, abs_zero]; exact ⟨X.R.zero, lt_trans one_pos X.R.one_lt⟩
    show Fl.ofQ X.R (s * q) = _
    unfold Fl.ofQ
    rw [X.R.exact _ hrep.1, if_pos hrep.2]
  have asym : ∀ x : Fl, Fl.lt (.fin 0) x = true → Fl.lt x (.fin 0) = false := fun x hx => by
    cases x with
    | nan => simp [Fl.lt] at hx
    | inf s => cases s <;> simp_all [Fl.lt]
    | fin p => simp only [Fl.lt, decide_eq_true_eq, decide_eq_false_iff_not] at hx ⊢; linarith
  have asym' : ∀ x : Fl, Fl.lt x (.fin 0) = true → Fl.lt (.fin 0) x = false := fun x hx => by
    by_contra hc
    rw [asym x (by simpa using hc)] at hx; cases hx
  refine ⟨fun hp => ?_, fun hn => ?_, fun hz => ?_⟩ <;> refine (e3 k hk).trans ?_ <;> dsimp only <;> rw [hq] <;> unfold Fl.signum
  · rw [hp, asym _ hp]; simpa using m1 1 (by simp)
  · rw [hn, asym' _ hn]; simpa using m1 (-1) (by simp)
  · rw [hz]; simpa [Fl.lt] using m1 0 (by simp)

/-! `float`: 1.5, a NaN, -0 and minus infinity against 2, 1, 0 and minus infinity. -/

def exF : List (BitVec 32) := [0x3fc00000, 0x7fc00000, 0x80000000, 0xff800000]
def exG : List (BitVec 32) := [0x40000000, 0x3f800000, 0, 0xff800000]

example : vcgtF f32 4 [9, 9, 9, 9] exG exF = some [0xffffffff, 0, 0, 0] ∧ vceqF f32 4 [9, 9, 9, 9] exF exG = some [0, 0, 0xffffffff, 0xffffffff] ∧
    vclezF f32 4 [9, 9, 9, 9] exF = some [0, 0, 0xffffffff, 0xffffffff] ∧ vminF f32 4 [9, 9, 9, 9] exF exG = some exF ∧
    vminF f32 4 [9, 9, 9, 9] exG exF = some [0x3fc00000, 0x3f800000, 0, 0xff800000] ∧
    vcopysignF 4 [9, 9, 9, 9] exG exF = some [0x40000000, 0x3f800000, 0x80000000, 0xff800000] := by decide +kernel
example : float32.V exF 0 = .fin (3 / 2) ∧ float32.V exF 1 = .nan ∧ float32.V exF 2 = .fin 0 ∧ float32.V exF 3 = .inf true := by
  refine ⟨?_, Format.val_nan.2 (by decide), Format.val_zero_mag float32_ok (by decide), ?_⟩
  · refine (Format.val_fin (X := float32) (a := 0x3fc00000#32) (by decide)).trans ?_
    show Fl.fin (if false = true then _ else magv 24 (-149) 0x3fc00000) = _
    unfold magv
    norm_num
  · decide +kernel

/-- There are machines like that. -/
example : ∃ A : Fpu 32, IsIeee float32 A ∧ ∀ a b, float32.val (A.sub a b) = Fl.add float32.R (float32.val a) (Fl.opp (float32.val b)) := by
  obtain ⟨A, hA⟩ := exists_ieee float32_ok (by decide)
  exact ⟨{ A with sub := fun a b => A.add a (b ^^^ negz 32) }, ⟨hA.add, hA.mul⟩, fun a b => (hA.add _ _).trans (by rw [val_opp (by norm_num)])⟩

end Verif.Targets
