import Verif.Polar.ScTop
/- C58: the successive cancellation decoder makes the decisions of the textbook's decoder. -/
namespace Verif.Polar
open PolarHelper (I8 prodV maddV qmulV)
variable {τ : Type}

/-! ### Specification

SpecSc.lean says what successive cancellation is for any arithmetic; this is the arithmetic of 8-bit soft values. -/

/-- Min-sum with saturation (`softF` and `softG` are defined in PropsList.lean). -/
def i8Arith : Arith Int := ⟨softF, softG, Int.sign⟩

/-! ### Proofs -/

theorem softF_sign (a b : Int) : (softF a b).sign = a.sign * b.sign := by
  unfold softF
  rcases lt_trichotomy a 0 with h | h | h
  · rcases lt_trichotomy b 0 with h' | h' | h'
    · rw [Int.sign_eq_neg_one_of_neg h, Int.sign_eq_neg_one_of_neg h', abs_of_neg h, abs_of_neg h', Int.sign_eq_one_of_pos (by omega)]; rfl
    · subst h'; simp
    · rw [Int.sign_eq_neg_one_of_neg h, Int.sign_eq_one_of_pos h', abs_of_neg h, abs_of_pos h', Int.sign_eq_neg_one_of_neg (by omega)]; rfl
  · subst h; simp
  · rcases lt_trichotomy b 0 with h' | h' | h'
    · rw [Int.sign_eq_one_of_pos h, Int.sign_eq_neg_one_of_neg h', abs_of_pos h, abs_of_neg h', Int.sign_eq_neg_one_of_neg (by omega)]; rfl
    · subst h'; simp
    · rw [Int.sign_eq_one_of_pos h, Int.sign_eq_one_of_pos h', abs_of_pos h, abs_of_pos h', Int.sign_eq_one_of_pos (by omega)]; rfl

theorem softG_sign {a b : Int} (ha : a ≠ 0) (hb : b ≠ 0) : (softG (a.sign * b.sign) a b).sign = b.sign := by
  unfold softG
  rcases Int.lt_or_gt_of_ne ha with h | h <;> rcases Int.lt_or_gt_of_ne hb with h' | h'
  · rw [Int.sign_eq_neg_one_of_neg h, Int.sign_eq_neg_one_of_neg h', Int.sign_eq_neg_one_of_neg (by omega)]
  · rw [Int.sign_eq_neg_one_of_neg h, Int.sign_eq_one_of_pos h', Int.sign_eq_one_of_pos (by omega)]
  · rw [Int.sign_eq_one_of_pos h, Int.sign_eq_neg_one_of_neg h', Int.sign_eq_neg_one_of_neg (by omega)]
  · rw [Int.sign_eq_one_of_pos h, Int.sign_eq_one_of_pos h', Int.sign_eq_one_of_pos (by omega)]

theorem softF_127 (a b : Int) : -127 ≤ softF a b ∧ softF a b ≤ 127 := by
  unfold softF
  have ha := abs_nonneg a
  have hb := abs_nonneg b
  have : ∀ v : Int, v.sign = 1 ∨ v.sign = 0 ∨ v.sign = -1 := fun v => by
    rcases lt_trichotomy v 0 with h | h | h
    · rw [Int.sign_eq_neg_one_of_neg h]; omega
    · subst h; simp
    · rw [Int.sign_eq_one_of_pos h]; omega
  rcases this a with h | h | h <;> rcases this b with h' | h' | h' <;> rw [h, h'] <;> omega

theorem softG_127 (h a b : Int) : -127 ≤ softG h a b ∧ softG h a b ≤ 127 := by unfold softG; omega

theorem sgn_sign (v : Int) : PolarHelper.sgn v = v.sign := by
  rcases PolarHelper.sgn_cases v with ⟨h, e⟩ | ⟨h, e⟩ | ⟨h, e⟩ <;> rw [e]
  · rw [Int.sign_eq_one_of_pos h]
  · rw [h]; rfl
  · rw [Int.sign_eq_neg_one_of_neg h]

theorem i8Laws (R : Int → Prop) (h : ∀ x, -127 ≤ x → x ≤ 127 → R x) : i8Arith.Laws (fun _ => R) where
  rF _ a b _ _ := h _ (softF_127 a b).1 (softF_127 a b).2
  rG _ x a b _ _ _ := h _ (softG_127 x a b).1 (softG_127 x a b).2
  sgn a := by
    show a.sign = 1 ∨ a.sign = 0 ∨ a.sign = -1
    rcases lt_trichotomy a 0 with h | h | h
    · rw [Int.sign_eq_neg_one_of_neg h]; omega
    · subst h; simp
    · rw [Int.sign_eq_one_of_pos h]; omega
  F_sgn _ a b _ _ := softF_sign a b
  G_sgn _ a b _ _ ha hb := softG_sign (fun h => ha (by rw [h]; rfl)) (fun h => hb (by rw [h]; rfl))

theorem lane8 (M : Nat) : Lane ph8 i8Arith M (fun _ x => -127 ≤ x ∧ x ≤ 127) (fun a v => a = v) (fun a x => a = x) where
  one := rfl
  qmul := by rintro a b _ _ ha hb rfl rfl; exact qmul_sym ha hb
  signum := by
    rintro a _ rfl _
    show PolarHelper.signum a = a.sign
    rw [PolarHelper.signum_eq, sgn_sign]
  prod := by
    rintro - a b _ _ - ha hb rfl rfl
    have h1 : I8 a := ⟨by omega, by omega⟩
    have h2 : I8 b := ⟨by omega, by omega⟩
    show PolarHelper.prod a b = softF a b
    rw [← PolarHelper.prodV_eq h1 h2, prodV_softF h1 h2]
  madd := by
    rintro - h a b _ _ _ - hh ha hb rfl rfl rfl
    show PolarHelper.madd h a b = softG h a b
    unfold PolarHelper.madd softG
    rw [PolarHelper.t8_id (by omega) (by omega), max_eq_left ha.1]
    omega

theorem laneV {W : Nat} (k : Fin W) (M : Nat) : Lane (phV W) i8Arith M (fun _ => I8) (fun a v => a k = v) (fun a x => a k = x) where
  one := rfl
  qmul := by rintro a b _ _ ha hb rfl rfl; exact qmulV_sym ha hb
  signum := by
    rintro a _ rfl _
    show PolarHelper.vsignum (a k) = (a k).sign
    rw [PolarHelper.vsignum_eq, sgn_sign]
  prod := by rintro - a b _ _ - ha hb rfl rfl; exact prodV_softF ha hb
  madd := by rintro - h a b _ _ _ - hh ha hb rfl rfl rfl; exact maddV_softG hh ha

theorem forall2_map {α β : Type} {g : α → β} {l : List α} {m : List β} (h : List.Forall₂ (fun a b => g a = b) l m) : l.map g = m := by
  induction h with
  | nil => rfl
  | cons h _ ih => rw [List.map_cons, h, ih]

/-! ### C58 -/

/-- The decoder for `int8_t` soft values from -127 to 127 (`PolarDecoder<int8_t, MAX_M>`) decides as the textbook says, although it
skips frozen blocks, decides blocks without frozen positions at once, and keeps its soft values and partial sums in two arrays:
unless some decision has to be made on a soft value of 0, it writes the decisions at the positions that are not frozen, in order. -/
theorem C58_sc (MAX_M : Nat) (soft hard codeword out : List Int) (frozen : List Nat) (level : Nat) (hcall : Call MAX_M soft hard codeword frozen level)
    (hr : ∀ j, j < 2 ^ level → -127 ≤ codeword.getD j 0 ∧ codeword.getD j 0 ≤ 127) (hd : Decided i8Arith level (codeword.getD · 0) (Frozen frozen))
    (ho : freeBelow frozen (2 ^ level) ≤ out.length) :
    scDecode ph8 MAX_M soft hard out codeword frozen level =
      some (freeSymbols (Frozen frozen) (decisions i8Arith level (codeword.getD · 0) (Frozen frozen) (2 ^ level)) ++ out.drop (freeBelow frozen (2 ^ level))) := by
  obtain ⟨l, hl, e⟩ := C37_in_bounds (H := ph8) MAX_M soft hard codeword out frozen level hcall ho
  have hg : ∀ j, j < 2 ^ level → codeword.getD j 1 = codeword.getD j 0 := fun j hj => by
    have := hcall.codeword_len
    rw [← getElem_eq_getD (by omega), ← getElem_eq_getD (by omega)]
  have := forall2_map (g := id) (sct_lane (i8Laws (fun x => -127 ≤ x ∧ x ≤ 127) fun x h1 h2 => ⟨h1, h2⟩) (lane8 level) hcall (codeword.getD · 0) hr (fun j hj => hg j hj) hd ho e)
  rw [e, ← this, List.map_id]
  congr 2
  simp [← hl]

/-- The same for `W` codewords side by side (`PolarDecoder<SIMD<int8_t, W>, MAX_M>`), on any `int8_t` soft values: every lane without
a decision on a soft value of 0 gets the decisions of the textbook, whatever the other lanes hold. -/
theorem C58_simd (W MAX_M : Nat) (soft hard codeword out : List (Fin W → Int)) (frozen : List Nat) (level : Nat) (hcall : Call MAX_M soft hard codeword frozen level)
    (ho : freeBelow frozen (2 ^ level) ≤ out.length) :
    ∃ l, l.length = freeBelow frozen (2 ^ level) ∧
      scDecode (phV W) MAX_M soft hard out codeword frozen level = some (l ++ out.drop (freeBelow frozen (2 ^ level))) ∧
      ∀ k : Fin W, (∀ j, j < 2 ^ level → I8 (codeword.getD j 0 k)) → Decided i8Arith level (fun j => codeword.getD j 0 k) (Frozen frozen) →
        l.map (fun x => x k) = freeSymbols (Frozen frozen) (decisions i8Arith level (fun j => codeword.getD j 0 k) (Frozen frozen) (2 ^ level)) := by
  obtain ⟨l, hl, e⟩ := C37_in_bounds (H := phV W) MAX_M soft hard codeword out frozen level hcall ho
  refine ⟨l, hl, e, fun k hr hd => ?_⟩
  have := forall2_map (g := fun x : Fin W → Int => x k) (sct_lane (i8Laws I8 fun x h1 h2 => ⟨by omega, by omega⟩) (laneV k level) hcall (fun j => codeword.getD j 0 k) hr (fun j hj => by
    have hc := hcall.codeword_len
    have : codeword.getD j (phV W).one = codeword.getD j 0 := by
      rw [← getElem_eq_getD (by omega), ← getElem_eq_getD (by omega)]
    rw [this]) hd ho e)
  rw [← this]
  congr 1
  simp [← hl]

/-! ### A case -/

/-- Level 5, information set {15, 23, 27, 29, 30, 31}, four symbols received with the wrong sign: no decision is made on a 0 ... -/
def received : List Int := [5, -3, 7, 9, 5, 3, -7, 9, 5, 3, 7, 9, 5, 3, 7, -9, 5, 3, 7, 9, 5, 3, 7, 9, 5, -3, 7, 9, 5, 3, 7, 11]

example : Decided i8Arith 5 (received.getD · 0) (Frozen [0x177f7fff]) := by
  refine (decided_of (u := fun _ => 1) ?_).1
  decide +kernel

/-- ... and the decoder corrects them. -/
example : scDecode ph8 5 (List.replicate 64 99) (List.replicate 32 77) (List.replicate 7 5) received [0x177f7fff] 5 = some [1, 1, 1, 1, 1, 1, 5] := by decide +kernel

/-- Without the condition the claim would be wrong.  Here positions 28, 29 and 31 are not frozen, and the textbook decides the first
two on a soft value of 0, as 0; the decoder keeps the signs 1 and 0 of the two soft values it decided them from, where the
partial sums of these decisions are 0 and 0.  So it decides position 31 on 5 + 5 - 7, the textbook on 0 + 5 - 7. -/
example : scDecode ph8 5 (List.replicate 64 99) (List.replicate 32 77) (List.replicate 3 5) (List.replicate 28 0 ++ [5, 0, 5, -7]) [0x4fffffff] 5 = some [0, 0, 1] := by
  decide +kernel

example : softAt i8Arith 5 ((List.replicate 28 0 ++ [5, 0, 5, -7]).getD · 0) ((List.replicate 28 1 ++ [0, 0, 1]).getD · 1) 5 31 0 = -2 := by decide +kernel
example : ∀ i, i = 28 ∨ i = 29 → softAt i8Arith 5 ((List.replicate 28 0 ++ [5, 0, 5, -7]).getD · 0) ((List.replicate 28 1 ++ [0, 0, 1]).getD · 1) 5 i 0 = 0 := by
  rintro i (rfl | rfl) <;> decide +kernel

end Verif.Polar
