import Verif.Polar.PropsFloat
import Verif.Polar.EncSim
/- C59: the systematic and the parity-aided encoder on `float` and `double`, and all encoders on registers of them. -/
namespace Verif.Polar
variable {τ : Type}

theorem flSym_mul (F : Rounding) {x y : Int} (hx : Sym x) (hy : Sym y) : Fl.mul F (flSym x) (flSym y) = flSym (x * y) := Fl.mul_sym hx hy

/-- A lane of `SIMD<float, W>`, or a `float`. -/
theorem homF (F : Rounding) {H : PH τ} (g : τ → Fl) (h1 : g H.one = .fin 1) (h2 : ∀ a b, g (H.qmul a b) = Fl.mul F (g a) (g b)) : Hom H (fun a x => g a = flSym x) where
  one := by rw [h1]; simp [flSym]
  qmul := fun a b x y hx hy ha hb => by rw [h2, ha, hb, flSym_mul F hx hy]

theorem forall2_syms {g : τ → Fl} {m : List τ} {m' : List Int} (h : m.map g = m'.map flSym) : List.Forall₂ (fun a x => g a = flSym x) m m' := by
  induction m generalizing m' with
  | nil => cases m' with
    | nil => exact .nil
    | cons a l => cases h
  | cons a l ih => cases m' with
    | nil => cases h
    | cons b l' =>
      rw [List.map_cons, List.map_cons] at h
      injection h with h1 h2
      exact .cons h1 (ih h2)

/-- `PolarSysEnc<float>`, `PolarSysEnc<double>`, for an information set that is closed under bit inclusion: the ±1.0 of the message are
found at the positions that are not frozen, and the output is the codeword that `PolarEncoder` makes of some message. -/
theorem C59_systematic (F : Rounding) (codeword : List Fl) (message : List Int) (frozen : List Nat) (level : Nat) (hl : 1 ≤ level)
    (hf : 2 ^ level ≤ 32 * frozen.length) (hm : freeBelow frozen (2 ^ level) ≤ message.length) (hc : 2 ^ level ≤ codeword.length)
    (hi : ∀ x ∈ message, x = 1 ∨ x = -1) (hcl : Closed frozen level) :
    ∃ cw, sysEncode (phF F) codeword (message.map flSym) frozen level = some cw ∧ cw.length = codeword.length ∧ cw.drop (2 ^ level) = codeword.drop (2 ^ level) ∧
      (∀ i, i < 2 ^ level → ¬ Frozen frozen i → cw.getD i .nan = flSym (message.getD (freeBelow frozen i) 0)) ∧
      ∃ m' : List Int, m'.length = freeBelow frozen (2 ^ level) ∧ (∀ x ∈ m', x = 1 ∨ x = -1) ∧
        encode (phF F) codeword (m'.map flSym) frozen level = some cw := by
  obtain ⟨cw, e, h1, h2, h3⟩ := sys_hom (phF F) .nan codeword (message.map flSym) frozen level hl hf (by simpa using hm) hc hcl
  obtain ⟨q1, m', q2, q3, q4⟩ := h3 _ message (homF F (H := phF F) id rfl fun _ _ => rfl) hi (forall2_syms (by rw [List.map_id]))
  refine ⟨cw, e, h1, h2, q1, m', q2, q3, ?_⟩
  obtain ⟨c2, e2, l2, w2⟩ := C59_encode F codeword m' frozen level hl hf (by omega) hc q3
  rw [e2]
  congr 1
  refine ext_getD .nan (by omega) fun i _ => ?_
  rw [w2]
  split
  · exact (q4 i (by assumption)).symm
  · rename_i hi
    have := congrArg (fun l => l.getD (i - 2 ^ level) Fl.nan) h2
    have ed : ∀ l : List Fl, (l.drop (2 ^ level)).getD (i - 2 ^ level) Fl.nan = l.getD i Fl.nan := fun l => by
      rw [List.getD_eq_getElem?_getD, List.getElem?_drop, show 2 ^ level + (i - 2 ^ level) = i by omega, ← List.getD_eq_getElem?_getD]
    rw [ed, ed] at this
    exact this.symm

/-- `PolarParityEncoder<float>`, `PolarParityEncoder<double>`: the polar transform of the message with its parity symbols. -/
theorem C59_parity_encode (F : Rounding) (codeword : List Fl) (message : List Int) (frozen : List Nat) (level stride first : Nat) (hl : 1 ≤ level)
    (hf : 2 ^ level ≤ 32 * frozen.length) (hm : dataBelow first stride (freeBelow frozen (2 ^ level)) ≤ message.length) (hc : 2 ^ level ≤ codeword.length)
    (hi : ∀ x ∈ message, x = 1 ∨ x = -1) :
    ∃ cw, parEncode (phF F) codeword (message.map flSym) frozen level stride first = some cw ∧ cw.length = codeword.length ∧ cw.drop (2 ^ level) = codeword.drop (2 ^ level) ∧
      ∀ j, j < 2 ^ level → cw.getD j .nan = flSym (polar level (symbolAt frozen (withParity first stride message (freeBelow frozen (2 ^ level)))) j) := by
  obtain ⟨cw, e, h1, h2, h3⟩ := par_hom (phF F) .nan codeword (message.map flSym) frozen level stride first hl hf (by simpa using hm) hc
  exact ⟨cw, e, h1, h2, h3 _ message (homF F (H := phF F) id rfl fun _ _ => rfl) hi (forall2_syms (by rw [List.map_id]))⟩

/-- `PolarEncoder`, `PolarSysEnc` and `PolarParityEncoder` on `SIMD<float, W>`, `SIMD<double, W>` (the portable functions of simd.hh): every
lane with a message of ±1.0 gets what a single `float` encoder makes of it, whatever the other lanes hold. -/
theorem C59_simd_encode (F : Rounding) (W : Nat) (codeword message : List (Fin W → Fl)) (frozen : List Nat) (level : Nat) (hl : 1 ≤ level)
    (hf : 2 ^ level ≤ 32 * frozen.length) (hm : freeBelow frozen (2 ^ level) ≤ message.length) (hc : 2 ^ level ≤ codeword.length) :
    (∃ cw, encode (phFV F W) codeword message frozen level = some cw ∧ cw.length = codeword.length ∧ cw.drop (2 ^ level) = codeword.drop (2 ^ level) ∧
      ∀ (k : Fin W) (m : List Int), (∀ x ∈ m, x = 1 ∨ x = -1) → message.map (fun r => r k) = m.map flSym →
        ∀ j, j < 2 ^ level → cw.getD j (fun _ => .nan) k = flSym (polar level (symbolAt frozen m) j)) ∧
    (Closed frozen level → ∃ cw, sysEncode (phFV F W) codeword message frozen level = some cw ∧ cw.length = codeword.length ∧ cw.drop (2 ^ level) = codeword.drop (2 ^ level) ∧
      ∀ (k : Fin W) (m : List Int), (∀ x ∈ m, x = 1 ∨ x = -1) → message.map (fun r => r k) = m.map flSym →
        (∀ i, i < 2 ^ level → ¬ Frozen frozen i → cw.getD i (fun _ => .nan) k = flSym (m.getD (freeBelow frozen i) 0)) ∧
        ∃ m' : List Int, m'.length = freeBelow frozen (2 ^ level) ∧ (∀ x ∈ m', x = 1 ∨ x = -1) ∧
          ∀ j, j < 2 ^ level → cw.getD j (fun _ => .nan) k = flSym (polar level (symbolAt frozen m') j)) ∧
    ∀ stride first, ∃ cw, parEncode (phFV F W) codeword message frozen level stride first = some cw ∧ cw.length = codeword.length ∧ cw.drop (2 ^ level) = codeword.drop (2 ^ level) ∧
      ∀ (k : Fin W) (m : List Int), (∀ x ∈ m, x = 1 ∨ x = -1) → message.map (fun r => r k) = m.map flSym →
        ∀ j, j < 2 ^ level → cw.getD j (fun _ => .nan) k = flSym (polar level (symbolAt frozen (withParity first stride m (freeBelow frozen (2 ^ level)))) j) := by
  refine ⟨?_, fun hcl => ?_, fun stride first => ?_⟩
  · obtain ⟨cw, e, h1, h2, h3⟩ := enc_hom (phFV F W) (fun _ => .nan) codeword message frozen level hl hf hm hc
    exact ⟨cw, e, h1, h2, fun k m hi hk => h3 _ m (homF F (H := phFV F W) (fun r => r k) rfl fun _ _ => rfl) hi (forall2_syms hk)⟩
  · obtain ⟨cw, e, h1, h2, h3⟩ := sys_hom (phFV F W) (fun _ => .nan) codeword message frozen level hl hf hm hc hcl
    exact ⟨cw, e, h1, h2, fun k m hi hk => h3 _ m (homF F (H := phFV F W) (fun r => r k) rfl fun _ _ => rfl) hi (forall2_syms hk)⟩
  · obtain ⟨cw, e, h1, h2, h3⟩ := par_hom (phFV F W) (fun _ => .nan) codeword message frozen level stride first hl hf ((dataBelow_le _ _ _).trans hm) hc
    exact ⟨cw, e, h1, h2, fun k m hi hk => h3 _ m (homF F (H := phFV F W) (fun r => r k) rfl fun _ _ => rfl) hi (forall2_syms hk)⟩

/-- The information set {3, 5, 6, 7} of level 3: the message is in the codeword. -/
example : sysEncode (phF binary32) (List.replicate 9 .nan) ([-1, 1, 1, -1].map flSym) [0b00010111] 3 = some ([-1, 1, 1, -1, -1, 1, 1, -1].map flSym ++ [.nan]) := by decide +kernel

/-- A parity symbol after two message symbols: -1, 1, (-1), 1. -/
example : parEncode (phF binary32) (List.replicate 8 .nan) ([-1, 1, 1].map flSym) [0b00010111] 3 2 2 =
    encode (phF binary32) (List.replicate 8 .nan) ([-1, 1, -1, 1].map flSym) [0b00010111] 3 := by decide +kernel

end Verif.Polar
