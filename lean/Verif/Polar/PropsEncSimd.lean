import Verif.Polar.EncSim
/- C35, C36, C39: the encoders on `SIMD<int8_t, W>`. -/
namespace Verif.Polar
variable {W : Nat}

theorem homV (k : Fin W) : Hom (phV W) (fun r x => r k = x) where
  one := rfl
  qmul := by
    rintro a b x y hx hy rfl rfl
    exact qmulV_sym hx hy

theorem forall2_lane {k : Fin W} {message : List (Fin W → Int)} {m : List Int} (h : message.map (fun r => r k) = m) :
    List.Forall₂ (fun r x => r k = x) message m := by
  subst h
  induction message with
  | nil => exact List.Forall₂.nil
  | cons a l ih => exact List.Forall₂.cons rfl ih

/-- **C35** for `PolarEncoder<SIMD<int8_t, W>>`: every lane with a message of ±1 symbols gets what the scalar encoder makes of it,
whatever the other lanes hold. -/
theorem C35_simd (codeword message : List (Fin W → Int)) (frozen : List Nat) (level : Nat) (hl : 1 ≤ level)
    (hf : 2 ^ level ≤ 32 * frozen.length) (hm : freeBelow frozen (2 ^ level) ≤ message.length) (hc : 2 ^ level ≤ codeword.length) :
    ∃ cw, encode (phV W) codeword message frozen level = some cw ∧ cw.length = codeword.length ∧ cw.drop (2 ^ level) = codeword.drop (2 ^ level) ∧
      ∀ k : Fin W, (∀ r ∈ message, r k = 1 ∨ r k = -1) →
        ∀ j, j < 2 ^ level → cw.getD j 0 k = polar level (symbolAt frozen (message.map fun r => r k)) j := by
  obtain ⟨cw, e, h1, h2, h3⟩ := enc_hom (phV W) 0 codeword message frozen level hl hf hm hc
  refine ⟨cw, e, h1, h2, fun k hi => h3 _ _ (homV k) (fun x hx => ?_) (forall2_lane rfl)⟩
  obtain ⟨r, hr, rfl⟩ := List.mem_map.1 hx
  exact hi r hr

/-- **C36** for `PolarSysEnc<SIMD<int8_t, W>>`. -/
theorem C36_simd (codeword message : List (Fin W → Int)) (frozen : List Nat) (level : Nat) (hl : 1 ≤ level)
    (hf : 2 ^ level ≤ 32 * frozen.length) (hm : freeBelow frozen (2 ^ level) ≤ message.length) (hc : 2 ^ level ≤ codeword.length) (hcl : Closed frozen level) :
    ∃ cw, sysEncode (phV W) codeword message frozen level = some cw ∧ cw.length = codeword.length ∧ cw.drop (2 ^ level) = codeword.drop (2 ^ level) ∧
      ∀ k : Fin W, (∀ r ∈ message, r k = 1 ∨ r k = -1) →
        (∀ i, i < 2 ^ level → ¬ Frozen frozen i → cw.getD i 0 k = message.getD (freeBelow frozen i) 0 k) ∧
        ∃ m' : List Int, m'.length = freeBelow frozen (2 ^ level) ∧ (∀ x ∈ m', x = 1 ∨ x = -1) ∧
          ∀ j, j < 2 ^ level → cw.getD j 0 k = polar level (symbolAt frozen m') j := by
  obtain ⟨cw, e, h1, h2, h3⟩ := sys_hom (phV W) 0 codeword message frozen level hl hf hm hc hcl
  refine ⟨cw, e, h1, h2, fun k hi => ?_⟩
  obtain ⟨q1, q2⟩ := h3 _ (message.map fun r => r k) (homV k) (fun x hx => by
    obtain ⟨r, hr, rfl⟩ := List.mem_map.1 hx
    exact hi r hr) (forall2_lane rfl)
  refine ⟨fun i h4 h5 => ?_, q2⟩
  rw [q1 i h4 h5]
  have : freeBelow frozen i < message.length := by
    refine lt_of_lt_of_le ?_ hm
    rw [← rank_eq, ← rank_eq]
    have h6 := rank_mono (fbit frozen) (show i + 1 ≤ 2 ^ level by omega)
    rw [rank_succ, if_neg (show ¬ fbit frozen i = true from h5)] at h6
    omega
  rw [← getElem_eq_getD (by simpa using this), ← getElem_eq_getD this, List.getElem_map]

/-- **C39** for `PolarParityEncoder<SIMD<int8_t, W>>`. -/
theorem C39_simd_encode (codeword message : List (Fin W → Int)) (frozen : List Nat) (level stride first : Nat) (hl : 1 ≤ level)
    (hf : 2 ^ level ≤ 32 * frozen.length) (hm : dataBelow first stride (freeBelow frozen (2 ^ level)) ≤ message.length) (hc : 2 ^ level ≤ codeword.length) :
    ∃ cw, parEncode (phV W) codeword message frozen level stride first = some cw ∧ cw.length = codeword.length ∧ cw.drop (2 ^ level) = codeword.drop (2 ^ level) ∧
      ∀ k : Fin W, (∀ r ∈ message, r k = 1 ∨ r k = -1) → ∀ j, j < 2 ^ level →
        cw.getD j 0 k = polar level (symbolAt frozen (withParity first stride (message.map fun r => r k) (freeBelow frozen (2 ^ level)))) j := by
  obtain ⟨cw, e, h1, h2, h3⟩ := par_hom (phV W) 0 codeword message frozen level stride first hl hf hm hc
  refine ⟨cw, e, h1, h2, fun k hi => h3 _ _ (homV k) (fun x hx => ?_) (forall2_lane rfl)⟩
  obtain ⟨r, hr, rfl⟩ := List.mem_map.1 hx
  exact hi r hr

/-- Two lanes: lane 0 holds the message (-1, 1, 1, -1), lane 1 holds other values; the information set is {3, 5, 6, 7}. -/
example : (sysEncode (phV 2) (List.replicate 8 0) [![-1, 5], ![1, 1], ![1, 0], ![-1, 1]] [0b00010111] 3).map (fun cw => cw.map fun r => r 0) =
    some [-1, 1, 1, -1, -1, 1, 1, -1] := by decide +kernel

end Verif.Polar
