import Verif.Crc.ProofDist
import Verif.CrcPolar.Proof
import Verif.Polar.PropsEncSimd
import Verif.Polar.PropsFloatList
/- C68: the CRC-aided frame around the list decoders, tests/polar_list_regression_test.cc. -/
namespace Verif.CrcPolar
open Verif.Crc Verif.Polar
open Verif.RS (sb)
open Verif.Polar.FlList (FReg)
variable {w L : Nat} {τ : Type}

/-! ### Specification -/

/-- A message that carries its CRC: some data, followed by the CRC of the data (register started at zero), low bit first. -/
def Valid (poly : BitVec w) (bits : List Bool) : Prop := ∃ data, bits = data ++ bitsLE (specBits poly 0#w data)

/-- A CRC object constructed with the polynomial `poly` and used in any way since. -/
def Built (poly : BitVec w) (c : CRC w) : Prop := ∃ init c0 hist outs, CRC.new poly init = some c0 ∧ c0.run hist = some (c, outs)

/-- How a bit is sent. -/
def sign (b : Bool) : Int := if b then -1 else 1

/-- The bits that lane `k` of the first `K` registers stands for; `neg` tells the negative values. -/
def laneBits (neg : τ → Bool) (decoded : List (Fin L → τ)) (K : Nat) (k : Fin L) : List Bool := (decoded.take K).map fun r => neg (r k)

/-- `x < 0` for `int8_t` -/
def neg8 (x : Int) : Bool := decide (x < 0)

/-- `x < 0` for `float` and `double` -/
def negF (x : Fl) : Bool := Fl.lt x (.fin 0)

/-! ### Auxiliary -/

theorem built_obj (hw : 8 ≤ w) {poly : BitVec w} {c : CRC w} (h : Built poly c) : ∃ s, c = objOf poly s := by
  obtain ⟨init, c0, hist, outs, h1, h2⟩ := h
  rw [new_eq] at h1; cases h1
  rw [run_eq poly hw] at h2; cases h2
  exact ⟨_, rfl⟩

theorem obj_built (poly s : BitVec w) : Built poly (objOf poly s) := ⟨s, _, [], [], new_eq _ _, rfl⟩

theorem symbol_sign : symbol = sign := by funext b; rw [symbol_eq]; rfl

theorem neg8_sign (b : Bool) : neg8 (sign b) = b := by cases b <;> rfl

theorem negF_sign (b : Bool) : negF (flSym (sign b)) = b := by cases b <;> decide +kernel

theorem sign_sym (l : List Bool) : ∀ x ∈ l.map sign, x = 1 ∨ x = -1 := by
  intro x hx
  obtain ⟨b, -, rfl⟩ := List.mem_map.1 hx
  cases b
  · exact Or.inl rfl
  · exact Or.inr rfl

/-- A message is valid if and only if its CRC is zero. -/
theorem valid_iff (poly : BitVec w) (hp : poly.msb = true) (bits : List Bool) (hl : w ≤ bits.length) : Valid poly bits ↔ specBits poly 0#w bits = 0#w := by
  constructor
  · rintro ⟨data, rfl⟩
    rw [specBits_append]
    exact (C03_crc_residue poly _ 0#w).1
  · intro h
    obtain ⟨v, hv⟩ := bitsLE_surj (w := w) (bits.drop (bits.length - w)) (by simp; omega)
    refine ⟨bits.take (bits.length - w), ?_⟩
    rw [← List.take_append_drop (bits.length - w) bits, specBits_append, ← hv] at h
    rw [← (C03_crc_residue poly _ v).2 hp h, hv, List.take_append_drop]

/-! ### C68 -/

/-- The message: the data bits, then the bits of their CRC, as ±1; the array is not touched beyond `K`, and the CRC object may be used again. -/
theorem C68_message (hw : 8 ≤ w) (poly : BitVec w) (crc : CRC w) (hc : Built poly crc) (data : List Bool) (message : List Int) (K : Nat) (hK : w ≤ K)
    (hd : data.length = K - w) (hm : K ≤ message.length) :
    ∃ crc' bits, crcMessage crc data message K w = some (crc', bits.map sign ++ message.drop K) ∧ Built poly crc' ∧
      bits.length = K ∧ Valid poly bits ∧ bits.take (K - w) = data := by
  obtain ⟨s, rfl⟩ := built_obj hw hc
  refine ⟨objOf poly (specBits poly 0#w data), data ++ bitsLE (specBits poly 0#w data), ?_, obj_built _ _, by rw [List.length_append, length_bitsLE]; omega, ⟨data, rfl⟩, ?_⟩
  · rw [crcMessage_eq poly s data message K hK hd hm, symbol_sign]
  · rw [List.take_append_of_le_length (by omega), ← hd, List.take_length]

/-- The choice: without `error`, `best` is the first lane that holds a valid message; with `error`, `best` is 0 and no lane holds one. -/
theorem C68_select (hw : 8 ≤ w) (poly : BitVec w) (hp : poly.msb = true) (neg : τ → Bool) (crc : CRC w) (hc : Built poly crc) (decoded : List (Fin L → τ)) (K : Nat) (hK : w ≤ K)
    (hd : K ≤ decoded.length) :
    ∃ crc' best error, crcSelect neg crc decoded K = some (crc', best, error) ∧ Built poly crc' ∧
      (error = false → ∃ hb : best < L, Valid poly (laneBits neg decoded K ⟨best, hb⟩) ∧ ∀ k : Fin L, k.val < best → ¬ Valid poly (laneBits neg decoded K k)) ∧
      (error = true → best = 0 ∧ ∀ k : Fin L, ¬ Valid poly (laneBits neg decoded K k)) := by
  obtain ⟨s, rfl⟩ := built_obj hw hc
  obtain ⟨s', best, error, e, h1, h2⟩ := crcSelectFrom_ok (L := L) neg poly decoded K hd L le_rfl s
  have hv : ∀ k : Fin L, Valid poly (laneBits neg decoded K k) ↔ specBits poly 0#w ((decoded.take K).map fun r => neg (r k)) = 0#w := fun k =>
    valid_iff poly hp _ (by unfold laneBits; simp; omega)
  refine ⟨_, best, error, e, obj_built _ _, fun he => ?_, fun he => ?_⟩
  · obtain ⟨hb, -, q1, q2⟩ := h1 he
    exact ⟨hb, (hv _).2 q1, fun k hk => fun h => q2 k (by omega) hk ((hv k).1 h)⟩
  · obtain ⟨q1, q2⟩ := h2 he
    exact ⟨q1, fun k h => q2 k (by omega) ((hv k).1 h)⟩

/-- If lane 0 holds a valid message it is chosen. -/
theorem select_first (hw : 8 ≤ w) (poly : BitVec w) (hp : poly.msb = true) (neg : τ → Bool) (crc : CRC w) (hc : Built poly crc) (decoded : List (Fin L → τ)) (K : Nat) (hK : w ≤ K)
    (hd : K ≤ decoded.length) (hL : 0 < L) (hv : Valid poly (laneBits neg decoded K ⟨0, hL⟩)) :
    ∃ crc', crcSelect neg crc decoded K = some (crc', 0, false) ∧ Built poly crc' := by
  obtain ⟨crc', best, error, e, h0, h1, h2⟩ := C68_select hw poly hp neg crc hc decoded K hK hd
  cases error with
  | true => exact absurd hv ((h2 rfl).2 _)
  | false =>
    obtain ⟨hb, -, q⟩ := h1 rfl
    rcases Nat.eq_zero_or_pos best with rfl | hpos
    · exact ⟨crc', e, h0⟩
    · exact absurd hv (q ⟨0, hL⟩ hpos)

theorem laneBits_of_ln (decoded : List (Reg L)) (K : Nat) (k : Fin L) {bits : List Bool} (h : (ln k decoded).take K = bits.map sign) :
    laneBits neg8 decoded K k = bits := by
  have e : laneBits neg8 decoded K k = ((ln k decoded).take K).map neg8 := by
    unfold laneBits ln
    rw [← List.map_take, List.map_map]; rfl
  rw [e, h, List.map_map]
  conv_rhs => rw [← List.map_id bits]
  exact List.map_congr_left fun b _ => neg8_sign b

theorem laneBits_of_float (decoded : List (FReg L)) (K : Nat) (k : Fin L) {bits : List Bool} (h : (decoded.map fun r => r k).take K = (bits.map sign).map flSym) :
    laneBits negF decoded K k = bits := by
  have e : laneBits negF decoded K k = ((decoded.map fun r => r k).take K).map negF := by
    unfold laneBits
    rw [← List.map_take, List.map_map]; rfl
  rw [e, h, List.map_map, List.map_map]
  conv_rhs => rw [← List.map_id bits]
  exact List.map_congr_left fun b _ => negF_sign b

/-- The whole frame with `PolarEncoder` and `PolarListDecoder`: data bits with their CRC are encoded; whatever is received, as long as every soft value
points to the right symbol, the frame is accepted, lane 0 is chosen, and its first `K - C` symbols are the data bits. -/
theorem C68_list (hw : 8 ≤ w) (poly : BitVec w) (hp : poly.msb = true) (crc : CRC w) (hc : Built poly crc)
    (frozen : List Nat) (level : Nat) (hlev : 1 ≤ level) (hf : 2 ^ level ≤ 32 * frozen.length)
    (data : List Bool) (message cw0 : List Int) (hK : w ≤ freeBelow frozen (2 ^ level)) (hd : data.length = freeBelow frozen (2 ^ level) - w)
    (hm : message.length = freeBelow frozen (2 ^ level)) (hcw : 2 ^ level ≤ cw0.length) :
    ∃ crc' message' cw, crcMessage crc data message (freeBelow frozen (2 ^ level)) w = some (crc', message') ∧ encode ph8 cw0 message' frozen level = some cw ∧
      ∀ (MAX_M : Nat) (soft hard : List (Reg L)) (maps : List (LMap L)) (metric : List Int) (rank : Option (List Nat)) (out : List (Reg L)) (received : List Int),
        ListCall L MAX_M soft hard maps metric rank out received frozen level → (∀ j, j < 2 ^ level → 0 < received.getD j 0 * cw.getD j 0) →
        ∃ rank' decoded metric' crc'', listDecode MAX_M soft hard maps metric rank out received frozen level = some (rank', decoded, metric') ∧
          crcSelect neg8 crc' decoded (freeBelow frozen (2 ^ level)) = some (crc'', 0, false) ∧ Built poly crc'' ∧
          ∀ k : Fin L, k.val = 0 → (ln k decoded).take (freeBelow frozen (2 ^ level) - w) = data.map sign := by
  obtain ⟨crc', bits, e, b1, b2, b3, b4⟩ := C68_message hw poly crc hc data message _ hK hd (by omega)
  rw [List.drop_eq_nil_of_le (by omega), List.append_nil] at e
  obtain ⟨cw, e2, -⟩ := C35_hard cw0 (bits.map sign) frozen level hlev hf (by rw [List.length_map]; omega) hcw (sign_sym bits)
  refine ⟨crc', _, cw, e, e2, fun MAX_M soft hard maps metric rank out received hcall hsign => ?_⟩
  obtain ⟨rank', decoded, metric', e3, h1, -⟩ := C38_sign_correct MAX_M soft hard maps metric rank out received frozen level hcall (bits.map sign) cw0 cw
    (by rw [List.length_map]; omega) (sign_sym bits) hcw e2 hsign
  obtain ⟨_, _, _, _, e4, hres⟩ := C38_decode MAX_M soft hard maps metric rank out received frozen level hcall
  rw [e3] at e4; cases e4
  rw [List.take_of_length_le (by rw [List.length_map]; omega)] at h1
  have hL : 0 < L := hcall.lanes.1
  obtain ⟨crc'', e5, b5⟩ := select_first hw poly hp neg8 crc' b1 decoded _ hK (by have := hcall.message_len; rw [hres.frame.1]; exact this) hL
    (by rw [laneBits_of_ln decoded _ ⟨0, hL⟩ (h1 ⟨0, hL⟩ rfl)]; exact b3)
  refine ⟨rank', decoded, metric', crc'', e3, e5, b5, fun k hk => ?_⟩
  have := congrArg (List.take (freeBelow frozen (2 ^ level) - w)) (h1 k hk)
  rw [List.take_take, Nat.min_eq_left (by omega), ← List.map_take, b4] at this
  exact this

/-- The same with `PolarParityEncoder` and `PolarParityDecoder`, the configuration of the test. -/
theorem C68_parity (hw : 8 ≤ w) (poly : BitVec w) (hp : poly.msb = true) (crc : CRC w) (hc : Built poly crc)
    (frozen : List Nat) (level stride first : Nat) (hlev : 1 ≤ level) (hf : 2 ^ level ≤ 32 * frozen.length)
    (data : List Bool) (message cw0 : List Int) (hK : w ≤ parK frozen level stride first) (hd : data.length = parK frozen level stride first - w)
    (hm : message.length = parK frozen level stride first) (hcw : 2 ^ level ≤ cw0.length) :
    ∃ crc' message' cw, crcMessage crc data message (parK frozen level stride first) w = some (crc', message') ∧ parEncode ph8 cw0 message' frozen level stride first = some cw ∧
      ∀ (MAX_M : Nat) (soft hard : List (Reg L)) (maps : List (LMap L)) (metric : List Int) (rank : Option (List Nat)) (out : List (Reg L)) (received : List Int),
        ParCall L MAX_M soft hard maps metric rank out received frozen level stride first → (∀ j, j < 2 ^ level → 0 < received.getD j 0 * cw.getD j 0) →
        ∃ rank' decoded metric' crc'', parDecode MAX_M soft hard maps metric rank out received frozen level stride first = some (rank', decoded, metric') ∧
          crcSelect neg8 crc' decoded (parK frozen level stride first) = some (crc'', 0, false) ∧ Built poly crc'' ∧
          ∀ k : Fin L, k.val = 0 → (ln k decoded).take (parK frozen level stride first - w) = data.map sign := by
  obtain ⟨crc', bits, e, b1, b2, b3, b4⟩ := C68_message hw poly crc hc data message _ hK hd (by omega)
  rw [List.drop_eq_nil_of_le (by omega), List.append_nil] at e
  obtain ⟨cw, e2, -⟩ := C39_encode cw0 (bits.map sign) frozen level stride first hlev hf (by rw [List.length_map]; unfold parK at *; omega) hcw (sign_sym bits)
  refine ⟨crc', _, cw, e, e2, fun MAX_M soft hard maps metric rank out received hcall hsign => ?_⟩
  obtain ⟨rank', decoded, metric', e3, h1, -⟩ := C39_sign_correct MAX_M soft hard maps metric rank out received frozen level stride first hcall (bits.map sign) cw0 cw
    (by rw [List.length_map]; omega) (sign_sym bits) hcw e2 hsign
  obtain ⟨_, _, _, e4, hres⟩ := C39_decode MAX_M soft hard maps metric rank out received frozen level stride first hcall
  rw [e3] at e4; cases e4
  rw [List.take_of_length_le (by rw [List.length_map]; omega)] at h1
  have hL : 0 < L := hcall.lanes.1
  obtain ⟨crc'', e5, b5⟩ := select_first hw poly hp neg8 crc' b1 decoded _ hK (by have := hcall.message_len; rw [hres.frame.1]; exact this) hL
    (by rw [laneBits_of_ln decoded _ ⟨0, hL⟩ (h1 ⟨0, hL⟩ rfl)]; exact b3)
  refine ⟨rank', decoded, metric', crc'', e3, e5, b5, fun k hk => ?_⟩
  have := congrArg (List.take (parK frozen level stride first - w)) (h1 k hk)
  rw [List.take_take, Nat.min_eq_left (by omega), ← List.map_take, b4] at this
  exact this

/-- The systematic frame: `PolarSysEnc`, `PolarListDecoder`, and the systematic symbols of all lanes computed with
`PolarEncoder<SIMD<int8_t, L>>` before the choice. -/
theorem C68_systematic (hw : 8 ≤ w) (poly : BitVec w) (hp : poly.msb = true) (crc : CRC w) (hc : Built poly crc)
    (frozen : List Nat) (level : Nat) (hlev : 1 ≤ level) (hf : 2 ^ level ≤ 32 * frozen.length) (hcl : Closed frozen level)
    (data : List Bool) (message cw0 : List Int) (hK : w ≤ freeBelow frozen (2 ^ level)) (hd : data.length = freeBelow frozen (2 ^ level) - w)
    (hm : message.length = freeBelow frozen (2 ^ level)) (hcw : 2 ^ level ≤ cw0.length) :
    ∃ crc' message' cw, crcMessage crc data message (freeBelow frozen (2 ^ level)) w = some (crc', message') ∧ sysEncode ph8 cw0 message' frozen level = some cw ∧
      ∀ (MAX_M : Nat) (soft hard : List (Reg L)) (maps : List (LMap L)) (metric : List Int) (rank : Option (List Nat)) (out temp : List (Reg L)) (received : List Int),
        ListCall L MAX_M soft hard maps metric rank out received frozen level → out.length = freeBelow frozen (2 ^ level) → 2 ^ level ≤ temp.length →
        (∀ j, j < 2 ^ level → 0 < received.getD j 0 * cw.getD j 0) →
        ∃ rank' decoded metric' decoded' crc'', listDecode MAX_M soft hard maps metric rank out received frozen level = some (rank', decoded, metric') ∧
          systematicSymbols (phV L) temp decoded frozen level = some decoded' ∧
          crcSelect neg8 crc' decoded' (freeBelow frozen (2 ^ level)) = some (crc'', 0, false) ∧ Built poly crc'' ∧
          ∀ k : Fin L, k.val = 0 → (ln k decoded').take (freeBelow frozen (2 ^ level) - w) = data.map sign := by
  obtain ⟨crc', bits, e, b1, b2, b3, b4⟩ := C68_message hw poly crc hc data message _ hK hd (by omega)
  rw [List.drop_eq_nil_of_le (by omega), List.append_nil] at e
  obtain ⟨cw, e2, c1, c2, c3, m', m1, m2, m3⟩ := C36_systematic cw0 (bits.map sign) frozen level hlev hf (by rw [List.length_map]; omega) hcw (sign_sym bits) hcl
  refine ⟨crc', _, cw, e, e2, fun MAX_M soft hard maps metric rank out temp received hcall hout htemp hsign => ?_⟩
  obtain ⟨rank', decoded, metric', e3, h1, -⟩ := C38_sign_correct MAX_M soft hard maps metric rank out received frozen level hcall m' cw0 cw
    (by omega) m2 hcw m3 hsign
  obtain ⟨_, _, _, _, e4, hres⟩ := C38_decode MAX_M soft hard maps metric rank out received frozen level hcall
  rw [e3] at e4; cases e4
  have hlen : decoded.length = freeBelow frozen (2 ^ level) := by rw [hres.frame.1, hout]
  have hL : 0 < L := hcall.lanes.1
  obtain ⟨t, e5, t1, -, t3⟩ := C35_simd temp decoded frozen level hlev hf (by omega) htemp
  obtain ⟨⟨d', n⟩, e6, g1, g2, -⟩ := gather_ok t decoded frozen (2 ^ level) (0 : Reg L) hf (by omega) (by omega)
  have e7 : systematicSymbols (phV L) temp decoded frozen level = some d' := by
    unfold systematicSymbols
    rw [e5, sb]
    erw [e6]
    rfl
  simp only at g1 g2
  have hlane : ∀ k : Fin L, k.val = 0 → (ln k d').take (freeBelow frozen (2 ^ level)) = bits.map sign := by
    intro k hk
    have hk1 := h1 k hk
    rw [List.take_of_length_le (by unfold ln; rw [List.length_map]; omega), List.take_of_length_le (by omega)] at hk1
    have hsym : ∀ r ∈ decoded, r k = 1 ∨ r k = -1 := fun r hr => m2 _ (by rw [← hk1]; exact List.mem_map.2 ⟨r, hr, rfl⟩)
    refine List.ext_getElem (by unfold ln; simp; omega) fun i i1 i2 => ?_
    have hi : i < freeBelow frozen (2 ^ level) := by simp at i2; omega
    obtain ⟨p, p1, p2, p3⟩ : ∃ p, p < 2 ^ level ∧ ¬ Frozen frozen p ∧ freeBelow frozen p = i := by
      have : ∀ n, i < freeBelow frozen n → ∃ p, p < n ∧ ¬ Frozen frozen p ∧ freeBelow frozen p = i := by
        intro n
        induction n with
        | zero => intro h; simp [freeBelow] at h
        | succ n ih =>
          intro h
          by_cases h2 : i < freeBelow frozen n
          · obtain ⟨p, a1, a2, a3⟩ := ih h2
            exact ⟨p, by omega, a2, a3⟩
          · rw [freeBelow_succ] at h
            split at h
            · omega
            · exact ⟨n, by omega, by assumption, by omega⟩
      exact this _ hi
    have q1 := g2 p p1 p2
    rw [p3] at q1
    have q2 := t3 k hsym p p1
    have q3 := c2 p p1 p2
    rw [p3] at q3
    have q4 : cw.getD p 0 = polar level (symbolAt frozen m') p := by
      obtain ⟨cw', e8, w8, -⟩ := C35_hard cw0 m' frozen level hlev hf (by omega) hcw m2
      rw [m3] at e8; cases e8
      rw [w8.2 p, if_pos p1]
    have hd' : i < d'.length := by omega
    rw [getElem_eq_getD _ 0, getElem_eq_getD _ 0, getD_take_lt hi, ln_getD k d' 0 0 hd', q1, q2, ← q3, q4]
    show polar level (symbolAt frozen (ln k decoded)) p = _
    rw [hk1]
  obtain ⟨crc'', e9, b5⟩ := select_first hw poly hp neg8 crc' b1 d' _ hK (by omega) hL
    (by rw [laneBits_of_ln d' _ ⟨0, hL⟩ (hlane ⟨0, hL⟩ rfl)]; exact b3)
  refine ⟨rank', decoded, metric', d', crc'', e3, e7, e9, b5, fun k hk => ?_⟩
  have := congrArg (List.take (freeBelow frozen (2 ^ level) - w)) (hlane k hk)
  rw [List.take_take, Nat.min_eq_left (by omega), ← List.map_take, b4] at this
  exact this

/-- The frame with the list decoder for `float` or `double` (`F` is the format, see C58): the same, for finite soft values that do not overflow. -/
theorem C68_float_list (F : Rounding) (U : Nat) (hw : 8 ≤ w) (poly : BitVec w) (hp : poly.msb = true) (crc : CRC w) (hc : Built poly crc)
    (frozen : List Nat) (level : Nat) (data : List Bool) (message : List Int) (hK : w ≤ freeBelow frozen (2 ^ level)) (hd : data.length = freeBelow frozen (2 ^ level) - w)
    (hm : message.length = freeBelow frozen (2 ^ level)) :
    ∃ crc' message', crcMessage crc data message (freeBelow frozen (2 ^ level)) w = some (crc', message') ∧
      ∀ (MAX_M : Nat) (soft hard : List (FReg L)) (maps : List (LMap L)) (metric : List Fl) (rank : Option (List Nat)) (out : List (FReg L)) (received : List Fl)
        (s : Nat → ℚ) (B : ℚ), FListCall F U L MAX_M soft hard maps metric rank received frozen level s B → freeBelow frozen (2 ^ level) ≤ out.length →
        (∀ j, j < 2 ^ level → 0 < s j * polar level (symbolAt frozen message') j) →
        ∃ rank' decoded metric' crc'', FlList.listDecode F U MAX_M soft hard maps metric rank out received frozen level = some (rank', decoded, metric') ∧
          crcSelect negF crc' decoded (freeBelow frozen (2 ^ level)) = some (crc'', 0, false) ∧ Built poly crc'' ∧
          ∀ k : Fin L, k.val = 0 → (decoded.map fun r => r k).take (freeBelow frozen (2 ^ level) - w) = (data.map sign).map flSym := by
  obtain ⟨crc', bits, e, b1, b2, b3, b4⟩ := C68_message hw poly crc hc data message _ hK hd (by omega)
  rw [List.drop_eq_nil_of_le (by omega), List.append_nil] at e
  refine ⟨crc', _, e, fun MAX_M soft hard maps metric rank out received s B hcall hout hsign => ?_⟩
  obtain ⟨rank', decoded, metric', e3, h1⟩ := C62_sign_correct F U MAX_M soft hard maps metric rank out received frozen level s B hcall hout (bits.map sign)
    (by rw [List.length_map]; omega) (sign_sym bits) hsign
  obtain ⟨_, _, _, e4, hres⟩ := C62_list F U MAX_M soft hard maps metric rank out received frozen level s B hcall hout
  rw [e3] at e4; cases e4
  have hL : 0 < L := hcall.lanes.1
  have h1 := h1.message
  rw [List.length_map, b2] at h1
  obtain ⟨crc'', e5, b5⟩ := select_first hw poly hp negF crc' b1 decoded _ hK (by rw [hres.frame.1]; exact hout) hL
    (by rw [laneBits_of_float decoded _ ⟨0, hL⟩ (h1 ⟨0, hL⟩ rfl)]; exact b3)
  refine ⟨rank', decoded, metric', crc'', e3, e5, b5, fun k hk => ?_⟩
  have := congrArg (List.take (freeBelow frozen (2 ^ level) - w)) (h1 k hk)
  rw [List.take_take, Nat.min_eq_left (by omega), ← List.map_take (f := flSym), ← List.map_take (f := sign), b4] at this
  exact this

/-- ... and with the parity-aided decoder. -/
theorem C68_float_parity (F : Rounding) (U : Nat) (hw : 8 ≤ w) (poly : BitVec w) (hp : poly.msb = true) (crc : CRC w) (hc : Built poly crc)
    (frozen : List Nat) (level stride first : Nat) (hfirst : 1 ≤ first) (data : List Bool) (message : List Int) (hK : w ≤ parK frozen level stride first)
    (hd : data.length = parK frozen level stride first - w) (hm : message.length = parK frozen level stride first) :
    ∃ crc' message', crcMessage crc data message (parK frozen level stride first) w = some (crc', message') ∧
      ∀ (MAX_M : Nat) (soft hard : List (FReg L)) (maps : List (LMap L)) (metric : List Fl) (rank : Option (List Nat)) (out : List (FReg L)) (received : List Fl)
        (s : Nat → ℚ) (B : ℚ), FListCall F U L MAX_M soft hard maps metric rank received frozen level s B → parK frozen level stride first ≤ out.length →
        (∀ j, j < 2 ^ level → 0 < s j * polar level (symbolAt frozen (withParity first stride message' (freeBelow frozen (2 ^ level)))) j) →
        ∃ rank' decoded metric' crc'', FlList.parDecode F U MAX_M soft hard maps metric rank out received frozen level stride first = some (rank', decoded, metric') ∧
          crcSelect negF crc' decoded (parK frozen level stride first) = some (crc'', 0, false) ∧ Built poly crc'' ∧
          ∀ k : Fin L, k.val = 0 → (decoded.map fun r => r k).take (parK frozen level stride first - w) = (data.map sign).map flSym := by
  obtain ⟨crc', bits, e, b1, b2, b3, b4⟩ := C68_message hw poly crc hc data message _ hK hd (by omega)
  rw [List.drop_eq_nil_of_le (by omega), List.append_nil] at e
  refine ⟨crc', _, e, fun MAX_M soft hard maps metric rank out received s B hcall hout hsign => ?_⟩
  obtain ⟨rank', decoded, metric', e3, h1⟩ := C62_parity_sign_correct F U MAX_M soft hard maps metric rank out received frozen level stride first s B hcall hfirst hout (bits.map sign)
    (by rw [List.length_map]; unfold parK at *; omega) (sign_sym bits) hsign
  obtain ⟨_, _, _, e4, hres⟩ := C62_parity F U MAX_M soft hard maps metric rank out received frozen level stride first s B hcall hfirst hout
  rw [e3] at e4; cases e4
  have hL : 0 < L := hcall.lanes.1
  have h1 := h1.message
  rw [List.length_map, b2] at h1
  obtain ⟨crc'', e5, b5⟩ := select_first hw poly hp negF crc' b1 decoded _ hK (by rw [hres.frame.1]; exact hout) hL
    (by rw [laneBits_of_float decoded _ ⟨0, hL⟩ (h1 ⟨0, hL⟩ rfl)]; exact b3)
  refine ⟨rank', decoded, metric', crc'', e3, e5, b5, fun k hk => ?_⟩
  have := congrArg (List.take (parK frozen level stride first - w)) (h1 k hk)
  rw [List.take_take, Nat.min_eq_left (by omega), ← List.map_take (f := flSym), ← List.map_take (f := sign), b4] at this
  exact this

/-! ### Whatever is received -/

/-- Whatever is received by `PolarListDecoder`, with the last position not frozen: if a lane `k` holds a valid message, the frame is accepted, the chosen lane
holds a valid message, and it is ranked at least as well as lane `k`; if moreover lane `k` has a metric below 127, the codeword of the chosen message has at least
the correlation with the received values that the codeword of lane `k` has.  If no lane holds a valid message the frame is refused. -/
theorem C68_choice (hw : 8 ≤ w) (poly : BitVec w) (hp : poly.msb = true) (crc : CRC w) (hc : Built poly crc)
    (MAX_M : Nat) (soft hard : List (Reg L)) (maps : List (LMap L)) (metric : List Int) (rank : Option (List Nat)) (out : List (Reg L)) (received : List Int)
    (frozen : List Nat) (level : Nat) (hcall : ListCall L MAX_M soft hard maps metric rank out received frozen level) (hK : w ≤ freeBelow frozen (2 ^ level))
    (hlast : ¬ Frozen frozen (2 ^ level - 1)) :
    ∃ rank' decoded metric' crc' best error, listDecode MAX_M soft hard maps metric rank out received frozen level = some (rank', decoded, metric') ∧
      crcSelect neg8 crc decoded (freeBelow frozen (2 ^ level)) = some (crc', best, error) ∧
      (error = true ↔ ∀ k : Fin L, ¬ Valid poly (laneBits neg8 decoded (freeBelow frozen (2 ^ level)) k)) ∧
      (error = false → ∃ b : Fin L, b.val = best ∧ Valid poly (laneBits neg8 decoded (freeBelow frozen (2 ^ level)) b) ∧
        ∀ k : Fin L, Valid poly (laneBits neg8 decoded (freeBelow frozen (2 ^ level)) k) → metric'.getD b 0 ≤ metric'.getD k 0 ∧
          (metric'.getD k 0 < 127 →
            correlation (2 ^ level) (received.getD · 0) (codewordOf frozen level ((ln k decoded).take (freeBelow frozen (2 ^ level)))) ≤
            correlation (2 ^ level) (received.getD · 0) (codewordOf frozen level ((ln b decoded).take (freeBelow frozen (2 ^ level)))))) := by
  obtain ⟨rank', decoded, metric', origin, e, hres⟩ := C38_decode MAX_M soft hard maps metric rank out received frozen level hcall
  obtain ⟨_, _, _, e', hmet⟩ := C57_metric MAX_M soft hard maps metric rank out received frozen level hcall
  rw [e] at e'; cases e'
  obtain ⟨crc', best, error, e2, -, h1, h2⟩ := C68_select (L := L) hw poly hp neg8 crc hc decoded _ hK (by have := hcall.message_len; rw [hres.frame.1]; exact this)
  refine ⟨rank', decoded, metric', crc', best, error, e, e2, ⟨fun he => (h2 he).2, fun hno => ?_⟩, fun he => ?_⟩
  · cases error with
    | true => rfl
    | false => obtain ⟨hb, hv, -⟩ := h1 rfl; exact absurd hv (hno _)
  · obtain ⟨hb, hv, hfirst⟩ := h1 he
    refine ⟨⟨best, hb⟩, rfl, hv, fun k hk => ?_⟩
    have hle : (⟨best, hb⟩ : Fin L) ≤ k := by
      rw [Fin.le_def]
      by_contra hlt
      exact hfirst k (by simpa using hlt) hk
    have hs := hres.sorted hlast _ _ hle
    refine ⟨hs, fun h127 => ?_⟩
    rw [correlation_eq (x := codewordOf frozen level ((ln k decoded).take (freeBelow frozen (2 ^ level)))) fun j hj => polar_sym (symbolAt_sym (hres.symbols k)) hj,
      correlation_eq (x := codewordOf frozen level ((ln ⟨best, hb⟩ decoded).take (freeBelow frozen (2 ^ level)))) fun j hj => polar_sym (symbolAt_sym (hres.symbols _)) hj]
    have a1 := (hmet k (by omega)).2 (Or.inl h127)
    have a2 := (hmet ⟨best, hb⟩ (by omega)).2 (Or.inl (by omega))
    simp only at a1 a2 hs
    omega

/-- The same for `PolarParityDecoder`. -/
theorem C68_parity_choice (hw : 8 ≤ w) (poly : BitVec w) (hp : poly.msb = true) (crc : CRC w) (hc : Built poly crc)
    (MAX_M : Nat) (soft hard : List (Reg L)) (maps : List (LMap L)) (metric : List Int) (rank : Option (List Nat)) (out : List (Reg L)) (received : List Int)
    (frozen : List Nat) (level stride first : Nat) (hcall : ParCall L MAX_M soft hard maps metric rank out received frozen level stride first)
    (hK : w ≤ parK frozen level stride first) (hlast : ¬ Frozen frozen (2 ^ level - 1)) :
    ∃ rank' decoded metric' crc' best error, parDecode MAX_M soft hard maps metric rank out received frozen level stride first = some (rank', decoded, metric') ∧
      crcSelect neg8 crc decoded (parK frozen level stride first) = some (crc', best, error) ∧
      (error = true ↔ ∀ k : Fin L, ¬ Valid poly (laneBits neg8 decoded (parK frozen level stride first) k)) ∧
      (error = false → ∃ b : Fin L, b.val = best ∧ Valid poly (laneBits neg8 decoded (parK frozen level stride first) b) ∧
        ∀ k : Fin L, Valid poly (laneBits neg8 decoded (parK frozen level stride first) k) → metric'.getD b 0 ≤ metric'.getD k 0 ∧
          (metric'.getD k 0 < 127 →
            correlation (2 ^ level) (received.getD · 0) (codewordOf frozen level
              (withParity first stride ((ln k decoded).take (parK frozen level stride first)) (freeBelow frozen (2 ^ level)))) ≤
            correlation (2 ^ level) (received.getD · 0) (codewordOf frozen level
              (withParity first stride ((ln b decoded).take (parK frozen level stride first)) (freeBelow frozen (2 ^ level)))))) := by
  obtain ⟨rank', decoded, metric', e, hres⟩ := C39_decode MAX_M soft hard maps metric rank out received frozen level stride first hcall
  obtain ⟨_, _, _, e', hmet⟩ := C57_parity_metric MAX_M soft hard maps metric rank out received frozen level stride first hcall
  rw [e] at e'; cases e'
  obtain ⟨crc', best, error, e2, -, h1, h2⟩ := C68_select (L := L) hw poly hp neg8 crc hc decoded _ hK (by have := hcall.message_len; rw [hres.frame.1]; exact this)
  refine ⟨rank', decoded, metric', crc', best, error, e, e2, ⟨fun he => (h2 he).2, fun hno => ?_⟩, fun he => ?_⟩
  · cases error with
    | true => rfl
    | false => obtain ⟨hb, hv, -⟩ := h1 rfl; exact absurd hv (hno _)
  · obtain ⟨hb, hv, hfirst⟩ := h1 he
    refine ⟨⟨best, hb⟩, rfl, hv, fun k hk => ?_⟩
    have hle : (⟨best, hb⟩ : Fin L) ≤ k := by
      rw [Fin.le_def]
      by_contra hlt
      exact hfirst k (by simpa using hlt) hk
    have hs := hres.sorted hlast _ _ hle
    refine ⟨hs, fun h127 => ?_⟩
    rw [correlation_eq (x := codewordOf frozen level (withParity first stride ((ln k decoded).take (parK frozen level stride first)) (freeBelow frozen (2 ^ level))))
        fun j hj => polar_sym (symbolAt_sym (withParity_sym _ _ (hres.symbols k) _)) hj,
      correlation_eq (x := codewordOf frozen level (withParity first stride ((ln ⟨best, hb⟩ decoded).take (parK frozen level stride first)) (freeBelow frozen (2 ^ level))))
        fun j hj => polar_sym (symbolAt_sym (withParity_sym _ _ (hres.symbols _) _)) hj]
    have a1 := (hmet k (by omega)).2 (Or.inl h127)
    have a2 := (hmet ⟨best, hb⟩ (by omega)).2 (Or.inl (by omega))
    simp only at a1 a2 hs
    omega

/-- A wrong message that passes: two valid messages of the same length differ by a multiple of the generator, and not only within `w` neighbouring positions. -/
theorem C68_mistaken (hw : 0 < w) (poly : BitVec w) (hp : poly.msb = true) (a b : List Bool) (ha : Valid poly a) (hb : Valid poly b) (hlen : a.length = b.length) :
    genPoly poly ∣ msgPoly a - msgPoly b ∧ (a ≠ b → ∀ k, ∃ i, i ∈ diffs a b ∧ (i < k ∨ k + w ≤ i)) := by
  have e : ∀ x : List Bool, Valid poly x → specBits poly 0#w x = 0#w := by
    rintro x ⟨d, rfl⟩
    rw [specBits_append]
    exact (C03_crc_residue poly _ 0#w).1
  have eab := (e a ha).trans (e b hb).symm
  refine ⟨(C64_undetected_iff hw poly 0#w hp a b hlen).1 eab, fun hne k => ?_⟩
  by_contra hno
  push Not at hno
  refine C02_crc_detects_bursts poly 0#w hp a b hlen hne k (fun i h1 h2 h3 => hno i ?_) eab
  rw [diffs, Finset.mem_filter, Finset.mem_range, ← getElem_eq_getD h1, ← getElem_eq_getD h2]
  exact ⟨h1, h3⟩

/-- With the polynomial of the test, valid messages of up to 65537 bits differ in at least five positions. -/
theorem C68_distance (a b : List Bool) (ha : Valid 0xD419CC15#32 a) (hb : Valid 0xD419CC15#32 b) (hlen : a.length = b.length) (h16 : a.length ≤ 65537) (hne : a ≠ b) :
    5 ≤ (diffs a b).card := by
  have e : ∀ x : List Bool, Valid 0xD419CC15#32 x → specBits 0xD419CC15#32 0#32 x = 0#32 := by
    rintro x ⟨d, rfl⟩
    rw [specBits_append]
    exact (C03_crc_residue _ _ 0#32).1
  exact dist_D419CC15 0#32 a b hlen hne h16 ((e a ha).trans (e b hb).symm)

/-! ### Cases -/

/-- A frame of two data bits with an 8-bit CRC, ten positions not frozen, received with the errors `noise`. -/
def frameRun (L : Nat) (frozen : Nat) (data : List Bool) (amp : List Int) : Option (List Int × List Int × Nat × Bool) := do
  let crc ← CRC.new 0x8C#8 0x55#8
  let (crc, message) ← crcMessage crc data (List.replicate 10 99) 10 8
  let cw ← encode ph8 (List.replicate 32 0) message [frozen] 5
  let (_, decoded, metric) ← listDecode (L := L) 5 (List.replicate 64 fun _ => 99) (List.replicate 32 fun _ => 77) (List.replicate 32 fun _ => 200) (List.replicate L 5)
    none (List.replicate 10 fun _ => 5) (List.zipWith (· * ·) cw amp) [frozen] 5
  let (_, best, error) ← crcSelect neg8 crc decoded 10
  return (message, metric, best, error)

/-- All soft values right: lane 0, as C68_list says. -/
example : frameRun 4 0x003fffff [true, false] (List.replicate 32 7) = some ([-1, 1, 1, -1, -1, 1, 1, 1, -1, 1], [0, 28, 28, 28], 0, false) := by decide +kernel

/-- Two strong errors: the message sent is second in the list, and the CRC finds it. -/
example : frameRun 4 0x003fffff [true, false] ((List.range 32).map fun i => if i = 0 ∨ i = 8 then -7 else if i = 16 ∨ i = 24 then 1 else 40) =
    some ([-1, 1, 1, -1, -1, 1, 1, 1, -1, 1], [2, 14, 129, 129], 1, false) := by decide +kernel

/-- Too many errors: no lane has a valid message. -/
example : frameRun 4 0x003fffff [true, false] ((List.range 32).map fun i => if i % 4 = 0 then -3 else 3) =
    some ([-1, 1, 1, -1, -1, 1, 1, 1, -1, 1], [0, 12, 12, 12], 0, true) := by decide +kernel

/-- The hypotheses of the theorems on these frames: ten positions are not frozen, among them the last; the polynomials have their top bit set; and the valid message of the frame. -/
example : freeBelow [0x003fffff] (2 ^ 5) = 10 ∧ ¬ Frozen [0x003fffff] (2 ^ 5 - 1) ∧ (0x8C#8).msb = true ∧ (0xD419CC15#32).msb = true := by
  rw [← rank_eq]; decide +kernel
example : Valid 0x8C#8 ([true, false] ++ bitsLE (specBits 0x8C#8 0#8 [true, false])) ∧
    bitsLE (specBits 0x8C#8 0#8 [true, false]) = [false, true, true, false, false, false, true, false] := by
  refine ⟨⟨_, rfl⟩, ?_⟩; decide

end Verif.CrcPolar
