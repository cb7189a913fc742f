import Verif.Cauchy.Proof
/- The SIMD kernels compute the same as the scalar one. -/
namespace Verif.Cauchy
open Verif.GF Verif.GF2 Finset
open Verif.RS (sb)

variable {w M P : Nat} {T : Tab}

/-! ### Lanes -/

theorem toNat_words (r : Reg 8) (i : Nat) : (words r i).toNat = (r (2 * i + 1)).toNat * 256 + (r (2 * i)).toNat := by
  unfold words
  have h1 := (r (2 * i + 1)).isLt
  have h2 := (r (2 * i)).isLt
  rw [BitVec.toNat_or, BitVec.toNat_shiftLeft, BitVec.toNat_setWidth, BitVec.toNat_setWidth,
    Nat.mod_eq_of_lt (by omega), Nat.mod_eq_of_lt (show (r (2 * i)).toNat < 2 ^ 16 by omega), Nat.shiftLeft_eq,
    Nat.mod_eq_of_lt (by omega), ← Nat.shiftLeft_eq, ← Nat.shiftLeft_add_eq_or_of_lt h2, Nat.shiftLeft_eq]

theorem toNat_bytes (r : Reg 16) (i : Nat) :
    (bytes r i).toNat = if i % 2 = 0 then (r (i / 2)).toNat % 256 else (r (i / 2)).toNat / 256 := by
  unfold bytes
  have h1 := (r (i / 2)).isLt
  split
  · rw [BitVec.toNat_setWidth]
  · rw [BitVec.toNat_setWidth, BitVec.toNat_ushiftRight, Nat.shiftRight_eq_div_pow, Nat.mod_eq_of_lt (by omega)]

theorem toNat_low (x : Reg 8) (i : Nat) : (lowNibble x i).toNat = (x i).toNat % 16 := by
  unfold lowNibble
  rw [BitVec.toNat_and, show (15#8).toNat = 2 ^ 4 - 1 by rfl, Nat.and_two_pow_sub_one_eq_mod]

theorem toNat_high (isa : Isa) (x : Reg 8) (i : Nat) : (isa.highNibble x i).toNat = (x i).toNat / 16 := by
  have hx := (x i).isLt
  have x86 : (lowNibble (bytes fun i => words x i >>> 4) i).toNat = (x i).toNat / 16 := by
    rw [toNat_low, toNat_bytes]
    split
    · rename_i h
      rw [BitVec.toNat_ushiftRight, toNat_words, Nat.shiftRight_eq_div_pow]
      have e : 2 * (i / 2) = i := by omega
      rw [e]
      have := (x (i + 1)).isLt
      omega
    · rename_i h
      rw [BitVec.toNat_ushiftRight, toNat_words, Nat.shiftRight_eq_div_pow]
      have e : 2 * (i / 2) + 1 = i := by omega
      have := (x (2 * (i / 2))).isLt
      rw [e]
      omega
  cases isa with
  | neon =>
    show (x i >>> 4).toNat = _
    rw [BitVec.toNat_ushiftRight, Nat.shiftRight_eq_div_pow]
  | sse => exact x86
  | avx2 => exact x86

theorem toNat_packLow (h l : Reg 16) (i : Nat) :
    (packLow h l i).toNat = (h i).toNat % 256 * 256 + (l i).toNat % 256 := by
  unfold packLow
  have h1 := (h i).isLt
  have h2 := (l i).isLt
  rw [BitVec.toNat_or, BitVec.toNat_and, BitVec.toNat_shiftLeft, show (255#16).toNat = 2 ^ 8 - 1 by rfl,
    Nat.and_two_pow_sub_one_eq_mod, Nat.shiftLeft_eq,
    show (h i).toNat * 2 ^ 8 % 2 ^ 16 = ((h i).toNat % 256) * 2 ^ 8 by omega, ← Nat.shiftLeft_eq,
    ← Nat.shiftLeft_add_eq_or_of_lt (show (l i).toNat % 2 ^ 8 < 2 ^ 8 by omega), Nat.shiftLeft_eq]
  norm_num

theorem toNat_packHigh (h l : Reg 16) (i : Nat) :
    (packHigh h l i).toNat = (h i).toNat / 256 * 256 + (l i).toNat / 256 := by
  unfold packHigh
  have h1 := (h i).isLt
  have h2 := (l i).isLt
  have hand : ((h i) &&& 0xff00#16) = ((h i) >>> 8) <<< 8 := by
    apply BitVec.eq_of_getLsbD_eq
    intro j hj
    rw [BitVec.getLsbD_and, BitVec.getLsbD_shiftLeft, BitVec.getLsbD_ushiftRight]
    by_cases hj8 : j < 8
    · have : (0xff00#16).getLsbD j = false := by
        have : j = 0 ∨ j = 1 ∨ j = 2 ∨ j = 3 ∨ j = 4 ∨ j = 5 ∨ j = 6 ∨ j = 7 := by omega
        rcases this with rfl | rfl | rfl | rfl | rfl | rfl | rfl | rfl <;> rfl
      simp [this, hj8]
    · have : (0xff00#16).getLsbD j = true := by
        have : j = 8 ∨ j = 9 ∨ j = 10 ∨ j = 11 ∨ j = 12 ∨ j = 13 ∨ j = 14 ∨ j = 15 := by omega
        rcases this with rfl | rfl | rfl | rfl | rfl | rfl | rfl | rfl <;> rfl
      rw [this, show 8 + (j - 8) = j by omega]
      simp [hj8, hj]
  rw [hand, BitVec.toNat_or, BitVec.toNat_shiftLeft, BitVec.toNat_ushiftRight, BitVec.toNat_ushiftRight,
    Nat.shiftRight_eq_div_pow, Nat.shiftRight_eq_div_pow, Nat.shiftLeft_eq, Nat.mod_eq_of_lt (by omega), ← Nat.shiftLeft_eq,
    ← Nat.shiftLeft_add_eq_or_of_lt (show (l i).toNat / 2 ^ 8 < 2 ^ 8 by omega), Nat.shiftLeft_eq]
  norm_num

theorem look_eq (isa : Isa) (l : List Nat) (idx : Reg 8) {i : Nat} (hi : i < isa.width) (h : (idx i).toNat < 16) :
    isa.look l idx i = BitVec.ofNat 8 (l.getD (idx i).toNat 0) := by
  have h7 : (idx i).getLsbD 7 = false := by
    rw [BitVec.getLsbD, Nat.testBit_eq_false_of_lt (by omega)]
  cases isa with
  | neon =>
    unfold Isa.look tbl
    dsimp only
    rw [if_pos h]
  | sse =>
    unfold Isa.look shuffle
    dsimp only
    have : i < 16 := hi
    rw [h7, if_neg (by simp), show i / 16 * 16 + (idx i).toNat % 16 = (idx i).toNat by omega]
  | avx2 =>
    unfold Isa.look shuffle broadcast
    dsimp only
    rw [h7, if_neg (by simp), show (i / 16 * 16 + (idx i).toNat % 16) % 16 = (idx i).toNat by omega]

theorem store_ok {k : Nat} {mem : List Nat} {off n : Nat} (r : Reg k) (h : off + n ≤ mem.length) :
    Ok (store mem off n r) (fun m => m.length = mem.length ∧
      ∀ i, m.getD i 0 = if off ≤ i ∧ i < off + n then (r (i - off)).toNat else mem.getD i 0) := by
  unfold store
  refine Ok.bind' (P := fun _ => True) (Ok.assertUB h trivial) fun _ _ => ?_
  have hl : (mem.take off ++ (List.range n).map (fun i => (r i).toNat)).length = off + n := by
    rw [List.length_append, List.length_take, List.length_map, List.length_range]; omega
  refine Ok.pure ⟨by rw [List.length_append, hl, List.length_drop]; omega, fun i => ?_⟩
  have ht : (mem.take off).length = off := by rw [List.length_take]; omega
  by_cases h1 : i < off
  · rw [if_neg (by omega), List.getD_append _ _ _ _ (by omega), List.getD_append _ _ _ _ (by omega)]
    rw [List.getD_eq_getElem?_getD, List.getD_eq_getElem?_getD, List.getElem?_take, if_pos h1]
  · by_cases h2 : i < off + n
    · rw [if_pos ⟨by omega, h2⟩, List.getD_append _ _ _ _ (by omega), List.getD_append_right _ _ _ _ (by omega), ht,
        List.getD_eq_getElem _ _ (by simp; omega), List.getElem_map, List.getElem_range]
    · rw [if_neg (by omega), List.getD_append_right _ _ _ _ (by omega), hl, List.getD_eq_getElem?_getD,
        List.getD_eq_getElem?_getD, List.getElem?_drop, show off + n + (i - (off + n)) = i by omega]

theorem load_ok {k : Nat} {mem : List Nat} {off n : Nat} (h : off + n ≤ mem.length) :
    load (k := k) mem off n = some fun i => BitVec.ofNat k (mem.getD (off + i) 0) := by
  unfold load
  rw [show assertUB (off + n ≤ mem.length) = some () from if_pos h]
  rfl

theorem toR_split (P e k : Nat) : toR P e = toR P (e % 2 ^ k) + xR P ^ k * toR P (e / 2 ^ k) := by
  rw [← toR_shift, ← toR_xor]
  congr 1
  apply Nat.eq_of_testBit_eq
  intro i
  rw [Nat.testBit_xor, Nat.testBit_mod_two_pow, Nat.testBit_shiftLeft, Nat.testBit_div_two_pow]
  by_cases h : i < k
  · have h' : ¬ k ≤ i := by omega
    simp [h, h']
  · have h' : k ≤ i := by omega
    simp [h, h']

/-! ### 8 bits -/

/-- A table of the products of the multiplier with the nibbles shifted by `sh`. -/
def TabOK (P M b sh : Nat) (f : Nat → Nat) : Prop :=
  ∀ t, t < 16 → f t ≤ 2 ^ M - 1 ∧ toR P (f t) = xR P ^ b * toR P (t <<< sh)

theorem product_ok (R : Ready w M P T) {b v : Nat} (hb : b < 2 ^ M - 1) (hv : v ≤ 2 ^ M - 1) :
    ∃ x, (mkValue w M v >>= mulIV w M T b) = some x ∧ x ≤ 2 ^ M - 1 ∧ toR P x = xR P ^ b * toR P v := by
  rw [mkV_ok R hv, sb]
  exact C19_mulIV R hb hv

theorem tables8_ok (R : Ready 8 8 P T) {b : Nat} (hb : b < 2 ^ 8 - 1) :
    Ok (tables8 8 8 T b) (fun s => TabOK P 8 b 0 (fun t => s.1.getD t 0) ∧ TabOK P 8 b 4 (fun t => s.2.getD t 0)) := by
  unfold tables8
  refine Ok.mono (forUp_inv (fun k (s : List Nat × List Nat) => s.1.length = 16 ∧ s.2.length = 16 ∧
    (∀ t, t < k → s.1.getD t 0 ≤ 2 ^ 8 - 1 ∧ toR P (s.1.getD t 0) = xR P ^ b * toR P (t <<< 0)) ∧
    (∀ t, t < k → s.2.getD t 0 ≤ 2 ^ 8 - 1 ∧ toR P (s.2.getD t 0) = xR P ^ b * toR P (t <<< 4)))
    (Nat.zero_le _) ⟨rfl, rfl, by omega, by omega⟩ ?_) ?_
  · rintro k ⟨bl, bh⟩ _ hk ⟨h1, h2, h3, h4⟩
    dsimp only at h1 h2 h3 h4 ⊢
    obtain ⟨x, hx, hxl, hxe⟩ := product_ok R hb (show k ≤ 2 ^ 8 - 1 by omega)
    obtain ⟨y, hy, hyl, hye⟩ := product_ok R hb (show k <<< 4 ≤ 2 ^ 8 - 1 by rw [Nat.shiftLeft_eq]; omega)
    rw [← bind_assoc, hx, sb, wr_of_lt (by omega), sb, ← bind_assoc, hy, sb, wr_of_lt (by omega), sb,
      Nat.mod_eq_of_lt (show x < 2 ^ 8 by omega), Nat.mod_eq_of_lt (show y < 2 ^ 8 by omega)]
    refine Ok.some ⟨by rw [List.length_set, h1], by rw [List.length_set, h2], ?_, ?_⟩
    · intro t ht
      dsimp only
      rw [getD_set]
      by_cases hkt : k = t
      · subst hkt
        rw [if_pos ⟨rfl, by omega⟩]
        exact ⟨hxl, by rw [hxe]; rfl⟩
      · rw [if_neg (by tauto)]; exact h3 t (by omega)
    · intro t ht
      dsimp only
      rw [getD_set]
      by_cases hkt : k = t
      · subst hkt
        rw [if_pos ⟨rfl, by omega⟩]
        exact ⟨hyl, hye⟩
      · rw [if_neg (by tauto)]; exact h4 t (by omega)
  · rintro ⟨bl, bh⟩ ⟨_, _, h3, h4⟩
    exact ⟨h3, h4⟩

/-- One block: extends the part of the array that is done. -/
theorem MacPost.step {c a : List Nat} {off b j W : Nat} {init : Bool} {c' m : List Nat}
    (h : MacPost P M c a off b (j * W) init c') (hl : m.length = c'.length)
    (hin : ∀ i, i < W → m.getD (j * W + i) 0 ≤ 2 ^ M - 1 ∧ toR P (m.getD (j * W + i) 0) =
      xR P ^ b * toR P (a.getD (off + j * W + i) 0) + if init then 0 else toR P (c'.getD (j * W + i) 0))
    (hout : ∀ i, i < j * W ∨ j * W + W ≤ i → m.getD i 0 = c'.getD i 0) :
    MacPost P M c a off b ((j + 1) * W) init m := by
  have e : (j + 1) * W = j * W + W := by ring
  refine ⟨hl.trans h.length, ?_, ?_, ?_⟩
  · intro i hi
    by_cases h1 : i < j * W
    · rw [hout i (Or.inl h1)]; exact h.range i h1
    · have := (hin (i - j * W) (by omega)).1
      rwa [show j * W + (i - j * W) = i by omega] at this
  · intro i hi
    by_cases h1 : i < j * W
    · rw [hout i (Or.inl h1)]; exact h.value i h1
    · have := (hin (i - j * W) (by omega)).2
      rw [show j * W + (i - j * W) = i by omega, show off + j * W + (i - j * W) = off + i by omega] at this
      rw [this, h.rest i (by omega)]
  · intro i hi
    rw [hout i (Or.inr (by omega)), h.rest i (by omega)]

theorem Isa.width_pos (isa : Isa) : 0 < isa.width := by cases isa <;> decide

theorem macSimd8_ok (R : Ready 8 8 P T) (isa : Isa) {c a : List Nat} {off b len : Nat} {init : Bool} (hb : b < 2 ^ 8 - 1)
    (ha : ∀ x ∈ a, x ≤ 2 ^ 8 - 1) (hal : off + len ≤ a.length) (hcl : len ≤ c.length)
    (hc : init = false → ∀ i, i < len → c.getD i 0 ≤ 2 ^ 8 - 1) (hlen : len % isa.width = 0) :
    Ok (macSimd8 8 8 T isa c a off b len init) (MacPost P 8 c a off b len init) := by
  have hW := isa.width_pos
  set W := isa.width with hWd
  unfold macSimd8
  refine Ok.bind' (tables8_ok R hb) ?_
  rintro ⟨bl, bh⟩ ⟨t1, t2⟩
  dsimp only at t1 t2 ⊢
  rw [← hWd]
  obtain ⟨q, hq⟩ : ∃ q, len = q * W := ⟨len / W, by rw [Nat.div_mul_cancel (Nat.dvd_of_mod_eq_zero hlen)]⟩
  have hcnt : (len + W - 1) / W = q := by
    rw [hq, show q * W + W - 1 = (W - 1) + W * q by rw [Nat.mul_comm]; omega, Nat.add_mul_div_left _ _ hW,
      Nat.div_eq_of_lt (by omega), Nat.zero_add]
  rw [hcnt]
  refine Ok.mono (forUp_inv (fun k (c' : List Nat) => MacPost P 8 c a off b (k * W) init c') (Nat.zero_le _)
    ⟨rfl, by omega, by omega, fun _ _ => rfl⟩ ?_) (fun c' h => by rw [hq]; exact h)
  intro k c' _ hk h
  have hkW : k * W + W ≤ len := by
    rw [hq, show k * W + W = (k + 1) * W by ring]; exact Nat.mul_le_mul_right W (by omega)
  have hl' := h.length
  rw [load_ok (k := 8) (show off + k * W + W ≤ a.length by omega), sb]
  -- the products
  set x : Reg 8 := fun i => BitVec.ofNat 8 (a.getD (off + k * W + i) 0) with hx
  have hxn : ∀ i, (x i).toNat = a.getD (off + k * W + i) 0 := fun i => by
    have := getD_le ha (off + k * W + i)
    rw [hx]; dsimp only
    rw [BitVec.toNat_ofNat, Nat.mod_eq_of_lt (by omega)]
  set r : Reg 8 := rxor (isa.look bl (lowNibble x)) (isa.look bh (isa.highNibble x)) with hr
  have hrn : ∀ i, i < W → toR P (r i).toNat = xR P ^ b * toR P (a.getD (off + k * W + i) 0) := by
    intro i hi
    have hxl := (x i).isLt
    have h1 : (lowNibble x i).toNat = (x i).toNat % 16 := toNat_low x i
    have h2 : (isa.highNibble x i).toNat = (x i).toNat / 16 := toNat_high isa x i
    have t1' := t1 ((x i).toNat % 16) (by omega)
    have t2' := t2 ((x i).toNat / 16) (by omega)
    have b1 := t1'.1
    have b2 := t2'.1
    dsimp only at b1 b2
    have e1 : (isa.look bl (lowNibble x) i).toNat = bl.getD ((x i).toNat % 16) 0 := by
      rw [look_eq isa bl _ hi (by omega), h1, BitVec.toNat_ofNat, Nat.mod_eq_of_lt (lt_of_le_of_lt b1 (by norm_num))]
    have e2 : (isa.look bh (isa.highNibble x) i).toNat = bh.getD ((x i).toNat / 16) 0 := by
      rw [look_eq isa bh _ hi (by omega), h2, BitVec.toNat_ofNat, Nat.mod_eq_of_lt (lt_of_le_of_lt b2 (by norm_num))]
    rw [hr]
    unfold rxor
    rw [BitVec.toNat_xor, e1, e2, toR_xor, t1'.2, t2'.2, ← hxn i, toR_split P (x i).toNat 4, Nat.shiftLeft_zero, toR_shift]
    norm_num only
    ring
  have fin : ∀ y : Reg 8, (∀ i, i < W → toR P (y i).toNat = xR P ^ b * toR P (a.getD (off + k * W + i) 0) +
      if init then 0 else toR P (c'.getD (k * W + i) 0)) →
      Ok (store c' (k * W) W y) (MacPost P 8 c a off b ((k + 1) * W) init) := by
    intro y hy
    refine (store_ok y (by omega)).mono ?_
    rintro m ⟨m1, m2⟩
    refine h.step m1 ?_ ?_
    · intro i hi
      rw [m2, if_pos (by omega), Nat.add_sub_cancel_left]
      exact ⟨by have := (y i).isLt; omega, hy i hi⟩
    · intro i hi
      rw [m2, if_neg (by omega)]
  unfold acc8
  cases init with
  | true =>
    rw [if_pos rfl, sb]
    refine fin r fun i hi => ?_
    rw [hrn i hi, if_pos rfl, add_zero]
  | false =>
    rw [if_neg (by simp), load_ok (k := 8) (show k * isa.width + isa.width ≤ c'.length by rw [← hWd]; omega)]
    refine fin _ fun i hi => ?_
    have hci : c'.getD (k * W + i) 0 ≤ 2 ^ 8 - 1 := by
      rw [h.rest _ (by omega)]; exact hc rfl _ (by omega)
    show toR P (r i ^^^ BitVec.ofNat 8 (c'.getD (k * W + i) 0)).toNat = _
    rw [BitVec.toNat_xor, toR_xor, hrn i hi, BitVec.toNat_ofNat, Nat.mod_eq_of_lt (by omega)]
    simp

/-! ### 16 bits -/

theorem pair16_ok (R : Ready 16 16 P T) {b sh : Nat} (hb : b < 2 ^ 16 - 1) (hsh : sh ≤ 12) :
    Ok (pair16 16 16 T b sh) (fun s => ∃ F : Nat → Nat, TabOK P 16 b sh F ∧
      ∀ t, t < 16 → s.1.getD t 0 = F t % 256 ∧ s.2.getD t 0 = F t / 256) := by
  have hall : ∀ t, t < 16 → ∃ x, (mkValue 16 16 (t <<< sh) >>= mulIV 16 16 T b) = some x ∧ x ≤ 2 ^ 16 - 1 ∧
      toR P x = xR P ^ b * toR P (t <<< sh) := fun t ht => product_ok R hb (by
    rw [Nat.shiftLeft_eq]
    have : 2 ^ sh ≤ 2 ^ 12 := Nat.pow_le_pow_right (by norm_num) hsh
    calc t * 2 ^ sh ≤ 15 * 2 ^ 12 := Nat.mul_le_mul (by omega) this
      _ ≤ _ := by norm_num)
  have hch : ∃ F : Nat → Nat, ∀ t, t < 16 → (mkValue 16 16 (t <<< sh) >>= mulIV 16 16 T b) = some (F t) ∧ F t ≤ 2 ^ 16 - 1 ∧
      toR P (F t) = xR P ^ b * toR P (t <<< sh) := by
    refine ⟨fun t => if ht : t < 16 then (hall t ht).choose else 0, fun t ht => ?_⟩
    dsimp only
    rw [dif_pos ht]
    exact (hall t ht).choose_spec
  obtain ⟨F, hF⟩ := hch
  unfold pair16
  refine Ok.mono (forUp_inv (fun k (s : List Nat × List Nat) => s.1.length = 16 ∧ s.2.length = 16 ∧
    (∀ t, t < k → s.1.getD t 0 = F t % 256 ∧ s.2.getD t 0 = F t / 256))
    (Nat.zero_le _) ⟨rfl, rfl, by omega⟩ ?_) ?_
  · rintro k ⟨l, h⟩ _ hk ⟨h1, h2, h3⟩
    dsimp only at h1 h2 h3 ⊢
    obtain ⟨hx, hxl, hxe⟩ := hF k hk
    rw [← bind_assoc, hx, sb, wr_of_lt (by omega), sb, wr_of_lt (by omega), sb]
    refine Ok.some ⟨by rw [List.length_set, h1], by rw [List.length_set, h2], ?_⟩
    intro t ht
    dsimp only
    rw [getD_set, getD_set]
    by_cases hkt : k = t
    · subst hkt
      rw [if_pos ⟨rfl, by omega⟩, if_pos ⟨rfl, by omega⟩, Nat.shiftRight_eq_div_pow]
      exact ⟨rfl, by omega⟩
    · rw [if_neg (by tauto), if_neg (by tauto)]; exact h3 t (by omega)
  · rintro ⟨l, h⟩ ⟨_, _, h3⟩
    exact ⟨F, fun t ht => (hF t ht).2, h3⟩

/-- Low and high bytes of the table `F`. -/
def Halves (l h : List Nat) (F : Nat → Nat) : Prop :=
  ∀ t, t < 16 → l.getD t 0 = F t % 256 ∧ h.getD t 0 = F t / 256

theorem tables16_ok (R : Ready 16 16 P T) {b : Nat} (hb : b < 2 ^ 16 - 1) :
    Ok (tables16 16 16 T b) (fun t => ∃ F0 F1 F2 F3 : Nat → Nat,
      (TabOK P 16 b 0 F0 ∧ TabOK P 16 b 4 F1 ∧ TabOK P 16 b 8 F2 ∧ TabOK P 16 b 12 F3) ∧
      Halves t.lll t.hll F0 ∧ Halves t.llh t.hlh F1 ∧ Halves t.lhl t.hhl F2 ∧ Halves t.lhh t.hhh F3) := by
  unfold tables16
  refine Ok.bind' (pair16_ok R hb (by omega)) ?_
  rintro ⟨l0, h0⟩ ⟨F0, t0, e0⟩
  refine Ok.bind' (pair16_ok R hb (by omega)) ?_
  rintro ⟨l1, h1⟩ ⟨F1, t1, e1⟩
  refine Ok.bind' (pair16_ok R hb (by omega)) ?_
  rintro ⟨l2, h2⟩ ⟨F2, t2, e2⟩
  refine Ok.bind' (pair16_ok R hb (by omega)) ?_
  rintro ⟨l3, h3⟩ ⟨F3, t3, e3⟩
  exact Ok.some ⟨F0, F1, F2, F3, ⟨t0, t1, t2, t3⟩, e0, e1, e2, e3⟩

theorem Halves.look (isa : Isa) {l h : List Nat} {F : Nat → Nat} {b sh : Nat} (H : Halves l h F) (hF : TabOK P 16 b sh F)
    (idx : Reg 8) {i : Nat} (hi : i < isa.width) (h16 : (idx i).toNat < 16) :
    (isa.look l idx i).toNat = F (idx i).toNat % 256 ∧ (isa.look h idx i).toNat = F (idx i).toNat / 256 := by
  obtain ⟨a1, a2⟩ := H _ h16
  have := (hF _ h16).1
  rw [look_eq isa l _ hi h16, look_eq isa h _ hi h16, a1, a2, BitVec.toNat_ofNat, BitVec.toNat_ofNat]
  constructor
  · exact Nat.mod_eq_of_lt (Nat.mod_lt _ (by norm_num))
  · exact Nat.mod_eq_of_lt (by omega)

theorem xor4_halves (a b c d : Nat) :
    ((a / 256 ^^^ b / 256) ^^^ (c / 256 ^^^ d / 256)) * 256 + ((a % 256 ^^^ b % 256) ^^^ (c % 256 ^^^ d % 256)) =
      (a ^^^ b) ^^^ (c ^^^ d) := by
  have e : (256 : Nat) = 2 ^ 8 := rfl
  rw [e, ← Nat.xor_mod_two_pow, ← Nat.xor_mod_two_pow, ← Nat.xor_mod_two_pow, ← Nat.xor_div_two_pow, ← Nat.xor_div_two_pow,
    ← Nat.xor_div_two_pow, Nat.div_add_mod']

/-- The nibbles of a 16-bit symbol. -/
theorem product16 {b e : Nat} {F0 F1 F2 F3 : Nat → Nat} (t0 : TabOK P 16 b 0 F0) (t1 : TabOK P 16 b 4 F1)
    (t2 : TabOK P 16 b 8 F2) (t3 : TabOK P 16 b 12 F3) (he : e < 2 ^ 16) :
    toR P ((F0 (e % 256 % 16) ^^^ F1 (e % 256 / 16)) ^^^ (F2 (e / 256 % 16) ^^^ F3 (e / 256 / 16))) =
      xR P ^ b * toR P e := by
  have s1 := toR_split P e 8
  have s2 := toR_split P (e % 2 ^ 8) 4
  have s3 := toR_split P (e / 2 ^ 8) 4
  norm_num only at s1 s2 s3
  rw [toR_xor, toR_xor, toR_xor, (t0 _ (by omega)).2, (t1 _ (by omega)).2, (t2 _ (by omega)).2, (t3 _ (by omega)).2,
    s1, s2, s3, Nat.shiftLeft_zero, toR_shift, toR_shift, toR_shift]
  ring

theorem macSimd16_ok (R : Ready 16 16 P T) (isa : Isa) {c a : List Nat} {off b len : Nat} {init : Bool} (hb : b < 2 ^ 16 - 1)
    (ha : ∀ x ∈ a, x ≤ 2 ^ 16 - 1) (hal : off + len ≤ a.length) (hcl : len ≤ c.length)
    (hc : init = false → ∀ i, i < len → c.getD i 0 ≤ 2 ^ 16 - 1) (hlen : len % isa.width = 0) :
    Ok (macSimd16 16 16 T isa c a off b len init) (MacPost P 16 c a off b len init) := by
  have hW := isa.width_pos
  obtain ⟨n, hn⟩ : ∃ n, isa.width = 2 * n := by cases isa; exacts [⟨8, rfl⟩, ⟨8, rfl⟩, ⟨16, rfl⟩]
  have hn2 : isa.width / 2 = n := by omega
  set W := isa.width with hWd
  unfold macSimd16
  refine Ok.bind' (tables16_ok R hb) ?_
  rintro t ⟨F0, F1, F2, F3, ⟨t0, t1, t2, t3⟩, e0, e1, e2, e3⟩
  dsimp only
  rw [← hWd, hn2]
  obtain ⟨q, hq⟩ : ∃ q, len = q * W := ⟨len / W, by rw [Nat.div_mul_cancel (Nat.dvd_of_mod_eq_zero hlen)]⟩
  have hcnt : (len + W - 1) / W = q := by
    rw [hq, show q * W + W - 1 = (W - 1) + W * q by rw [Nat.mul_comm]; omega, Nat.add_mul_div_left _ _ hW,
      Nat.div_eq_of_lt (by omega), Nat.zero_add]
  rw [hcnt]
  refine Ok.mono (forUp_inv (fun k (c' : List Nat) => MacPost P 16 c a off b (k * W) init c') (Nat.zero_le _)
    ⟨rfl, by omega, by omega, fun _ _ => rfl⟩ ?_) (fun c' h => by rw [hq]; exact h)
  intro k c' _ hk h
  have hkW : k * W + W ≤ len := by
    rw [hq, show k * W + W = (k + 1) * W by ring]; exact Nat.mul_le_mul_right W (by omega)
  have hl' := h.length
  rw [load_ok (k := 16) (show off + k * W + n ≤ a.length by omega), sb,
    load_ok (k := 16) (show off + k * W + n + n ≤ a.length by omega), sb]
  set xl : Reg 16 := fun i => BitVec.ofNat 16 (a.getD (off + k * W + i) 0) with hxl
  set xh : Reg 16 := fun i => BitVec.ofNat 16 (a.getD (off + k * W + n + i) 0) with hxh
  have hxln : ∀ i, (xl i).toNat = a.getD (off + k * W + i) 0 := fun i => by
    have := getD_le ha (off + k * W + i)
    rw [hxl]; dsimp only
    rw [BitVec.toNat_ofNat, Nat.mod_eq_of_lt (by omega)]
  have hxhn : ∀ i, (xh i).toNat = a.getD (off + k * W + n + i) 0 := fun i => by
    have := getD_le ha (off + k * W + n + i)
    rw [hxh]; dsimp only
    rw [BitVec.toNat_ofNat, Nat.mod_eq_of_lt (by omega)]
  set al : Reg 8 := bytes (packLow xh xl) with hal'
  set ah : Reg 8 := bytes (packHigh xh xl) with hah'
  set L : Reg 8 := rxor (rxor (isa.look t.lll (lowNibble al)) (isa.look t.llh (isa.highNibble al)))
    (rxor (isa.look t.lhl (lowNibble ah)) (isa.look t.lhh (isa.highNibble ah))) with hL
  set H : Reg 8 := rxor (rxor (isa.look t.hll (lowNibble al)) (isa.look t.hlh (isa.highNibble al)))
    (rxor (isa.look t.hhl (lowNibble ah)) (isa.look t.hhh (isa.highNibble ah))) with hH
  -- one byte position
  have pos : ∀ p e, p < W → e < 2 ^ 16 → (al p).toNat = e % 256 → (ah p).toNat = e / 256 →
      toR P ((H p).toNat * 256 + (L p).toNat) = xR P ^ b * toR P e := by
    intro p e hp he h1 h2
    have k0 := e0.look isa t0 (lowNibble al) hp (by rw [toNat_low]; omega)
    have k1 := e1.look isa t1 (isa.highNibble al) hp (by rw [toNat_high]; omega)
    have k2 := e2.look isa t2 (lowNibble ah) hp (by rw [toNat_low]; omega)
    have k3 := e3.look isa t3 (isa.highNibble ah) hp (by rw [toNat_high]; omega)
    rw [toNat_low, h1] at k0
    rw [toNat_high, h1] at k1
    rw [toNat_low, h2] at k2
    rw [toNat_high, h2] at k3
    have eH : (H p).toNat = (F0 (e % 256 % 16) / 256 ^^^ F1 (e % 256 / 16) / 256) ^^^
        (F2 (e / 256 % 16) / 256 ^^^ F3 (e / 256 / 16) / 256) := by
      rw [hH]; unfold rxor
      rw [BitVec.toNat_xor, BitVec.toNat_xor, BitVec.toNat_xor, k0.2, k1.2, k2.2, k3.2]
    have eL : (L p).toNat = (F0 (e % 256 % 16) % 256 ^^^ F1 (e % 256 / 16) % 256) ^^^
        (F2 (e / 256 % 16) % 256 ^^^ F3 (e / 256 / 16) % 256) := by
      rw [hL]; unfold rxor
      rw [BitVec.toNat_xor, BitVec.toNat_xor, BitVec.toNat_xor, k0.1, k1.1, k2.1, k3.1]
    rw [eH, eL, xor4_halves, product16 t0 t1 t2 t3 he]
  have lowN : ∀ i, i < n → toR P (packLow (words H) (words L) i).toNat = xR P ^ b * toR P (a.getD (off + k * W + i) 0) := by
    intro i hi
    have l1 := (H (2 * i)).isLt
    have l2 := (L (2 * i)).isLt
    rw [toNat_packLow, toNat_words, toNat_words,
      show ((H (2 * i + 1)).toNat * 256 + (H (2 * i)).toNat) % 256 = (H (2 * i)).toNat by omega,
      show ((L (2 * i + 1)).toNat * 256 + (L (2 * i)).toNat) % 256 = (L (2 * i)).toNat by omega]
    have b1 := (xl i).isLt
    have b2 := (xh i).isLt
    rw [← hxln i]
    refine pos _ _ (by omega) (xl i).isLt ?_ ?_
    · rw [hal', toNat_bytes, if_pos (by omega), toNat_packLow, show 2 * i / 2 = i by omega]; omega
    · rw [hah', toNat_bytes, if_pos (by omega), toNat_packHigh, show 2 * i / 2 = i by omega]; omega
  have highN : ∀ i, i < n → toR P (packHigh (words H) (words L) i).toNat = xR P ^ b * toR P (a.getD (off + k * W + n + i) 0) := by
    intro i hi
    have l1 := (H (2 * i)).isLt
    have l2 := (L (2 * i)).isLt
    rw [toNat_packHigh, toNat_words, toNat_words,
      show ((H (2 * i + 1)).toNat * 256 + (H (2 * i)).toNat) / 256 = (H (2 * i + 1)).toNat by omega,
      show ((L (2 * i + 1)).toNat * 256 + (L (2 * i)).toNat) / 256 = (L (2 * i + 1)).toNat by omega]
    have b1 := (xl i).isLt
    have b2 := (xh i).isLt
    rw [← hxhn i]
    refine pos _ _ (by omega) (xh i).isLt ?_ ?_
    · rw [hal', toNat_bytes, if_neg (by omega), toNat_packLow, show (2 * i + 1) / 2 = i by omega]; omega
    · rw [hah', toNat_bytes, if_neg (by omega), toNat_packHigh, show (2 * i + 1) / 2 = i by omega]; omega
  have fin : ∀ y z : Reg 16, (∀ i, i < n → toR P (y i).toNat = xR P ^ b * toR P (a.getD (off + k * W + i) 0) +
      if init then 0 else toR P (c'.getD (k * W + i) 0)) →
      (∀ i, i < n → toR P (z i).toNat = xR P ^ b * toR P (a.getD (off + k * W + n + i) 0) +
      if init then 0 else toR P (c'.getD (k * W + n + i) 0)) →
      Ok (store c' (k * W) n y >>= fun c => store c (k * W + n) n z) (MacPost P 16 c a off b ((k + 1) * W) init) := by
    intro y z hy hz
    refine Ok.bind' (store_ok y (by omega)) ?_
    rintro m ⟨m1, m2⟩
    refine (store_ok z (by omega)).mono ?_
    rintro m' ⟨m1', m2'⟩
    refine h.step (m1'.trans m1) ?_ ?_
    · intro i hi
      by_cases hin : i < n
      · rw [m2', if_neg (by omega), m2, if_pos (by omega), Nat.add_sub_cancel_left]
        exact ⟨by have := (y i).isLt; omega, hy i hin⟩
      · have := hz (i - n) (by omega)
        rw [show off + k * W + n + (i - n) = off + k * W + i by omega, show k * W + n + (i - n) = k * W + i by omega] at this
        rw [m2', if_pos (by omega), show k * W + i - (k * W + n) = i - n by omega]
        exact ⟨by have := (z (i - n)).isLt; omega, this⟩
    · intro i hi
      rw [m2', if_neg (by omega), m2, if_neg (by omega)]
  unfold acc16
  cases init with
  | true =>
    rw [if_pos rfl, if_pos rfl, sb, sb]
    refine fin _ _ (fun i hi => ?_) fun i hi => ?_
    · rw [lowN i hi, if_pos rfl, add_zero]
    · rw [highN i hi, if_pos rfl, add_zero]
  | false =>
    rw [if_neg (by simp), if_neg (by simp), hn2, load_ok (k := 16) (show k * W + n ≤ c'.length by omega),
      load_ok (k := 16) (show k * W + n + n ≤ c'.length by omega)]
    have hci : ∀ i, i < W → c'.getD (k * W + i) 0 ≤ 2 ^ 16 - 1 := fun i hi => by
      rw [h.rest _ (by omega)]; exact hc rfl _ (by omega)
    refine fin _ _ (fun i hi => ?_) fun i hi => ?_
    · show toR P (packLow (words H) (words L) i ^^^ BitVec.ofNat 16 (c'.getD (k * W + i) 0)).toNat = _
      have := hci i (by omega)
      rw [BitVec.toNat_xor, toR_xor, lowN i hi, BitVec.toNat_ofNat, Nat.mod_eq_of_lt (by omega)]
      simp
    · show toR P (packHigh (words H) (words L) i ^^^ BitVec.ofNat 16 (c'.getD (k * W + n + i) 0)).toNat = _
      have := hci (n + i) (by omega)
      rw [← Nat.add_assoc] at this
      rw [BitVec.toNat_xor, toR_xor, highN i hi, BitVec.toNat_ofNat, Nat.mod_eq_of_lt (by omega)]
      simp

end Verif.Cauchy
