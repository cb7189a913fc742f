import Verif.Crc.ProofDist
/- C78: the Hamming distances tests/crc_test.cc states for its polynomials. -/
namespace Verif.Crc
open Polynomial
open Verif.GF2

variable {w : Nat}

/-! ### Specification -/

/-- Two objects built with the polynomial `poly` and the same start value, fed different strings of at most `n` bits of the same length by calls in any grouping into bits,
bytes and words, end in different registers unless the strings differ in at least `d` positions. -/
def CrcDistance (poly : BitVec w) (d n : Nat) : Prop :=
  ∀ (init : BitVec w) (x y : List (Op w)), (∀ o ∈ x, o.noReset = true) → (∀ o ∈ y, o.noReset = true) →
    ∀ a b, a = x.flatMap Op.bits → b = y.flatMap Op.bits → a.length = b.length → a ≠ b → a.length ≤ n →
    ∀ c cx cy ox oy, CRC.new poly init = some c → c.run x = some (cx, ox) → c.run y = some (cy, oy) → cx.value = cy.value →
      d ≤ (diffs a b).card

/-! ### Proof -/

theorem run_value (hw : 8 ≤ w) (poly init : BitVec w) (x : List (Op w)) (hx : ∀ o ∈ x, o.noReset = true) {c cx : CRC w} {ox} (hc : CRC.new poly init = some c) (hr : c.run x = some (cx, ox)) :
    cx.value = specBits poly init (x.flatMap Op.bits) := by
  rw [new_eq] at hc; cases hc
  rw [run_eq poly hw] at hr; cases hr
  rw [← specRun_noReset _ _ _ hx]
  rfl

theorem crcDistance_of (hw : 8 ≤ w) (poly : BitVec w) (d n : Nat)
    (h : ∀ (init : BitVec w) (a b : List Bool), a.length = b.length → a ≠ b → a.length ≤ n → specBits poly init a = specBits poly init b → d ≤ (diffs a b).card) : CrcDistance poly d n := by
  intro init x y hx hy a b ha hb hlen hne hl c cx cy ox oy hc hcx hcy hv
  rw [run_value hw poly init x hx hc hcx, run_value hw poly init y hy hc hcy, ← ha, ← hb] at hv
  exact h init a b hlen hne hl hv

theorem flatMap_bit (l : List Bool) : (l.map (Op.bit (w := w))).flatMap Op.bits = l := by
  induction l with
  | nil => rfl
  | cons b l ih => rw [List.map_cons, List.flatMap_cons, ih]; rfl

theorem CrcDistance.spec (hw : 8 ≤ w) {poly : BitVec w} {d n : Nat} (h : CrcDistance poly d n) (init : BitVec w) (a b : List Bool) (hlen : a.length = b.length) (hne : a ≠ b)
    (hl : a.length ≤ n) (he : specBits poly init a = specBits poly init b) : d ≤ (diffs a b).card := by
  have hnr : ∀ l : List Bool, ∀ o ∈ l.map (Op.bit (w := w)), o.noReset = true := by
    intro l o ho
    obtain ⟨b, _, rfl⟩ := List.mem_map.1 ho
    rfl
  obtain ⟨c, hc, c', o, hr, hv, -⟩ := C01_crc_calls_are_bit_serial hw poly init (a.map Op.bit)
  obtain ⟨c2, hc2, c2', o2, hr2, hv2, -⟩ := C01_crc_calls_are_bit_serial hw poly init (b.map Op.bit)
  have : c2 = c := by rw [hc] at hc2; exact (Option.some.inj hc2).symm
  subst this
  refine h init _ _ (hnr a) (hnr b) a b (flatMap_bit a).symm (flatMap_bit b).symm hlen hne hl c2 c' c2' o o2 hc hr hr2 ?_
  rw [run_value hw poly init _ (hnr a) hc hr, run_value hw poly init _ (hnr b) hc hr2, flatMap_bit, flatMap_bit, he]

/-- **C78**: the polynomials of the test. The lengths count payload and checksum: 32736 + 32, 65505 + 32, 67 + 16 and 119 + 8 bits. -/
theorem C78_distance :
    CrcDistance 0xC8DF352F#32 6 (32736 + 32) ∧ CrcDistance 0xD419CC15#32 5 (65505 + 32) ∧ CrcDistance 0xA8F4#16 5 (67 + 16) ∧ CrcDistance 0x8C#8 4 (119 + 8) :=
  ⟨crcDistance_of (by norm_num) _ _ _ fun init a b hlen hne hl h => dist_C8DF352F init a b hlen hne hl h,
   crcDistance_of (by norm_num) _ _ _ fun init a b hlen hne hl h => dist_D419CC15 init a b hlen hne hl h,
   crcDistance_of (by norm_num) _ _ _ fun init a b hlen hne hl h => dist_A8F4 init a b hlen hne hl h,
   crcDistance_of (by norm_num) _ _ _ fun init a b hlen hne hl h => dist_8C init a b hlen hne hl h⟩

/-- **C78**, as the test uses the class: a payload `x` is sent with the register `v` after it; the receiver feeds what it got, `y` and then the word `v'`, to an object built
alike. If the register is zero then, but something else was received than was sent, at least `d` bits are wrong. -/
theorem C78_codewords (poly : BitVec w) (hp : poly.msb = true) (d k : Nat) (h : CrcDistance poly d (k + w)) (init : BitVec w) (x y : List (Op w))
    (hx : ∀ o ∈ x, o.noReset = true) (hy : ∀ o ∈ y, o.noReset = true) (hlen : (x.flatMap Op.bits).length = (y.flatMap Op.bits).length) (hk : (x.flatMap Op.bits).length ≤ k)
    (c cx cy cz : CRC w) (ox oy r) (hc : CRC.new poly init = some c) (hcx : c.run x = some (cx, ox)) (hcy : c.run y = some (cy, oy))
    (v v' : BitVec w) (hv : v = cx.value) (o : Op w) (ho : feedSelf v' = some o) (hz : cy.call o = some (cz, r)) (hzero : cz.value = 0#w)
    (hne : x.flatMap Op.bits ++ bitsLE v ≠ y.flatMap Op.bits ++ bitsLE v') :
    d ≤ (diffs (x.flatMap Op.bits ++ bitsLE v) (y.flatMap Op.bits ++ bitsLE v')).card := by
  have hw : 8 ≤ w := by
    unfold feedSelf at ho
    split at ho
    · omega
    · split at ho
      · omega
      · split at ho
        · omega
        · split at ho
          · omega
          · simp at ho
  obtain ⟨c'', r', h1, h2, h3, h4⟩ := C03_crc_object_residue poly init v' y o ho c cy oy hc hcy
  rw [hz] at h1
  cases h1
  have hv' : v' = cy.value := h4 hp (by rw [← h2]; exact hzero)
  rw [run_value hw poly init x hx hc hcx] at hv
  rw [run_value hw poly init y hy hc hcy] at hv'
  refine h.spec hw init _ _ (by simp [hlen, length_bitsLE]) hne (by rw [List.length_append, length_bitsLE]; omega) ?_
  rw [specBits_append, specBits_append, hv, hv', (C03_crc_residue poly _ 0#w).1, (C03_crc_residue poly _ 0#w).1]

/-! ### The lengths cannot be longer -/

/-- The string of `n` bits with ones at the given distances from its end. -/
def ones (n : Nat) (E : List Nat) : List Bool := (List.range n).map fun i => E.contains (n - 1 - i)

theorem exps_ones (n : Nat) (E : List Nat) (hE : ∀ k ∈ E, k < n) : exps (List.replicate n false) (ones n E) = E.toFinset := by
  ext k
  unfold exps diffs ones
  simp only [Finset.mem_image, Finset.mem_filter, Finset.mem_range, List.length_replicate, List.mem_toFinset]
  constructor
  · rintro ⟨i, ⟨hi, hd⟩, rfl⟩
    rw [List.getD_eq_getElem _ _ (by simpa using hi), List.getD_eq_getElem _ _ (by simpa using hi)] at hd
    simpa using hd
  · intro hk
    have := hE k hk
    refine ⟨n - 1 - k, ⟨by omega, ?_⟩, by omega⟩
    rw [List.getD_eq_getElem _ _ (by simp; omega), List.getD_eq_getElem _ _ (by simp; omega)]
    simp [show n - 1 - (n - 1 - k) = k by omega, hk]

open Verif.GF in
theorem not_crcDistance (hw : 8 ≤ w) (poly : BitVec w) (hp : poly.msb = true) (P f n : Nat) (hd : HasDeg w P) (hg : genPoly poly = natPoly P) (E : List Nat) (hE : ∀ k ∈ E, k < n) (hnd : E.Nodup)
    (hf : ∀ k ∈ E, 1 * k < 2 ^ f) (h0 : E ≠ []) (hs : syndrome P w f E = 0) : ¬ CrcDistance poly (E.length + 1) n := by
  intro h
  have hlen : (List.replicate n false).length = (ones n E).length := by simp [ones]
  have hcard : (diffs (List.replicate n false) (ones n E)).card = E.length := by
    rw [← card_exps, exps_ones n E hE, List.toFinset_card_of_nodup hnd]
  have := h.spec hw 0#w (List.replicate n false) (ones n E) hlen
    (by
      intro e
      have hc := hcard
      rw [← e, show diffs (List.replicate n false) (List.replicate n false) = ∅ by simp [diffs], Finset.card_empty] at hc
      exact h0 (List.length_eq_zero_iff.1 hc.symm))
    (by simp)
    (by
      rw [C64_undetected_iff (by omega) poly _ hp _ _ hlen, msgPoly_diff _ _ hlen, msgPoly_zip _ _ hlen, ← AdjoinRoot.mk_eq_zero, map_sum]
      have e : ∀ i ∈ diffs (List.replicate n false) (ones n E), AdjoinRoot.mk (genPoly poly) (X ^ ((List.replicate n false).length - 1 - i)) =
          AdjoinRoot.root (genPoly poly) ^ ((List.replicate n false).length - 1 - i) := fun i _ => by rw [map_pow, AdjoinRoot.mk_X]
      rw [Finset.sum_congr rfl e, ← Finset.sum_image (exps_inj _ _) (f := fun k => AdjoinRoot.root (genPoly poly) ^ k)]
      change ∑ k ∈ exps _ _, _ = _
      rw [exps_ones n E hE, List.sum_toFinset _ hnd, hg]
      have := sum_powers (by omega) hd f 1 E hf
      rw [pow_one] at this
      rw [this]
      exact (congrArg _ hs).trans (toR_zero _))
  omega

/-- **C78**, the lengths are the longest: with one more bit, four (two, four, two) wrong bits can go unnoticed. -/
theorem C78_sharp :
    ¬ CrcDistance 0xC8DF352F#32 5 (32736 + 32 + 1) ∧ ¬ CrcDistance 0xD419CC15#32 3 (65505 + 32 + 1) ∧ ¬ CrcDistance 0xA8F4#16 5 (67 + 16 + 1) ∧ ¬ CrcDistance 0x8C#8 3 (119 + 8 + 1) := by
  refine ⟨?_, ?_, ?_, ?_⟩
  · exact not_crcDistance (by norm_num) _ (by decide) 0x1f4acfb13 16 _ (by unfold GF.HasDeg; norm_num)
      (genPoly_natPoly _ _ (by decide +kernel) (by norm_num) (by decide +kernel)) [0, 1, 32767, 32768] (by decide) (by decide) (by decide) (by decide) (by decide +kernel)
  · exact not_crcDistance (by norm_num) _ (by decide) 0x1a833982b 17 _ (by unfold GF.HasDeg; norm_num)
      (genPoly_natPoly _ _ (by decide +kernel) (by norm_num) (by decide +kernel)) [0, 65537] (by decide) (by decide) (by decide) (by decide) (by decide +kernel)
  · exact not_crcDistance (by norm_num) _ (by decide) 0x12f15 7 _ (by unfold GF.HasDeg; norm_num)
      (genPoly_natPoly _ _ (by decide +kernel) (by norm_num) (by decide +kernel)) [0, 7, 45, 83] (by decide) (by decide) (by decide) (by decide) (by decide +kernel)
  · exact not_crcDistance (by norm_num) _ (by decide) 0x131 7 _ (by unfold GF.HasDeg; norm_num)
      (genPoly_natPoly _ _ (by decide +kernel) (by norm_num) (by decide +kernel)) [0, 127] (by decide) (by decide) (by decide) (by decide) (by decide +kernel)

/-! ### Cases -/

/-- The assertions of tests/crc_test.cc, run. -/
def helloWorld : List (BitVec 8) := [0x48, 0x65, 0x6C, 0x6C, 0x6F, 0x20, 0x57, 0x6F, 0x72, 0x6C, 0x64, 0x21]

/-- The value after the text and then the given call. -/
def afterHello (poly init : BitVec w) (o : List (Op w)) : Option (BitVec w) := do
  let c ← CRC.new poly init
  let (c, _) ← c.run (helloWorld.map Op.byte ++ o)
  return c.value

example : (afterHello 0xEDB88320#32 0xFFFFFFFF#32 []).map (~~~ ·) = some 0x1C291CA3#32 := by decide +kernel
example : afterHello 0xC8DF352F#32 0#32 [.word32 0xAB94FCAB#32] = some 0#32 ∧ afterHello 0xD419CC15#32 0#32 [.word32 0xECFE423E#32] = some 0#32 ∧
    afterHello 0xA8F4#16 0#16 [.word16 0x8FEF#16] = some 0#16 ∧ afterHello 0x8C#8 0#8 [.byte 0x9E#8] = some 0#8 := by decide +kernel
/-- The header of the test: 32 bits, the lowest first, from the start value 0x9B38. -/
example : afterHello 0xA8F4#16 0#16 (.word16 0x8FEF#16 :: .reset 0x9B38#16 :: (bitsLE 0b00000010001001110111110100100100#32).map .bit) = some 0x915D#16 := by decide +kernel

/-- The hypotheses of `C78_codewords` are met with something wrong: 0x131, the polynomial itself, is a codeword of weight 4. -/
example :
    let x : List (Op 8) := [.byte 0#8, .bit false]
    let y : List (Op 8) := [.bit true, .byte 0x8C#8]
    x.flatMap Op.bits ++ bitsLE 0#8 ≠ y.flatMap Op.bits ++ bitsLE 0#8 ∧ (do let c ← CRC.new 0x8C#8 0#8; let (c, _) ← c.run x; return c.value) = some 0#8 ∧
    (do let c ← CRC.new 0x8C#8 0#8; let (c, _) ← c.run y; let (c, _) ← c.call (.byte 0#8); return c.value) = some 0#8 ∧
    (diffs (x.flatMap Op.bits ++ bitsLE 0#8) (y.flatMap Op.bits ++ bitsLE 0#8)).card = 4 := by decide +kernel

end Verif.Crc
