import Verif.BCH.Lfsr
/- One step of the packed encoder. -/
namespace Verif.BCH
open Polynomial Finset Verif.GF2 Verif.Bits

theorem slb_bit (a b : BitVec 8) {r : Nat} (h : r < 8) :
    ((a <<< 1) ||| (b >>> 7)).getLsbD (7 - r) = if r = 7 then b.getLsbD 7 else a.getLsbD (7 - (r + 1)) := by
  obtain rfl | rfl | rfl | rfl | rfl | rfl | rfl | rfl : r = 0 ∨ r = 1 ∨ r = 2 ∨ r = 3 ∨ r = 4 ∨ r = 5 ∨ r = 6 ∨ r = 7 := by omega
  all_goals simp [BitVec.getLsbD_shiftLeft, BitVec.getLsbD_ushiftRight]

theorem shl_bit (a : BitVec 8) {r : Nat} (h : r < 8) :
    (a <<< 1).getLsbD (7 - r) = if r = 7 then false else a.getLsbD (7 - (r + 1)) := by
  obtain rfl | rfl | rfl | rfl | rfl | rfl | rfl | rfl : r = 0 ∨ r = 1 ∨ r = 2 ∨ r = 3 ∨ r = 4 ∨ r = 5 ∨ r = 6 ∨ r = 7 := by omega
  all_goals simp [BitVec.getLsbD_shiftLeft]

/-- The bytes after a step. -/
def stepByte (L : Nat) (f : Bool) (gen p : List (BitVec 8)) (l : Nat) : BitVec 8 :=
  (if f then gen.getD l 0 else 0) ^^^ (if l < L then (p.getD l 0 <<< 1) ||| (p.getD (l + 1) 0 >>> 7) else p.getD l 0 <<< 1)

theorem encStep_bytes {NP : Nat} {gen data p : List (BitVec 8)} {i : Nat} (hg : (NP - 1) / 8 < gen.length)
    (hp : (NP - 1) / 8 < p.length) (hd : i < 8 * data.length) :
    Ok (encStep NP gen data i p) (fun p' => p'.length = p.length ∧
      ∀ l, p'.getD l 0 = if l ≤ (NP - 1) / 8 then stepByte ((NP - 1) / 8) (beBit data i ^^ beBit p 0) gen p l
        else p.getD l 0) := by
  unfold encStep
  set L := (NP - 1) / 8 with hL
  rw [getBe_bit hd]
  refine Ok.bind' (P := fun r => beBit data i = r) (Ok.some rfl) ?_
  rintro r rfl
  rw [getBe_bit (by omega)]
  refine Ok.bind' (P := fun r => beBit p 0 = r) (Ok.some rfl) ?_
  rintro r rfl
  have hslb : ∀ (q : List (BitVec 8)) l, l + 1 < q.length →
      slb1 q l = some ((q.getD l 0 <<< 1) ||| (q.getD (l + 1) 0 >>> 7)) := by
    intro q l hl
    unfold slb1
    rw [rd_of_lt (by omega), rd_of_lt hl, getElem_eq_getD (by omega) 0, getElem_eq_getD hl 0]
    rfl
  have hmain : ∀ (f : Bool), Ok (forUp 0 L p fun l parity => do
        let s ← slb1 parity l
        wr parity l ((if f then gen.getD l 0 else 0) ^^^ s)) (fun q => q.length = p.length ∧
      ∀ l, q.getD l 0 = if l < L then stepByte L f gen p l else p.getD l 0) := by
    intro f
    refine forUp_inv (fun k (q : List (BitVec 8)) => q.length = p.length ∧
      ∀ l, q.getD l 0 = if l < k then stepByte L f gen p l else p.getD l 0) (Nat.zero_le _)
      ⟨rfl, fun l => by rw [if_neg (by omega)]⟩ ?_
    rintro k q _ hk ⟨hl, hq⟩
    rw [hslb q k (by omega)]
    refine Ok.bind' (P := fun r => ((q.getD k 0 <<< 1) ||| (q.getD (k + 1) 0 >>> 7)) = r) (Ok.some rfl) ?_
    rintro r rfl
    refine Ok.wr (by omega) ⟨by rw [List.length_set, hl], fun l => ?_⟩
    rw [getD_set_lt (by omega)]
    by_cases h : l = k
    · rw [if_pos h, h, if_pos (Nat.lt_succ_self k), hq k, if_neg (Nat.lt_irrefl k), hq (k + 1), if_neg (show ¬ k + 1 < k by omega)]
      unfold stepByte
      rw [if_pos hk]
    · rw [if_neg h, hq l]
      by_cases h2 : l < k
      · rw [if_pos h2, if_pos (by omega)]
      · rw [if_neg h2, if_neg (by omega)]
  by_cases hf : beBit data i = beBit p 0
  · rw [if_neg (by simpa using hf)]
    have hff : (beBit data i ^^ beBit p 0) = false := by rw [hf]; simp
    rw [hff]
    have h1 := hmain false
    simp only [Bool.false_eq_true, if_false, show ∀ x : BitVec 8, 0 ^^^ x = x from fun x => BitVec.zero_xor] at h1
    refine Ok.bind' h1 ?_
    rintro q ⟨hl, hq⟩
    refine Ok.bind' (Ok.rdD (P := fun x => q.getD L 0 = x) 0 (by omega) rfl) ?_
    rintro r rfl
    refine Ok.wr (by omega) ⟨by rw [List.length_set, hl], fun l => ?_⟩
    rw [getD_set_lt (by omega)]
    by_cases h : l = L
    · rw [if_pos h, h, if_pos le_rfl, hq L, if_neg (by omega)]
      unfold stepByte
      rw [if_neg (Nat.lt_irrefl L)]
      simp
    · rw [if_neg h, hq l]
      by_cases h2 : l < L
      · rw [if_pos h2, if_pos (by omega)]
      · rw [if_neg h2, if_neg (by omega)]
  · rw [if_pos hf]
    have hff : (beBit data i ^^ beBit p 0) = true := by
      revert hf; cases beBit data i <;> cases beBit p 0 <;> simp
    rw [hff]
    have h1 := hmain true
    simp only [if_true] at h1
    have h2 : (forUp 0 L p fun l parity => do
        let g ← rd gen l
        let s ← slb1 parity l
        wr parity l (g ^^^ s)) = forUp 0 L p (fun l parity => do
        let s ← slb1 parity l
        wr parity l (gen.getD l 0 ^^^ s)) := by
      refine forUp_congr fun l q _ hl => ?_
      rw [rd_of_lt (by omega), getElem_eq_getD (by omega) 0]
      rfl
    rw [h2]
    refine Ok.bind' h1 ?_
    rintro q ⟨hl, hq⟩
    refine Ok.bind' (Ok.rdD (P := fun x => gen.getD L 0 = x) 0 (by omega) rfl) ?_
    rintro r rfl
    refine Ok.bind' (Ok.rdD (P := fun x => q.getD L 0 = x) 0 (by omega) rfl) ?_
    rintro r rfl
    refine Ok.wr (by omega) ⟨by rw [List.length_set, hl], fun l => ?_⟩
    rw [getD_set_lt (by omega)]
    by_cases h : l = L
    · rw [if_pos h, h, if_pos le_rfl, hq L, if_neg (by omega)]
      unfold stepByte
      rw [if_neg (Nat.lt_irrefl L), if_pos rfl]
    · rw [if_neg h, hq l]
      by_cases h2 : l < L
      · rw [if_pos h2, if_pos (by omega)]
      · rw [if_neg h2, if_neg (by omega)]

theorem stepByte_bit {L : Nat} {f : Bool} {gen p p' : List (BitVec 8)} (h : ∀ l, l ≤ L → p'.getD l 0 = stepByte L f gen p l)
    {i : Nat} (hi : i < 8 * (L + 1)) :
    beBit p' i = ((f && beBit gen i) ^^ (if i + 1 < 8 * (L + 1) then beBit p (i + 1) else false)) := by
  unfold beBit
  rw [h _ (by omega), stepByte, BitVec.getLsbD_xor]
  congr 1
  · cases f <;> simp
  · have hr : i % 8 < 8 := Nat.mod_lt _ (by norm_num)
    by_cases hl : i / 8 < L
    · rw [if_pos hl, slb_bit _ _ hr, if_pos (show i + 1 < 8 * (L + 1) by omega)]
      by_cases h7 : i % 8 = 7
      · rw [if_pos h7, show (i + 1) / 8 = i / 8 + 1 by omega, show (i + 1) % 8 = 0 by omega]
      · rw [if_neg h7, show (i + 1) / 8 = i / 8 by omega, show (i + 1) % 8 = i % 8 + 1 by omega]
    · rw [if_neg hl, shl_bit _ hr]
      by_cases h7 : i % 8 = 7
      · rw [if_pos h7, if_neg (by omega)]
      · rw [if_neg h7, if_pos (by omega), show (i + 1) / 8 = i / 8 by omega, show (i + 1) % 8 = i % 8 + 1 by omega]

/-- The packed encoder. -/
theorem encode_ok {NP K : Nat} (hNP : 0 < NP) {g : (ZMod 2)[X]} (hg : g.coeff NP = 1) (hgd : g.natDegree = NP)
    {gen data parity : List (BitVec 8)} {dl : Nat} (hdl : 0 < dl ∧ dl ≤ K) (hgl : (NP - 1) / 8 < gen.length)
    (hgen : ∀ i, i < NP → b2 (beBit gen i) = g.coeff (NP - 1 - i)) (hgz : ∀ i, NP ≤ i → beBit gen i = false)
    (hd : dl ≤ 8 * data.length) (hp : (NP - 1) / 8 < parity.length) :
    Ok (encode NP K gen data parity dl) (fun p => p.length = parity.length ∧
      g ∣ bitPoly (bitsOf (beBit data) dl ++ bitsOf (beBit p) NP) ∧
      (∀ i, NP ≤ i → i < 8 * ((NP - 1) / 8 + 1) → beBit p i = false) ∧
      ∀ l, (NP - 1) / 8 < l → p.getD l 0 = parity.getD l 0) := by
  unfold encode
  refine Ok.bind' (P := fun _ => True) (Ok.assertUB hdl trivial) fun _ _ => ?_
  set L := (NP - 1) / 8 with hL
  refine Ok.bind' (forUp_inv (fun k (q : List (BitVec 8)) => q.length = parity.length ∧
      ∀ l, q.getD l 0 = if l < k then 0 else parity.getD l 0) (Nat.zero_le _)
      ⟨rfl, fun l => by rw [if_neg (by omega)]⟩ ?_) ?_
  · rintro k q _ hk ⟨hl, hq⟩
    refine Ok.wr (by omega) ⟨by rw [List.length_set, hl], fun l => ?_⟩
    rw [getD_set_lt (by omega)]
    by_cases h : l = k
    · rw [if_pos h, if_pos (by omega)]; rfl
    · rw [if_neg h, hq l]
      by_cases h2 : l < k
      · rw [if_pos h2, if_pos (by omega)]
      · rw [if_neg h2, if_neg (by omega)]
  rintro q ⟨hlq, hq⟩
  have hz : ∀ i, i < 8 * (L + 1) → beBit q i = false := by
    intro i hi
    unfold beBit
    rw [hq, if_pos (by omega)]
    simp
  refine Ok.mono (forUp_inv (fun k (p : List (BitVec 8)) => p.length = parity.length ∧
      g ∣ bitPoly (bitsOf (beBit data) k ++ bitsOf (beBit p) NP) ∧
      (∀ i, NP ≤ i → i < 8 * (L + 1) → beBit p i = false) ∧
      ∀ l, L < l → p.getD l 0 = parity.getD l 0) (Nat.zero_le _) ⟨hlq, ?_, fun i _ h => hz i h, ?_⟩ ?_) (fun p h => h)
  · have : bitPoly (bitsOf (beBit q) NP) = 0 := by
      ext k
      rw [coeff_bitPoly, coeff_zero]
      split
      · rw [hz _ (by omega)]; rfl
      · rfl
    rw [show bitsOf (beBit data) 0 = [] from rfl, List.nil_append, this]
    exact dvd_zero _
  · intro l hl
    rw [hq, if_neg (by omega)]
  · rintro k p _ hk ⟨hlp, hdv, hpz, hout⟩
    refine (encStep_bytes (NP := NP) hgl (by omega) (by omega)).mono ?_
    rintro p' ⟨hl', hb'⟩
    have hbit := fun i hi => stepByte_bit (L := L) (fun l hl => by rw [hb' l, if_pos hl]) (i := i) hi
    refine ⟨by omega, ?_, ?_, ?_⟩
    · refine lfsr_inv hNP hg hgd hgen ?_ hdv
      intro i hi
      rw [hbit i (by omega)]
      congr 1
      by_cases h : i + 1 < NP
      · rw [if_pos h, if_pos (by omega)]
      · rw [if_neg h]
        split
        · exact hpz _ (by omega) (by omega)
        · rfl
    · intro i h1 h2
      rw [hbit i h2, hgz i h1]
      split
      · rw [hpz (i + 1) (by omega) (by omega)]; simp
      · simp
    · intro l hl
      rw [hb' l, if_neg (by omega), hout l hl]

end Verif.BCH
