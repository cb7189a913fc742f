import Verif.BCH.GenPoly
import Verif.Bits.PropsBitman
/- The packed encoder. -/
namespace Verif.BCH
open Polynomial Finset Verif.GF2 Verif.Bits

theorem getBe_bit {buf : List (BitVec 8)} {i : Nat} (h : i < 8 * buf.length) : getBe buf i = some (beBit buf i) := by
  obtain ⟨x, hx, h2⟩ := C08_get_be buf i h
  rw [h2, beBit, List.getD_eq_getElem?_getD, hx]; rfl

theorem setBe_bit {buf : List (BitVec 8)} {i : Nat} (v : Bool) (h : i < 8 * buf.length) :
    ∃ b', setBe buf i v = some b' ∧ b'.length = buf.length ∧
      ∀ q, q < 8 * buf.length → beBit b' q = if q = i then v else beBit buf q := by
  obtain ⟨b', h1, h2, h3⟩ := C08_set_be buf i v h
  refine ⟨b', h1, h2, fun q hq => ?_⟩
  have := h3 q hq
  rw [getBe_bit (by omega), getBe_bit hq] at this
  split at this
  · rename_i hqi
    rw [if_pos hqi]
    simpa using this
  · rename_i hqi
    rw [if_neg hqi]
    simpa using this

theorem xorBe_bit {buf : List (BitVec 8)} {i : Nat} (v : Bool) (h : i < 8 * buf.length) :
    ∃ b', xorBe buf i v = some b' ∧ b'.length = buf.length ∧
      ∀ q, q < 8 * buf.length → beBit b' q = if q = i then (beBit buf i ^^ v) else beBit buf q := by
  obtain ⟨b', h1, h2, h3⟩ := C08_xor_be buf i v h
  refine ⟨b', h1, h2, fun q hq => ?_⟩
  have := h3 q hq
  rw [getBe_bit (by omega), getBe_bit hq, getBe_bit h] at this
  split at this
  · rename_i hqi
    rw [if_pos hqi, Bool.xor_comm]
    simpa using this
  · rename_i hqi
    rw [if_neg hqi]
    simpa using this

/-- The packed generator: the right number of bytes, and the bits after `NP` are zero. -/
def PValid (NP : Nat) (g : List (BitVec 8)) : Prop :=
  g.length = (NP + 1 + 7) / 8 ∧ ∀ q, NP < q → q < 8 * g.length → beBit g q = false

theorem packed_lawful (NP : Nat) : Lawful (packedStore NP) NP (PValid NP) (fun g i => beBit g (NP - i)) := by
  have hcast : ∀ i, i ≤ NP → ((NP : Int) - (i : Int)) = ((NP - i : Nat) : Int) := fun i hi => by omega
  constructor
  · intro g i hv hi
    show getBe g _ = _
    rw [hcast i hi, getBe_bit (by have := hv.1; omega)]
  · intro g i v hv hi
    show ∃ s', setBe g _ v = some s' ∧ _
    have hl := hv.1
    obtain ⟨b', h1, h2, h3⟩ := setBe_bit (buf := g) (i := NP - i) v (by omega)
    rw [hcast i hi]
    refine ⟨b', h1, ⟨by omega, ?_⟩, ?_⟩
    · intro q hq1 hq2
      rw [h3 q (by omega), if_neg (by omega)]
      exact hv.2 q hq1 (by omega)
    · intro k hk
      rw [h3 _ (by omega)]
      by_cases h : k = i
      · rw [if_pos h, if_pos (by omega)]
      · rw [if_neg h, if_neg (by omega)]
  · intro g i v hv hi
    show ∃ s', xorBe g _ v = some s' ∧ _
    have hl := hv.1
    obtain ⟨b', h1, h2, h3⟩ := xorBe_bit (buf := g) (i := NP - i) v (by omega)
    rw [hcast i hi]
    refine ⟨b', h1, ⟨by omega, ?_⟩, ?_⟩
    · intro q hq1 hq2
      rw [h3 q (by omega), if_neg (by omega)]
      exact hv.2 q hq1 (by omega)
    · intro k hk
      rw [h3 _ (by omega)]
      by_cases h : k = i
      · rw [if_pos h, if_pos (by omega)]
      · rw [if_neg h, if_neg (by omega)]

theorem packed_top (NP : Nat) (g : List (BitVec 8)) (hv : PValid NP g) : (packedStore NP).get g (NP + 1) = some false := by
  show getBe g _ = _
  have : ((NP : Int) - ((NP + 1 : Nat) : Int)) = -1 := by omega
  rw [this]
  refine (C08_small_negative g (-1) false ?_ (by omega) (by omega)).1
  intro h
  have := hv.1
  rw [h] at this
  simp at this
  omega

theorem degPacked_ok {m : Nat} (h0 : 0 < m) (h31 : m < 2 ^ 31) : degPacked m = some (Nat.log2 m) := by
  have hlog : Nat.log2 m < 31 := (Nat.log2_lt (by omega)).2 h31
  unfold degPacked
  have key : ∀ k d, d ≤ Nat.log2 m + 1 → Nat.log2 m + 1 < d + k →
      whileF k (fun d => m >>> d != 0) (fun d => some (d + 1)) d = some (Nat.log2 m + 1) := by
    intro k
    induction k with
    | zero => intro d h1 h2; omega
    | succ k ih =>
      intro d h1 h2
      unfold whileF
      by_cases hd : d = Nat.log2 m + 1
      · have : m >>> d = 0 := by
          rw [Nat.shiftRight_eq_div_pow, hd]
          exact Nat.div_eq_of_lt Nat.lt_log2_self
        simp only [this, bne_self_eq_false, Bool.false_eq_true, if_false]
        rw [hd]
      · have : m >>> d ≠ 0 := by
          rw [Nat.shiftRight_eq_div_pow]
          have h3 : 2 ^ d ≤ m := le_trans (Nat.pow_le_pow_right (by norm_num) (by omega)) (Nat.log2_self_le (by omega))
          exact Nat.ne_of_gt (Nat.div_pos h3 (by positivity))
        simp only [bne_iff_ne, ne_eq, this, not_false_eq_true, if_true, Option.bind_some]
        exact ih (d + 1) (by omega) (by omega)
  rw [key 32 0 (by omega) (by omega)]
  rfl

theorem natPoly_log {m : Nat} (h : 0 < m) : (natPoly m).natDegree = Nat.log2 m :=
  natDegree_natPoly (Nat.log2_self_le (by omega)) (Nat.lt_log2_self)

theorem natDegree_mul_natPoly {p : (ZMod 2)[X]} {m : Nat} (h : 0 < m) (hp : p ≠ 0) :
    (p * natPoly m).natDegree = p.natDegree + Nat.log2 m ∧ p * natPoly m ≠ 0 := by
  have hm : natPoly m ≠ 0 := fun h0 => by have := natPoly_eq_zero.1 h0; omega
  exact ⟨by rw [natDegree_mul hp hm, natPoly_log h], mul_ne_zero hp hm⟩

theorem poly_coef_zero {c : Nat → Bool} {n d k : Nat} (hd : (poly c n).natDegree < d) (hk : d ≤ k) (hkn : k < n) :
    c k = false := by
  have := coeff_eq_zero_of_natDegree_lt (p := poly c n) (n := k) (by omega)
  rw [coeff_poly, if_pos hkn] at this
  cases h : c k
  · rfl
  · rw [h] at this; exact absurd this (by decide)

theorem mulAllPacked_ok {NP : Nat} (polys : List Nat) : ∀ (g : List (BitVec 8)) (gd : Nat),
    (∀ m ∈ polys, 0 < m ∧ m < 2 ^ 31) → PValid NP g → 
    (poly (fun i => beBit g (NP - i)) (NP + 1)) ≠ 0 → (poly (fun i => beBit g (NP - i)) (NP + 1)).natDegree + 1 = gd →
    gd + (polys.map Nat.log2).sum ≤ NP + 1 →
    Ok (mulAllPacked NP polys (g, gd)) (fun r => PValid NP r.1 ∧ r.2 = gd + (polys.map Nat.log2).sum ∧
      poly (fun i => beBit r.1 (NP - i)) (NP + 1) = poly (fun i => beBit g (NP - i)) (NP + 1) * genPoly polys) := by
  induction polys with
  | nil =>
    intro g gd _ hv _ _ _
    exact Ok.some ⟨hv, by simp, by simp [genPoly]⟩
  | cons m ms ih =>
    intro g gd hm hv h0 hdeg hle
    obtain ⟨hm0, hm31⟩ := hm m (by simp)
    rw [List.map_cons, List.sum_cons] at hle
    unfold mulAllPacked
    refine Ok.bind' (P := fun _ => True) (Ok.assertUB hm0 trivial) fun _ _ => ?_
    rw [degPacked_ok hm0 hm31]
    refine Ok.bind' (P := fun d => d = Nat.log2 m) (Ok.some rfl) ?_
    rintro _ rfl
    refine Ok.bind' (P := fun _ => True) (Ok.assertUB (by omega) trivial) fun _ _ => ?_
    refine Ok.bind' (mulGen_ok (packed_lawful NP) hv Nat.lt_log2_self (by omega) ?_ (Or.inr (packed_top NP))) ?_
    · intro k hk1 hk2
      exact poly_coef_zero (c := fun i => beBit g (NP - i)) (n := NP + 1) (d := gd) (by omega) hk1 (by omega)
    rintro g' ⟨hv', hp'⟩
    obtain ⟨hd', hne'⟩ := natDegree_mul_natPoly hm0 h0
    refine (ih g' (gd + Nat.log2 m) (fun m' h => hm m' (by simp [h])) hv' (by rw [hp']; exact hne')
      (by rw [hp', hd']; omega) (by omega)).mono ?_
    rintro r ⟨h1, h2, h3⟩
    refine ⟨h1, by rw [h2, List.map_cons, List.sum_cons]; omega, ?_⟩
    rw [h3, hp', genPoly, genPoly, List.map_cons, List.prod_cons, mul_assoc]

theorem genPoly_natDegree {polys : List Nat} (h : ∀ m ∈ polys, 0 < m) :
    (genPoly polys).natDegree = (polys.map Nat.log2).sum ∧ genPoly polys ≠ 0 := by
  induction polys with
  | nil => simp [genPoly]
  | cons m ms ih =>
    obtain ⟨h1, h2⟩ := ih (fun m' h' => h m' (by simp [h']))
    have h3 := natDegree_mul_natPoly (h m (by simp)) h2
    have e : genPoly (m :: ms) = genPoly ms * natPoly m := by
      unfold genPoly; rw [List.map_cons, List.prod_cons, mul_comm]
    rw [e, h3.1, List.map_cons, List.sum_cons, h1]
    exact ⟨by omega, h3.2⟩

theorem beBit_nat {buf : List (BitVec 8)} {i : Nat} (h : buf.length ≤ i / 8) : beBit buf i = false := by
  unfold beBit
  rw [List.getD_eq_default _ _ h]
  simp

/-- The packed constructor: bits `0 .. NP-1` are the coefficients of the product below the leading
one, highest first, and the rest is zero. -/
theorem encInit_ok {NP : Nat} {polys : List Nat} {g0 : List (BitVec 8)} (hg0 : g0.length = (NP + 1 + 7) / 8)
    (hm : ∀ m ∈ polys, 0 < m ∧ m < 2 ^ 31) (hs : (polys.map Nat.log2).sum = NP) :
    Ok (encInit NP g0 polys) (fun g => g.length = (NP + 1 + 7) / 8 ∧
      (∀ i, i < NP → b2 (beBit g i) = (genPoly polys).coeff (NP - 1 - i)) ∧ ∀ i, NP ≤ i → beBit g i = false) := by
  unfold encInit
  rw [forUp_fill (g := fun _ => 0#8) (by omega) (fun j l hj hl => wr_of_lt (by omega)),
    List.drop_eq_nil_of_le (by omega), List.append_nil]
  set z := (List.range ((NP + 1 + 7) / 8)).map (fun _ => 0#8) with hz
  have hzl : z.length = (NP + 1 + 7) / 8 := by rw [hz]; simp
  have hzb : ∀ q, beBit z q = false := by
    intro q
    by_cases h : q / 8 < z.length
    · unfold beBit
      rw [List.getD_eq_getElem _ _ h]
      simp [hz]
    · exact beBit_nat (by omega)
  refine Ok.bind' (P := fun r => z = r) (Ok.some rfl) ?_
  rintro r rfl
  obtain ⟨g1, h1, hl1, hb1⟩ := setBe_bit (buf := z) (i := NP) true (by omega)
  rw [h1]
  refine Ok.bind' (P := fun r => g1 = r) (Ok.some rfl) ?_
  rintro r rfl
  have hv1 : PValid NP g1 := ⟨by omega, fun q h h' => by rw [hb1 q (by omega), if_neg (by omega), hzb]⟩
  have hp1 : poly (fun i => beBit g1 (NP - i)) (NP + 1) = 1 := by
    ext k
    rw [coeff_poly, coeff_one]
    by_cases hk : k < NP + 1
    · rw [if_pos hk, hb1 _ (by omega)]
      by_cases hk0 : k = 0
      · rw [hk0, if_pos (by omega), if_pos rfl]; rfl
      · rw [if_neg (by omega), if_neg hk0, hzb]; rfl
    · rw [if_neg hk, if_neg (by omega)]
  refine Ok.bind' (mulAllPacked_ok polys g1 1 hm hv1 (by rw [hp1]; exact one_ne_zero) (by rw [hp1]; simp) (by omega)) ?_
  rintro ⟨g2, gd⟩ ⟨hv2, hgd, hp2⟩
  dsimp only at hv2 hgd hp2 ⊢
  rw [hp1, one_mul] at hp2
  refine Ok.bind' (P := fun _ => True) (Ok.assertUB (by omega) trivial) fun _ _ => ?_
  have hl2 := hv2.1
  refine Ok.bind' (forUp_inv (fun k (g : List (BitVec 8)) => g.length = g2.length ∧
    ∀ q, q < 8 * g2.length → beBit g q = if q < k then beBit g2 (q + 1) else beBit g2 q) (Nat.zero_le NP)
    ⟨rfl, fun q _ => by rw [if_neg (by omega)]⟩ ?_) ?_
  · rintro k g _ hk ⟨hl, hb⟩
    have hcast : ((k : Int) + 1) = ((k + 1 : Nat) : Int) := by omega
    rw [hcast, getBe_bit (by omega)]
    refine Ok.bind' (P := fun b => b = beBit g (k + 1)) (Ok.some rfl) ?_
    rintro _ rfl
    obtain ⟨g', h1', h2', h3'⟩ := setBe_bit (buf := g) (i := k) (beBit g (k + 1)) (by omega)
    refine ⟨g', h1', by omega, ?_⟩
    intro q hq
    rw [h3' q (by omega)]
    by_cases hqk : q = k
    · rw [if_pos hqk, hqk, if_pos (by omega), hb _ (by omega), if_neg (by omega)]
    · rw [if_neg hqk, hb q hq]
      by_cases h : q < k
      · rw [if_pos h, if_pos (by omega)]
      · rw [if_neg h, if_neg (by omega)]
  rintro g3 ⟨hl3, hb3⟩
  obtain ⟨g4, h4, hl4, hb4⟩ := setBe_bit (buf := g3) (i := NP) false (by omega)
  refine ⟨g4, h4, by omega, ?_, ?_⟩
  · intro i hi
    rw [hb4 i (by omega), if_neg (by omega), hb3 i (by omega), if_pos hi, ← hp2, coeff_poly, if_pos (by omega)]
    congr 2
    omega
  · intro i hi
    by_cases hil : i < 8 * g4.length
    · rw [hb4 i (by omega)]
      by_cases h : i = NP
      · rw [if_pos h]
      · rw [if_neg h, hb3 i (by omega), if_neg (by omega)]
        exact hv2.2 i (by omega) (by omega)
    · exact beBit_nat (by omega)

end Verif.BCH
