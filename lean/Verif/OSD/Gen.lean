import Verif.OSD.Prep
import Verif.BCH.EncPacked
import Verif.BCH.Lfsr
/- The generator matrices of BCH codes and the linear encoder. -/
namespace Verif.OSD
open Finset Polynomial
open Verif.RS (sb)
open Verif.BCH (beBit setBe_bit getBe_bit xorBe_bit b2 b2_xor Lawful mulGen mulGen_ok degPacked degPacked_ok genPoly coeff_poly natDegree_mul_natPoly poly_coef_zero genPoly_natDegree
  bitPoly bitsOf coeff_bitPoly length_bitsOf getD_bitsOf)
open Verif.Bits (setBe getBe xorBe rdZ_nat wrZ_nat)

/-- The bytes of the generator polynomial: 0 or 1; the rest of the array is that of `g0`. -/
def BValid (NP : Nat) (g0 g : List (BitVec 8)) : Prop :=
  g.length = g0.length ∧ NP < g0.length ∧ (∀ i, i ≤ NP → g.getD i 0 = 0#8 ∨ g.getD i 0 = 1#8) ∧
    ∀ i, NP < i → g.getD i 0 = g0.getD i 0

/-- Coefficient of `x^i`. -/
def bcoef (NP : Nat) (g : List (BitVec 8)) (i : Nat) : Bool := g.getD (NP - i) 0 != 0#8

theorem wrB_ok {NP : Nat} {g0 g : List (BitVec 8)} (hv : BValid NP g0 g) {i : Nat} (hi : i ≤ NP) (b : Bool) :
    ∃ g', wrZ g ((NP : Int) - i) (if b then 1#8 else 0#8) = some g' ∧ BValid NP g0 g' ∧
      ∀ k, k ≤ NP → bcoef NP g' k = if k = i then b else bcoef NP g k := by
  obtain ⟨h1, h2, h3, h4⟩ := hv
  rw [show ((NP : Int) - i) = ((NP - i : Nat) : Int) by omega, wrZ_nat, wr_of_lt (by omega)]
  refine ⟨_, rfl, ⟨by rw [List.length_set]; exact h1, h2, ?_, ?_⟩, ?_⟩
  · intro k hk
    rw [getD_set]
    by_cases h : NP - i = k ∧ NP - i < g.length
    · rw [if_pos h]; cases b
      · exact Or.inl rfl
      · exact Or.inr rfl
    · rw [if_neg h]; exact h3 k hk
  · intro k hk
    rw [getD_set, if_neg (by omega)]; exact h4 k hk
  · intro k hk
    unfold bcoef
    rw [getD_set]
    by_cases h : k = i
    · rw [if_pos ⟨by omega, by omega⟩, if_pos h]; cases b <;> rfl
    · rw [if_neg (by omega), if_neg h]

theorem byte_lawful (NP : Nat) (g0 : List (BitVec 8)) : Lawful (byteStore NP) NP (BValid NP g0) (bcoef NP) := by
  have hrd : ∀ (g : List (BitVec 8)) i, BValid NP g0 g → i ≤ NP → rdZ g ((NP : Int) - i) = some (g.getD (NP - i) 0) := by
    rintro g i ⟨h1, h2, _⟩ hi
    rw [show ((NP : Int) - i) = ((NP - i : Nat) : Int) by omega, rdZ_nat, List.getElem?_eq_getElem (by omega), getElem_eq_getD _ 0]
  constructor
  · intro g i hv hi
    show (do let x ← rdZ g ((NP : Int) - i); return x != 0#8) = _
    rw [hrd g i hv hi]
    rfl
  · intro g i v hv hi
    exact wrB_ok hv hi v
  · intro g i v hv hi
    show ∃ s', (do let x ← rdZ g ((NP : Int) - i); wrZ g ((NP : Int) - i) (x ^^^ (if v then 1#8 else 0#8))) = some s' ∧ _
    rw [hrd g i hv hi, sb]
    have e : g.getD (NP - i) 0 ^^^ (if v then 1#8 else 0#8) = if (bcoef NP g i ^^ v) then 1#8 else 0#8 := by
      unfold bcoef
      rcases hv.2.2.1 (NP - i) (by omega) with h | h <;> rw [h] <;> cases v <;> rfl
    rw [e]
    exact wrB_ok hv hi _

/-- Polynomials acceptable to the generator: odd, of positive degree, in the range of `int`, and the
degree of their product is `NP`. -/
structure GenPolys (NP : Nat) (polys : List Nat) : Prop where
  odd : ∀ m ∈ polys, m % 2 = 1
  pos : ∀ m ∈ polys, 1 < m
  int : ∀ m ∈ polys, m < 2 ^ 31
  deg : (genPoly polys).natDegree = NP

theorem polyLoop_ok {NP : Nat} {g0 : List (BitVec 8)} (polys : List Nat) : ∀ (g : List (BitVec 8)) (gd : Nat),
    (∀ m ∈ polys, m % 2 = 1 ∧ 1 < m ∧ m < 2 ^ 31) → BValid NP g0 g →
    Verif.BCH.poly (bcoef NP g) (NP + 1) ≠ 0 → (Verif.BCH.poly (bcoef NP g) (NP + 1)).natDegree + 1 = gd →
    gd + (polys.map Nat.log2).sum ≤ NP + 1 →
    Ok (polyLoop NP polys (g, gd)) (fun r => BValid NP g0 r.1 ∧ r.2 = gd + (polys.map Nat.log2).sum ∧
      Verif.BCH.poly (bcoef NP r.1) (NP + 1) = Verif.BCH.poly (bcoef NP g) (NP + 1) * genPoly polys) := by
  induction polys with
  | nil =>
    intro g gd _ hv _ _ _
    exact Ok.some ⟨hv, by simp, by simp [genPoly]⟩
  | cons m ms ih =>
    intro g gd hm hv h0 hdeg hle
    obtain ⟨hodd, hm1, hm31⟩ := hm m (by simp)
    have hm0 : 0 < m := by omega
    have hlog : 1 ≤ Nat.log2 m := (Nat.le_log2 (by omega)).2 (by omega)
    rw [List.map_cons, List.sum_cons] at hle
    unfold polyLoop
    refine Ok.bind' (P := fun _ => True) (Ok.assertUB hm0 trivial) fun _ _ => ?_
    refine Ok.bind' (P := fun _ => True) (Ok.assertUB (by rw [Nat.testBit_zero, decide_eq_true_eq]; exact hodd) trivial) fun _ _ => ?_
    rw [degPacked_ok hm0 hm31, sb]
    refine Ok.bind' (P := fun _ => True) (Ok.assertUB (by omega) trivial) fun _ _ => ?_
    refine Ok.bind' (mulGen_ok (byte_lawful NP g0) hv Nat.lt_log2_self (by omega) ?_ (Or.inl (by omega))) ?_
    · intro k hk1 hk2
      exact poly_coef_zero (n := NP + 1) (d := gd) (by omega) hk1 (by omega)
    rintro g' ⟨hv', hp'⟩
    obtain ⟨hd', hne'⟩ := natDegree_mul_natPoly hm0 h0
    refine (ih g' (gd + Nat.log2 m) (fun m' h => hm m' (by simp [h])) hv' (by rw [hp']; exact hne')
      (by rw [hp', hd']; omega) (by omega)).mono ?_
    rintro r ⟨h1, h2, h3⟩
    refine ⟨h1, by rw [h2, List.map_cons, List.sum_cons]; omega, ?_⟩
    rw [h3, hp', genPoly, genPoly, List.map_cons, List.prod_cons, mul_assoc]

theorem natPoly_odd {polys : List Nat} (h : ∀ m ∈ polys, m % 2 = 1) : (genPoly polys).coeff 0 = 1 := by
  induction polys with
  | nil => simp [genPoly]
  | cons m ms ih =>
    unfold genPoly
    rw [List.map_cons, List.prod_cons, mul_coeff_zero, Verif.BCH.natPoly_coeff]
    have h1 := ih fun m' hm' => h m' (by simp [hm'])
    unfold genPoly at h1
    rw [h1, Nat.testBit_zero, decide_eq_true (h m (by simp))]
    rfl

theorem lead_one {g : (ZMod 2)[X]} {NP : Nat} (h : g.natDegree = NP) (h0 : g ≠ 0) : g.coeff NP = 1 := by
  have := leadingCoeff_ne_zero.2 h0
  unfold leadingCoeff at this
  rw [h] at this
  exact (z01 _).resolve_left this

/-- The first row: the coefficients, highest first. -/
theorem poly_ok {NP : Nat} {polys : List Nat} (h : GenPolys NP polys) {g0 : List (BitVec 8)} (hl : NP < g0.length) :
    Ok (poly NP g0 polys) (fun g => g.length = g0.length ∧ (∀ i, i ≤ NP → g.getD i 0 = bv ((genPoly polys).coeff (NP - i))) ∧
      ∀ i, NP < i → g.getD i 0 = g0.getD i 0) := by
  have hpos : ∀ m ∈ polys, 0 < m := fun m hm => by have := h.pos m hm; omega
  obtain ⟨hsum, hne⟩ := genPoly_natDegree hpos
  rw [h.deg] at hsum
  unfold poly
  rw [forUp_fill (g := fun _ => 0#8) (by omega) (fun j l hj hl => wr_of_lt (by omega)), sb]
  set z := (List.range NP).map (fun _ => 0#8) ++ g0.drop NP with hz
  have hzl : z.length = g0.length := by rw [hz]; simp; omega
  have hzb : ∀ i, i < NP → z.getD i 0 = 0#8 := fun i hi => by rw [hz, getD_map_append _ _ _ _ _ hi]
  have hzr : ∀ i, NP ≤ i → z.getD i 0 = g0.getD i 0 := by
    intro i hi
    rw [hz, List.getD_eq_getElem?_getD, List.getElem?_append_right (by simp; omega), List.length_map, List.length_range,
      List.getElem?_drop, Nat.add_sub_cancel' hi, ← List.getD_eq_getElem?_getD]
  rw [wr_of_lt (by omega), sb]
  set g1 := z.set NP 1#8 with hg1
  have hv1 : BValid NP g0 g1 := by
    refine ⟨by rw [hg1, List.length_set, hzl], hl, ?_, ?_⟩
    · intro i hi
      rw [hg1, getD_set]
      by_cases hiN : NP = i
      · rw [if_pos ⟨hiN, by omega⟩]; exact Or.inr rfl
      · rw [if_neg (by omega), hzb i (by omega)]; exact Or.inl rfl
    · intro i hi
      rw [hg1, getD_set, if_neg (by omega), hzr i (by omega)]
  have hp1 : Verif.BCH.poly (bcoef NP g1) (NP + 1) = 1 := by
    ext k
    rw [coeff_poly, coeff_one]
    by_cases hk : k < NP + 1
    · rw [if_pos hk]
      unfold bcoef
      rw [hg1, getD_set]
      by_cases hk0 : k = 0
      · rw [hk0, if_pos ⟨by omega, by omega⟩, if_pos rfl]; rfl
      · rw [if_neg (by omega), if_neg hk0, hzb _ (by omega)]; rfl
    · rw [if_neg hk, if_neg (by omega)]
  refine Ok.bind' (polyLoop_ok (g0 := g0) polys g1 1 (fun m hm => ⟨h.odd m hm, h.pos m hm, h.int m hm⟩) hv1
    (by rw [hp1]; exact one_ne_zero) (by rw [hp1]; simp) (by omega)) ?_
  rintro ⟨g2, gd⟩ ⟨hv2, hgd, hp2⟩
  dsimp only at hv2 hgd hp2 ⊢
  rw [hp1, one_mul] at hp2
  obtain ⟨v1, v2, v3, v4⟩ := hv2
  have hent : ∀ i, i ≤ NP → g2.getD i 0 = bv ((genPoly polys).coeff (NP - i)) := by
    intro i hi
    rw [← hp2, coeff_poly, if_pos (by omega)]
    unfold bcoef
    rw [show NP - (NP - i) = i by omega]
    rcases v3 i hi with h | h <;> rw [h] <;> rfl
  refine Ok.bind' (P := fun _ => True) (Ok.assertUB (by omega) trivial) fun _ _ => ?_
  rw [rd_of_lt (show 0 < g2.length by omega), getElem_eq_getD (show 0 < g2.length by omega) 0, sb]
  refine Ok.bind' (P := fun _ => True) (Ok.assertUB ?_ trivial) fun _ _ => ?_
  · rw [hent 0 (Nat.zero_le _), Nat.sub_zero, lead_one h.deg hne]; decide
  rw [rd_of_lt (show NP < g2.length by omega), getElem_eq_getD (show NP < g2.length by omega) 0, sb]
  refine Ok.bind' (P := fun _ => True) (Ok.assertUB ?_ trivial) fun _ _ => ?_
  · rw [hent NP (Nat.le_refl _), Nat.sub_self, natPoly_odd h.odd]; decide
  exact Ok.some ⟨v1, hent, v4⟩

/-- Entry `p` of the row `x^(K-1-j) * g`, as a polynomial of degree below `N`, highest coefficient first. -/
noncomputable def shift (N K : Nat) (g : (ZMod 2)[X]) (j p : Nat) : ZMod 2 := (X ^ (K - 1 - j) * g).coeff (N - 1 - p)

theorem shift_eq {N K : Nat} {g : (ZMod 2)[X]} (hKN : K ≤ N) (hg : g.natDegree = N - K) {j p : Nat} (hj : j < K) (hp : p < N) :
    shift N K g j p = if j ≤ p ∧ p ≤ j + (N - K) then g.coeff (N - K + j - p) else 0 := by
  unfold shift
  rw [coeff_X_pow_mul']
  by_cases h : j ≤ p ∧ p ≤ j + (N - K)
  · rw [if_pos h, if_pos (by omega)]
    congr 1
    omega
  · rw [if_neg h]
    by_cases h2 : p < j
    · rw [if_pos (by omega), coeff_eq_zero_of_natDegree_lt (by omega)]
    · rw [if_neg (by omega)]

theorem fillRow_ok {g : List (BitVec 8)} {lo hi off : Nat} (hlh : lo ≤ hi) (h : off + hi ≤ g.length) :
    Ok (forUp lo hi g fun i g => wr g (off + i) 0#8) (fun g' => g'.length = g.length ∧
      ∀ x, g'.getD x 0 = if off + lo ≤ x ∧ x < off + hi then 0#8 else g.getD x 0) := by
  refine forUp_inv (fun t (g' : List (BitVec 8)) => g'.length = g.length ∧
      ∀ x, g'.getD x 0 = if off + lo ≤ x ∧ x < off + t then 0#8 else g.getD x 0) hlh ⟨rfl, fun x => by rw [if_neg (by omega)]⟩ ?_
  rintro t g1 h1 h2 ⟨l1, e1⟩
  refine Ok.wr (by omega) ⟨by rw [List.length_set]; exact l1, fun x => ?_⟩
  rw [getD_set, e1 x]
  by_cases hx : off + t = x
  · rw [if_pos ⟨hx, by omega⟩, if_pos (by omega)]
  · rw [if_neg (by omega)]
    by_cases h3 : off + lo ≤ x ∧ x < off + t
    · rw [if_pos h3, if_pos (by omega)]
    · rw [if_neg h3, if_neg (by omega)]

theorem copyRow_ok {g : List (BitVec 8)} {n off : Nat} (hn : n ≤ off) (h : off + n ≤ g.length) :
    Ok (forUp 0 n g fun i g => do
      let x ← rd g i
      wr g (off + i) x) (fun g' => g'.length = g.length ∧
      ∀ x, g'.getD x 0 = if off ≤ x ∧ x < off + n then g.getD (x - off) 0 else g.getD x 0) := by
  refine forUp_inv (fun t (g' : List (BitVec 8)) => g'.length = g.length ∧
      ∀ x, g'.getD x 0 = if off ≤ x ∧ x < off + t then g.getD (x - off) 0 else g.getD x 0) (Nat.zero_le _)
      ⟨rfl, fun x => by rw [if_neg (by omega)]⟩ ?_
  rintro t g1 h1 h2 ⟨l1, e1⟩
  rw [rd_of_lt (show t < g1.length by omega), getElem_eq_getD (show t < g1.length by omega) 0, sb, e1 t, if_neg (by omega)]
  refine Ok.wr (by omega) ⟨by rw [List.length_set]; exact l1, fun x => ?_⟩
  rw [getD_set, e1 x]
  by_cases hx : off + t = x
  · rw [if_pos ⟨hx, by omega⟩, if_pos (by omega), ← hx, Nat.add_sub_cancel_left]
  · rw [if_neg (by omega)]
    by_cases h3 : off ≤ x ∧ x < off + t
    · rw [if_pos h3, if_pos (by omega)]
    · rw [if_neg h3, if_neg (by omega)]

/-- The rows before the elimination. -/
theorem matRows_ok {N K : Nat} (hK : 1 ≤ K) (hKN : K ≤ N) {g : (ZMod 2)[X]} (hg : g.natDegree = N - K) {g0 : List (BitVec 8)}
    (hl : N * K ≤ g0.length) (h0 : ∀ i, i ≤ N - K → g0.getD i 0 = bv (g.coeff (N - K - i))) :
    Ok (matRows N K g0) (fun g' => g'.length = g0.length ∧
      (∀ j p, j < K → p < N → g'.getD (N * j + p) 0 = bv (shift N K g j p)) ∧
      ∀ x, N * K ≤ x → g'.getD x 0 = g0.getD x 0) := by
  have hNK : N ≤ N * K := Nat.le_mul_of_pos_right _ (by omega)
  unfold matRows
  obtain ⟨g1, e1, l1, h1⟩ := fillRow_ok (g := g0) (lo := N - K + 1) (hi := N) (off := 0) (by omega) (by omega)
  simp only [Nat.zero_add] at e1 h1
  dsimp only
  rw [e1, sb]
  refine Ok.mono (forUp_inv (fun t (g' : List (BitVec 8)) => g'.length = g0.length ∧
      (∀ j p, j < t → p < N → g'.getD (N * j + p) 0 = bv (shift N K g j p)) ∧
      ∀ x, N * K ≤ x → g'.getD x 0 = g0.getD x 0) hK ⟨l1, ?_, ?_⟩ ?_) (fun _ h => h)
  · intro j p hj hp
    have : j = 0 := by omega
    subst this
    rw [Nat.mul_zero, Nat.zero_add, h1 p, shift_eq hKN hg (by omega) hp]
    by_cases h : p ≤ N - K
    · rw [if_neg (by omega), if_pos (by omega), h0 p h, Nat.add_zero]
    · rw [if_pos (by omega), if_neg (by omega)]; rfl
  · intro x hx
    rw [h1 x, if_neg (by omega)]
  · rintro t g2 ht1 ht2 ⟨l2, h2, h2'⟩
    have hrow : N * t + N ≤ N * K := by
      have := Nat.mul_le_mul_left N (show t + 1 ≤ K by omega)
      rwa [Nat.mul_succ] at this
    have hrow0 : N ≤ N * t := Nat.le_mul_of_pos_right _ (by omega)
    obtain ⟨g3, e3, l3, h3⟩ := fillRow_ok (g := g2) (lo := 0) (hi := t) (off := N * t) (by omega) (by omega)
    rw [e3, sb]
    have hoff : (N + 1) * t = N * t + t := by rw [Nat.add_mul, Nat.one_mul]
    obtain ⟨g4, e4, l4, h4⟩ := copyRow_ok (g := g3) (n := N - K + 1) (off := (N + 1) * t) (by omega) (by omega)
    rw [e4, sb]
    obtain ⟨g5, e5, l5, h5⟩ := fillRow_ok (g := g4) (lo := t + (N - K) + 1) (hi := N) (off := N * t) (by omega) (by omega)
    refine ⟨g5, e5, by omega, ?_, ?_⟩
    · intro j p hj hp
      rw [h5, h4, h3, h3, hoff]
      by_cases hjt : j = t
      · subst hjt
        rw [shift_eq hKN hg ht2 hp]
        by_cases ha : p < j
        · rw [if_neg (by omega), if_neg (by omega), if_pos (by omega), if_neg (by omega)]; rfl
        · by_cases hb : p ≤ j + (N - K)
          · rw [if_neg (by omega), if_pos (by omega), if_neg (by omega), if_pos (by omega)]
            have := h2 0 (p - j) (by omega) (by omega)
            rw [Nat.mul_zero, Nat.zero_add, shift_eq hKN hg (by omega) (by omega), if_pos (by omega)] at this
            rw [show N * j + p - (N * j + j) = p - j by omega, this]
            congr 2
            omega
          · rw [if_pos (by omega), if_neg (by omega)]; rfl
      · have hlt : N * j + N ≤ N * t := by
          have := Nat.mul_le_mul_left N (show j + 1 ≤ t by omega)
          rwa [Nat.mul_succ] at this
        rw [if_neg (by omega), if_neg (by omega), if_neg (by omega)]
        exact h2 j p (by omega) hp
    · intro x hx
      rw [h5, if_neg (by omega), h4, if_neg (by omega), h3, if_neg (by omega)]
      exact h2' x hx

end Verif.OSD
