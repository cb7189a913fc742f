import Verif.BCH.EncStep
import Verif.RS.Search
/- The Reference encoder. -/
namespace Verif.BCH
open Polynomial Finset Verif.GF2 Verif.RS

variable {F : Type} [Field F] (G : Gf F) (u : F) (ui : Fin G.N)

/-- The field element of a bit. -/
def fbit (b : Bool) : F := if b then 1 else 0

/-- The bit of a field element. -/
def fv (x : F) : Bool := G.num x != 0

theorem fv_fbit (b : Bool) : fv G (fbit b) = b := by
  cases b
  · simp [fv, fbit, G.num_zero]
  · simp [fv, fbit, G.num_one]

include G in
theorem fbit_add (a b : Bool) : (fbit a + fbit b : F) = fbit (a ^^ b) := by
  cases a <;> cases b <;> simp [fbit, G.add_self]

theorem fbit_num (b : Bool) : G.num (fbit b) ≤ 1 := by
  cases b <;> simp [fbit, G.num_zero, G.num_one]

theorem num_le_one {x : F} (h : G.num x ≤ 1) : x = fbit (fv G x) := by
  rcases Nat.le_one_iff_eq_zero_or_eq_one.1 h with h | h
  · rw [G.num_eq_zero.1 h]; simp [fv, fbit, G.num_zero]
  · rw [G.num_eq_one.1 h]; simp [fv, fbit, G.num_one]

theorem bitV_ok (b : Bool) : bitV (G.fieldOps u ui) b = some (fbit b) := by
  unfold bitV
  cases b <;> simp [fbit]

/-- All entries are bits. -/
def Bits (l : List F) : Prop := ∀ i, l.getD i 0 = fbit (fv G (l.getD i 0))

theorem Bits.set {l : List F} (h : Bits G l) (i : Nat) (b : Bool) : Bits G (l.set i (fbit b)) := by
  intro k
  rw [getD_set]
  split
  · rw [fv_fbit]
  · exact h k

/-- The Reference generator. -/
def RValid (NP : Nat) (g : List F) : Prop := g.length = NP + 1 ∧ Bits G g

theorem ref_lawful (NP : Nat) : Lawful (refStore (G.fieldOps u ui)) NP (RValid G NP) (fun g i => fv G (g.getD i 0)) := by
  constructor
  · intro g i hv hi
    have := hv.1
    show (do let x ← rd g i; return (G.fieldOps u ui).num x != 0) = _
    rw [rd_of_lt (by omega), sb, getElem_eq_getD (a := g) _ 0]
    rfl
  · intro g i v hv hi
    have hl := hv.1
    show ∃ s', (do let b ← bitV (G.fieldOps u ui) v; wr g i b) = some s' ∧ _
    rw [bitV_ok, sb, wr_of_lt (by omega)]
    refine ⟨_, rfl, ⟨by rw [List.length_set]; exact hl, hv.2.set G i v⟩, fun k hk => ?_⟩
    rw [getD_set_lt (by omega)]
    by_cases h : k = i
    · rw [if_pos h, if_pos h, fv_fbit]
    · rw [if_neg h, if_neg h]
  · intro g i v hv hi
    have hl := hv.1
    show ∃ s', (do let b ← bitV (G.fieldOps u ui) v; let x ← rd g i; let y ← (G.fieldOps u ui).add x b; wr g i y) = some s' ∧ _
    rw [bitV_ok, sb, rd_of_lt (by omega), sb, Gf.f_add, sb, wr_of_lt (by omega), getElem_eq_getD (a := g) _ 0,
      hv.2 i, fbit_add G]
    refine ⟨_, rfl, ⟨by rw [List.length_set]; exact hl, hv.2.set G i _⟩, fun k hk => ?_⟩
    rw [getD_set_lt (by omega)]
    by_cases h : k = i
    · rw [if_pos h, if_pos h, fv_fbit, fv_fbit]
    · rw [if_neg h, if_neg h]

theorem degRef_ok {M m : Nat} (h0 : 0 < m) (hM : m < 2 ^ (M + 1)) : degRef M m = some (Nat.log2 m) := by
  have hlog : Nat.log2 m < M + 1 := (Nat.log2_lt (by omega)).2 hM
  unfold degRef
  have key : ∀ k d, Nat.log2 m ≤ d → d < Nat.log2 m + k →
      whileF k (fun d => m >>> d == 0) (fun d => some (d - 1)) d = some (Nat.log2 m) := by
    intro k
    induction k with
    | zero => intro d h1 h2; omega
    | succ k ih =>
      intro d h1 h2
      unfold whileF
      by_cases hd : d = Nat.log2 m
      · have : m >>> d ≠ 0 := by
          rw [Nat.shiftRight_eq_div_pow]
          have h3 : 2 ^ d ≤ m := by rw [hd]; exact Nat.log2_self_le (by omega)
          exact Nat.ne_of_gt (Nat.div_pos h3 (by positivity))
        simp only [beq_iff_eq, this, if_false]
        rw [hd]
      · have : m >>> d = 0 := by
          rw [Nat.shiftRight_eq_div_pow]
          refine Nat.div_eq_of_lt (lt_of_lt_of_le Nat.lt_log2_self (Nat.pow_le_pow_right (by norm_num) (by omega)))
        simp only [beq_iff_eq, this, if_true, Option.bind_some]
        exact ih (d - 1) (by omega) (by omega)
  exact key (M + 1) M (by omega) (by omega)

theorem mulAllRef_ok {NP : Nat} (polys : List Nat) : ∀ (g : List F) (gd : Nat),
    (∀ m ∈ polys, 1 < m ∧ m < 2 ^ (G.M + 1)) → RValid G NP g →
    (poly (fun i => fv G (g.getD i 0)) (NP + 1)) ≠ 0 → (poly (fun i => fv G (g.getD i 0)) (NP + 1)).natDegree + 1 = gd →
    gd + (polys.map Nat.log2).sum ≤ NP + 1 →
    Ok (mulAllRef (G.fieldOps u ui) NP polys (g, gd)) (fun r => RValid G NP r.1 ∧ r.2 = gd + (polys.map Nat.log2).sum ∧
      poly (fun i => fv G (r.1.getD i 0)) (NP + 1) = poly (fun i => fv G (g.getD i 0)) (NP + 1) * genPoly polys) := by
  induction polys with
  | nil =>
    intro g gd _ hv _ _ _
    exact Ok.some ⟨hv, by simp, by simp [genPoly]⟩
  | cons m ms ih =>
    intro g gd hm hv h0 hdeg hle
    obtain ⟨hm0, hmM⟩ := hm m (by simp)
    have hlog : 0 < Nat.log2 m := by
      rw [Nat.lt_iff_add_one_le]
      exact (Nat.le_log2 (by omega)).2 (by omega)
    rw [List.map_cons, List.sum_cons] at hle
    unfold mulAllRef
    rw [Gf.f_M]
    refine Ok.bind' (P := fun _ => True) (Ok.assertUB ⟨by omega, hmM⟩ trivial) fun _ _ => ?_
    rw [degRef_ok (by omega) hmM]
    refine Ok.bind' (P := fun d => d = Nat.log2 m) (Ok.some rfl) ?_
    rintro _ rfl
    refine Ok.bind' (P := fun _ => True) (Ok.assertUB (by omega) trivial) fun _ _ => ?_
    refine Ok.bind' (mulGen_ok (ref_lawful G u ui NP) hv Nat.lt_log2_self (by omega) ?_ (Or.inl (by omega))) ?_
    · intro k hk1 hk2
      exact poly_coef_zero (c := fun i => fv G (g.getD i 0)) (n := NP + 1) (d := gd) (by omega) hk1 (by omega)
    rintro g' ⟨hv', hp'⟩
    obtain ⟨hd', hne'⟩ := natDegree_mul_natPoly (show 0 < m by omega) h0
    refine (ih g' (gd + Nat.log2 m) (fun m' h => hm m' (by simp [h])) hv' (by rw [hp']; exact hne')
      (by rw [hp', hd']; omega) (by omega)).mono ?_
    rintro r ⟨h1, h2, h3⟩
    refine ⟨h1, by rw [h2, List.map_cons, List.sum_cons]; omega, ?_⟩
    rw [h3, hp', genPoly, genPoly, List.map_cons, List.prod_cons, mul_assoc]

/-- The Reference constructor: `generator[i]` is the coefficient of `x^i` of the product. -/
theorem refInit_ok {NP : Nat} {polys : List Nat} (hm : ∀ m ∈ polys, 1 < m ∧ m < 2 ^ (G.M + 1))
    (hs : (polys.map Nat.log2).sum = NP) :
    Ok (refInit (G.fieldOps u ui) NP polys) (fun g => g.length = NP + 1 ∧ Bits G g ∧
      ∀ i, i ≤ NP → b2 (fv G (g.getD i 0)) = (genPoly polys).coeff i) := by
  unfold refInit
  rw [Gf.f_mkV1, sb, wr_of_lt (by simp), sb]
  refine Ok.bind' (forUp_inv (fun k (g : List F) => g.length = NP + 1 ∧ g.getD 0 0 = 1 ∧
    ∀ i, 1 ≤ i → i < k → g.getD i 0 = 0) (by omega) ⟨by simp, by rw [getD_set_lt (by simp), if_pos rfl], by omega⟩ ?_) ?_
  · rintro k g hk1 hk2 ⟨h1, h2, h3⟩
    rw [Gf.f_mkV0, sb, wr_of_lt (by omega)]
    refine Ok.some ⟨by rw [List.length_set, h1], by rw [getD_set_lt (by omega), if_neg (by omega), h2], ?_⟩
    intro i hi1 hi2
    rw [getD_set_lt (by omega)]
    by_cases h : i = k
    · rw [if_pos h]
    · rw [if_neg h, h3 i hi1 (by omega)]
  rintro g1 ⟨h1, h2, h3⟩
  have hg1 : ∀ i, g1.getD i 0 = if i = 0 then 1 else 0 := by
    intro i
    by_cases h : i = 0
    · rw [if_pos h, h, h2]
    · rw [if_neg h]
      by_cases h' : i < NP + 1
      · exact h3 i (by omega) h'
      · rw [List.getD_eq_default _ _ (by omega)]
  have hv1 : RValid G NP g1 := by
    refine ⟨h1, fun i => ?_⟩
    rw [hg1 i]
    split <;> simp [fv, fbit, G.num_one, G.num_zero]
  have hp1 : poly (fun i => fv G (g1.getD i 0)) (NP + 1) = 1 := by
    ext k
    rw [coeff_poly, coeff_one, hg1 k]
    by_cases hk : k = 0
    · rw [if_pos (by omega), if_pos hk, if_pos hk]; simp [fv, G.num_one, b2]
    · rw [if_neg hk, if_neg hk]; simp [fv, G.num_zero, b2]
  refine Ok.bind' (mulAllRef_ok G u ui polys g1 1 hm hv1 (by rw [hp1]; exact one_ne_zero) (by rw [hp1]; simp) (by omega)) ?_
  rintro ⟨g2, gd⟩ ⟨hv2, hgd, hp2⟩
  dsimp only at hv2 hgd hp2 ⊢
  rw [hp1, one_mul] at hp2
  refine Ok.bind' (P := fun _ => True) (Ok.assertUB (by omega) trivial) fun _ _ => ?_
  refine Ok.some ⟨hv2.1, hv2.2, fun i hi => ?_⟩
  rw [← hp2, coeff_poly, if_pos (by omega)]

theorem refStep_ok {NP : Nat} (hNP : 0 < NP) {gen data p : List F} {i : Nat} (hg : gen.length = NP + 1) (hgb : Bits G gen)
    (hp : NP ≤ p.length) (hpb : ∀ j, j < NP → p.getD j 0 = fbit (fv G (p.getD j 0)))
    (hd : i < data.length) (hdb : data.getD i 0 = fbit (fv G (data.getD i 0))) :
    Ok (refStep (G.fieldOps u ui) NP gen data i p) (fun p' => p'.length = p.length ∧
      (∀ j, j < NP → p'.getD j 0 = fbit (((fv G (data.getD i 0) ^^ fv G (p.getD 0 0)) && fv G (gen.getD (NP - 1 - j) 0)) ^^
        (if j + 1 < NP then fv G (p.getD (j + 1) 0) else false))) ∧
      ∀ j, NP ≤ j → p'.getD j 0 = p.getD j 0) := by
  unfold refStep
  rw [rd_of_lt hd, sb, rd_of_lt (by omega), sb, getElem_eq_getD (a := data) _ 0, getElem_eq_getD (a := p) _ 0]
  have hiff : (G.fieldOps u ui).num (data.getD i 0) ≠ (G.fieldOps u ui).num (p.getD 0 0) ↔
      (fv G (data.getD i 0) ^^ fv G (p.getD 0 0)) = true := by
    rw [Gf.f_num, Gf.f_num, hdb, hpb 0 hNP, fv_fbit, fv_fbit]
    cases fv G (data.getD i 0) <;> cases fv G (p.getD 0 0) <;> simp [fbit, G.num_zero, G.num_one]
  by_cases hf : (fv G (data.getD i 0) ^^ fv G (p.getD 0 0)) = true
  · rw [if_pos (hiff.2 hf), hf]
    refine Ok.bind' (forUp_inv (fun k (q : List F) => q.length = p.length ∧
      (∀ j, j + 1 < k → q.getD j 0 = fbit (fv G (gen.getD (NP - 1 - j) 0) ^^ fv G (p.getD (j + 1) 0))) ∧
      (∀ j, k ≤ j + 1 → q.getD j 0 = p.getD j 0)) (by omega) ⟨rfl, by omega, fun _ _ => rfl⟩ ?_) ?_
    · rintro k q hk1 hk2 ⟨h1, h2, h3⟩
      rw [rd_of_lt (by omega), sb, rd_of_lt (by omega), sb, Gf.f_add, sb, wr_of_lt (by omega),
        getElem_eq_getD (a := gen) _ 0, getElem_eq_getD (a := q) _ 0, h3 k (by omega), hgb (NP - k), hpb k hk2, fbit_add G]
      refine Ok.some ⟨by rw [List.length_set, h1], ?_, ?_⟩
      · intro j hj
        rw [getD_set_lt (by omega)]
        by_cases h : j = k - 1
        · rw [if_pos h, show NP - 1 - j = NP - k by omega, show j + 1 = k by omega]
        · rw [if_neg h, h2 j (by omega)]
      · intro j hj
        rw [getD_set_lt (by omega), if_neg (by omega), h3 j (by omega)]
    · rintro q ⟨h1, h2, h3⟩
      rw [rd_of_lt (by omega), sb, wr_of_lt (by omega), getElem_eq_getD (a := gen) _ 0]
      refine Ok.some ⟨by rw [List.length_set, h1], ?_, ?_⟩
      · intro j hj
        rw [getD_set_lt (by omega)]
        by_cases h : j = NP - 1
        · rw [if_pos h, if_neg (by omega), show NP - 1 - j = 0 by omega, Bool.true_and, Bool.xor_false]
          exact hgb 0
        · rw [if_neg h, h2 j (by omega), if_pos (by omega), Bool.true_and]
      · intro j hj
        rw [getD_set_lt (by omega), if_neg (by omega), h3 j (by omega)]
  · rw [if_neg (fun h => hf (hiff.1 h))]
    rw [Bool.not_eq_true] at hf
    rw [hf]
    refine Ok.bind' (forUp_inv (fun k (q : List F) => q.length = p.length ∧
      (∀ j, j + 1 < k → q.getD j 0 = fbit (fv G (p.getD (j + 1) 0))) ∧
      (∀ j, k ≤ j + 1 → q.getD j 0 = p.getD j 0)) (by omega) ⟨rfl, by omega, fun _ _ => rfl⟩ ?_) ?_
    · rintro k q hk1 hk2 ⟨h1, h2, h3⟩
      rw [rd_of_lt (by omega), sb, wr_of_lt (by omega), getElem_eq_getD (a := q) _ 0, h3 k (by omega)]
      refine Ok.some ⟨by rw [List.length_set, h1], ?_, ?_⟩
      · intro j hj
        rw [getD_set_lt (by omega)]
        by_cases h : j = k - 1
        · rw [if_pos h, show j + 1 = k by omega]
          exact hpb k hk2
        · rw [if_neg h, h2 j (by omega)]
      · intro j hj
        rw [getD_set_lt (by omega), if_neg (by omega), h3 j (by omega)]
    · rintro q ⟨h1, h2, h3⟩
      rw [Gf.f_mkV0, sb, wr_of_lt (by omega)]
      refine Ok.some ⟨by rw [List.length_set, h1], ?_, ?_⟩
      · intro j hj
        rw [getD_set_lt (by omega)]
        by_cases h : j = NP - 1
        · rw [if_pos h, if_neg (by omega)]; simp [fbit]
        · rw [if_neg h, h2 j (by omega), if_pos (by omega), Bool.false_and, Bool.false_xor]
      · intro j hj
        rw [getD_set_lt (by omega), if_neg (by omega), h3 j (by omega)]

theorem refEncode_ok {NP K : Nat} (hNP : 0 < NP) {g : (ZMod 2)[X]} (hg : g.coeff NP = 1) (hgd : g.natDegree = NP)
    {gen data parity : List F} {dl : Nat} (hdl : 0 < dl ∧ dl ≤ K) (hgl : gen.length = NP + 1) (hgb : Bits G gen)
    (hgen : ∀ i, i ≤ NP → b2 (fv G (gen.getD i 0)) = g.coeff i)
    (hd : dl ≤ data.length) (hdb : ∀ j, j < dl → data.getD j 0 = fbit (fv G (data.getD j 0))) (hp : NP ≤ parity.length) :
    Ok (refEncode (G.fieldOps u ui) NP K gen data parity dl) (fun p => p.length = parity.length ∧
      (∀ j, j < NP → p.getD j 0 = fbit (fv G (p.getD j 0))) ∧
      g ∣ bitPoly (bitsOf (fun j => fv G (data.getD j 0)) dl ++ bitsOf (fun j => fv G (p.getD j 0)) NP) ∧
      ∀ l, NP ≤ l → p.getD l 0 = parity.getD l 0) := by
  unfold refEncode
  refine Ok.bind' (P := fun _ => True) (Ok.assertUB hdl trivial) fun _ _ => ?_
  refine Ok.bind' (forUp_inv (fun k (q : List F) => q.length = parity.length ∧
      ∀ l, q.getD l 0 = if l < k then 0 else parity.getD l 0) (Nat.zero_le _)
      ⟨rfl, fun l => by rw [if_neg (by omega)]⟩ ?_) ?_
  · rintro k q _ hk ⟨hl, hq⟩
    rw [Gf.f_mkV0, sb]
    refine Ok.wr (by omega) ⟨by rw [List.length_set, hl], fun l => ?_⟩
    rw [getD_set_lt (by omega)]
    by_cases h : l = k
    · rw [if_pos h, if_pos (by omega)]
    · rw [if_neg h, hq l]
      by_cases h2 : l < k
      · rw [if_pos h2, if_pos (by omega)]
      · rw [if_neg h2, if_neg (by omega)]
  rintro q ⟨hlq, hq⟩
  have hz : ∀ i, i < NP → fv G (q.getD i 0) = false := by
    intro i hi
    rw [hq, if_pos hi]
    simp [fv, G.num_zero]
  refine forUp_inv (fun k (p : List F) => p.length = parity.length ∧
      (∀ j, j < NP → p.getD j 0 = fbit (fv G (p.getD j 0))) ∧
      g ∣ bitPoly (bitsOf (fun j => fv G (data.getD j 0)) k ++ bitsOf (fun j => fv G (p.getD j 0)) NP) ∧
      ∀ l, NP ≤ l → p.getD l 0 = parity.getD l 0) (Nat.zero_le _) ⟨hlq, ?_, ?_, ?_⟩ ?_
  · intro j hj
    rw [hz j hj, hq, if_pos hj]; rfl
  · have : bitPoly (bitsOf (fun j => fv G (q.getD j 0)) NP) = 0 := by
      ext k
      rw [coeff_bitPoly, coeff_zero]
      split
      · rw [hz _ (by omega)]; rfl
      · rfl
    rw [show bitsOf (fun j => fv G (data.getD j 0)) 0 = [] from rfl, List.nil_append, this]
    exact dvd_zero _
  · intro l hl
    rw [hq, if_neg (by omega)]
  · rintro k p _ hk ⟨hlp, hpb, hdv, hout⟩
    refine (refStep_ok G u ui hNP hgl hgb (by omega) hpb (by omega) (hdb k hk)).mono ?_
    rintro p' ⟨hl', hb', ho'⟩
    refine ⟨by omega, ?_, ?_, ?_⟩
    · intro j hj
      rw [hb' j hj, fv_fbit]
    · refine lfsr_inv (gen := fun j => fv G (gen.getD (NP - 1 - j) 0)) hNP hg hgd (fun i hi => hgen _ (by omega)) ?_ hdv
      intro i hi
      rw [hb' i hi, fv_fbit]
    · intro l hl
      rw [ho' l hl, hout l hl]

end Verif.BCH
