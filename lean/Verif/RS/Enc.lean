import Verif.RS.Forney
/- Encoder and syndromes. -/
namespace Verif.RS
open Polynomial Finset

variable {F : Type} [Field F] (G : Gf F) (u : F) (ui : Fin G.N)

/-- The value at `β` of the word `c 0, ..., c (n-1)` read as a polynomial, highest coefficient
first. -/
def ev (n : Nat) (c : Nat → F) (β : F) : F := ∑ j ∈ range n, c j * β ^ (n - 1 - j)

theorem ev_zero (c : Nat → F) (β : F) : ev 0 c β = 0 := by simp [ev]

theorem ev_one (c : Nat → F) (β : F) : ev 1 c β = c 0 := by simp [ev]

theorem ev_succ (n : Nat) (c : Nat → F) (β : F) : ev (n + 1) c β = β * ev n c β + c n := by
  unfold ev
  rw [Finset.sum_range_succ, Finset.mul_sum]
  congr 1
  · refine Finset.sum_congr rfl fun j hj => ?_
    rw [mem_range] at hj
    rw [show n + 1 - 1 - j = (n - 1 - j) + 1 by omega, pow_succ]; ring
  · simp

theorem ev_shift (n : Nat) (c : Nat → F) (β : F) :
    ev (n + 1) c β = c 0 * β ^ n + ev n (fun j => c (j + 1)) β := by
  induction n with
  | zero => simp [ev]
  | succ n ih => rw [ev_succ, ih, ev_succ, pow_succ]; ring

theorem ev_congr {n : Nat} {c d : Nat → F} (h : ∀ j, j < n → c j = d j) (β : F) : ev n c β = ev n d β := by
  unfold ev
  exact Finset.sum_congr rfl fun j hj => by rw [h j (by simpa using hj)]

theorem ev_add (n : Nat) (c d : Nat → F) (β : F) : ev n (fun j => c j + d j) β = ev n c β + ev n d β := by
  unfold ev
  rw [← Finset.sum_add_distrib]
  exact Finset.sum_congr rfl fun j _ => by ring

theorem ev_append (m n : Nat) (c : Nat → F) (β : F) :
    ev (m + n) c β = ev m c β * β ^ n + ev n (fun j => c (m + j)) β := by
  induction n with
  | zero => simp [ev_zero]
  | succ n ih => rw [← add_assoc, ev_succ, ih, ev_succ, pow_succ]; ring

/-- Roots are powers with exponent `FCR + i`. -/
theorem rootLoop {σ : Type} {NR FCR : Nat} (hF : FCR < G.N) (s0 : σ) (f : Nat → σ × Fin G.N → Option (σ × Fin G.N))
    (Inv : Nat → σ → Prop) (h0 : Inv 0 s0)
    (hs : ∀ i s (r : Fin G.N), i < NR → G.al ^ r.1 = G.al ^ (FCR + i) → Inv i s →
      Ok (f i (s, r)) (fun t => Inv (i + 1) t.1 ∧ t.2.1 = (r.1 + 1) % G.N)) :
    Ok (forUp 0 NR (s0, (⟨FCR, hF⟩ : Fin G.N)) f) (fun t => Inv NR t.1) := by
  refine Ok.mono (forUp_inv (fun k (t : σ × Fin G.N) => Inv k t.1 ∧ G.al ^ t.2.1 = G.al ^ (FCR + k))
    (Nat.zero_le _) ⟨h0, rfl⟩ ?_) (fun t h => h.1)
  rintro k ⟨s, r⟩ _ hk ⟨h1, h2⟩
  refine (hs k s r hk h2 h1).mono ?_
  rintro ⟨s', r'⟩ ⟨h3, h4⟩
  dsimp only at h3 h4 ⊢
  exact ⟨h3, by rw [h4, G.al_pow_mod, pow_succ, h2, ← pow_succ, add_assoc]⟩

/-! ### Syndromes -/

theorem synStep_ok {NR FCR : Nat} {syn : List F} (hF : FCR < G.N) (hs : syn.length = NR) (co : F) :
    Ok (synStep (G.fieldOps u ui) NR FCR co syn) (fun r => r.length = NR ∧
      ∀ i, i < NR → r.getD i 0 = G.al ^ (FCR + i) * syn.getD i 0 + co) := by
  unfold synStep
  rw [Gf.f_mkI G u ui hF, sb, Gf.f_mkI1, sb]
  refine Ok.bind' (rootLoop G hF syn _ (fun k s => s.length = NR ∧
    (∀ i, i < k → s.getD i 0 = G.al ^ (FCR + i) * syn.getD i 0 + co) ∧
    (∀ i, k ≤ i → s.getD i 0 = syn.getD i 0)) ⟨hs, by omega, fun _ _ => rfl⟩ ?_) ?_
  · rintro i s r hi hr ⟨h1, h2, h3⟩
    dsimp only
    rw [rd_of_lt (show i < s.length by omega), sb, Gf.f_fmaIV, sb, wr_of_lt (by omega), sb, Gf.f_mulII, sb]
    refine Ok.some ⟨⟨by rw [List.length_set, h1], ?_, ?_⟩, rfl⟩
    · intro j hj
      simp only [getD_set]
      split
      · rename_i h
        rw [getElem_eq_getD _ 0, h3 i le_rfl, hr, h.1]
      · exact h2 j (by omega)
    · intro j hj
      simp only [getD_set]
      rw [if_neg (by omega)]
      exact h3 j (by omega)
  · rintro ⟨s, r⟩ ⟨h1, h2, _⟩
    exact Ok.some ⟨h1, h2⟩

theorem updateSyndromes_ok {NR FCR b e o : Nat} {syn : List F} {get : Nat → Option F} {W : Nat → F}
    (hF : FCR < G.N) (hbe : b ≤ e) (hs : syn.length = NR)
    (hget : ∀ j, b ≤ j → j < e → get j = some (W (o + j)))
    (h0 : ∀ i, i < NR → syn.getD i 0 = ev (o + b) W (G.al ^ (FCR + i))) :
    Ok (updateSyndromes (G.fieldOps u ui) NR FCR get syn b e) (fun r => r.length = NR ∧
      ∀ i, i < NR → r.getD i 0 = ev (o + e) W (G.al ^ (FCR + i))) := by
  unfold updateSyndromes
  refine forUp_inv (fun k (r : List F) => r.length = NR ∧
      ∀ i, i < NR → r.getD i 0 = ev (o + k) W (G.al ^ (FCR + i))) hbe ⟨hs, h0⟩ ?_
  rintro k s hk1 hk2 ⟨h1, h2⟩
  rw [hget k hk1 hk2, sb]
  refine (synStep_ok G u ui hF h1 _).mono ?_
  rintro r ⟨h3, h4⟩
  refine ⟨h3, fun i hi => ?_⟩
  rw [h4 i hi, h2 i hi, ← add_assoc, ev_succ]

open Classical in
theorem countNonzero_ok {n : Nat} {a : List F} (h : n ≤ a.length) :
    countNonzero (G.fieldOps u ui) n a = some ((range n).filter fun i => a.getD i 0 ≠ 0).card := by
  unfold countNonzero
  rw [← Ok.eq_some]
  refine forUp_inv (fun k c => c = ((range k).filter fun i => a.getD i 0 ≠ 0).card) (Nat.zero_le _) (by simp) ?_
  intro k c _ hk hc
  rw [rd_of_lt (show k < a.length by omega), sb]
  refine Ok.some ?_
  rw [Finset.range_add_one, Finset.filter_insert, hc, getElem_eq_getD _ 0]
  by_cases h0 : a.getD k 0 = 0
  · rw [if_neg (not_not.2 (nz0 G u ui h0)), if_neg (not_not.2 h0), add_zero]
  · rw [if_pos (nz1 G u ui h0), if_pos h0, Finset.card_insert_of_notMem (by simp)]

open Classical in
theorem computeSyndromes_ok {NR FCR K NP dl : Nat} {syn : List F} {getD getP : Nat → Option F} {W : Nat → F}
    (hF : FCR < G.N) (hs : syn.length = NR) (hdl : 0 < dl) (hK : dl ≤ K)
    (hd : ∀ j, j < dl → getD j = some (W j)) (hp : ∀ j, j < NP → getP j = some (W (dl + j))) :
    Ok (computeSyndromes (G.fieldOps u ui) NR FCR K NP getD getP syn dl) (fun r => r.1.length = NR ∧
      (∀ i, i < NR → r.1.getD i 0 = ev (dl + NP) W (G.al ^ (FCR + i))) ∧
      r.2 = ((range NR).filter fun i => ev (dl + NP) W (G.al ^ (FCR + i)) ≠ 0).card) := by
  unfold computeSyndromes
  refine Ok.bind' (P := fun _ => True) (Ok.assertUB ⟨hdl, hK⟩ trivial) fun _ _ => ?_
  rw [hd 0 hdl, sb]
  rw [forUp_fill (g := fun _ => W 0) (by omega) (fun j l hj hl => wr_of_lt (by omega)), sb]
  have hlen : ((List.range NR).map (fun _ => W 0) ++ syn.drop NR).length = NR := by
    rw [List.length_append, List.length_map, List.length_range, List.length_drop]; omega
  refine Ok.bind' (updateSyndromes_ok G u ui (o := 0) (W := W) hF (show 1 ≤ dl by omega) hlen
    (fun j _ hj => by rw [zero_add]; exact hd j hj) (fun i hi => by
      rw [zero_add, ev_one, List.getD_append _ _ _ _ (by simpa using hi)]
      simp [hi])) ?_
  rintro s1 ⟨h1, h2⟩
  rw [zero_add] at h2
  refine Ok.bind' (updateSyndromes_ok G u ui (o := dl) (W := W) hF (Nat.zero_le NP) h1
    (fun j _ hj => hp j hj) (fun i hi => by rw [add_zero]; exact h2 i hi)) ?_
  rintro s2 ⟨h3, h4⟩
  rw [countNonzero_ok G u ui (by omega), sb]
  refine Ok.some ⟨h3, h4, ?_⟩
  dsimp only
  congr 1
  refine Finset.filter_congr fun i hi => ?_
  rw [h4 i (by simpa using hi)]

theorem computeSyndromes_ok' {NR FCR K NP dl : Nat} {syn : List F} {getD getP : Nat → Option F} {W : Nat → F}
    (hF : FCR < G.N) (hs : syn.length = NR) (hdl : 0 < dl) (hK : dl ≤ K)
    (hd : ∀ j, j < dl → getD j = some (W j)) (hp : ∀ j, j < NP → getP j = some (W (dl + j))) :
    Ok (computeSyndromes (G.fieldOps u ui) NR FCR K NP getD getP syn dl) (fun r => r.1.length = NR ∧
      (∀ i, i < NR → r.1.getD i 0 = ev (dl + NP) W (G.al ^ (FCR + i))) ∧
      ∀ s : Finset Nat, (∀ i, i ∈ s ↔ i < NR ∧ ev (dl + NP) W (G.al ^ (FCR + i)) ≠ 0) → r.2 = s.card) := by
  classical
  refine (computeSyndromes_ok G u ui hF hs hdl hK hd hp).mono ?_
  rintro r ⟨h1, h2, h3⟩
  refine ⟨h1, h2, fun s hs => ?_⟩
  rw [h3]
  congr 1
  ext i
  rw [hs, mem_filter, mem_range]

/-! ### Encoder -/

/-- The generator polynomial. -/
noncomputable def genP (FCR i : Nat) : F[X] := ∏ k ∈ range i, (X + C (G.al ^ (FCR + k)))

theorem genP_monic (FCR i : Nat) : (genP G FCR i).Monic := monic_prod_of_monic _ _ fun _ _ => monic_X_add_C _

theorem genP_natDegree (FCR i : Nat) : (genP G FCR i).natDegree = i := by
  unfold genP
  rw [natDegree_prod_of_monic _ _ fun _ _ => monic_X_add_C _]
  simp only [natDegree_X_add_C, sum_const, card_range, smul_eq_mul, mul_one]

theorem genP_root {FCR n i : Nat} (h : i < n) : (genP G FCR n).eval (G.al ^ (FCR + i)) = 0 := by
  unfold genP
  rw [eval_prod]
  refine Finset.prod_eq_zero (i := i) (by simpa using h) ?_
  simp [G.add_self]

/-- All coefficients of the generator polynomial are non-zero. -/
theorem genP_coeff_ne {FCR n j : Nat} (hn : n < G.N) (hj : j ≤ n) : (genP G FCR n).coeff j ≠ 0 := by
  intro h0
  have key := mds (S := (range (n + 1)).erase j) (x := fun k => G.al ^ k)
    (c := fun k => (genP G FCR n).coeff k * (G.al ^ k) ^ FCR) (NR := n) (by
      intro a ha b hb hab
      simp only [coe_erase, coe_range, Set.mem_sdiff, Set.mem_Iio] at ha hb
      exact G.al_pow_inj (by omega) (by omega) hab) (by
      rw [Finset.card_erase_of_mem (by simp; omega), Finset.card_range]; omega) (by
      intro i hi
      have h1 := genP_root G (FCR := FCR) hi
      rw [eval_eq_sum_range, genP_natDegree] at h1
      rw [← Finset.add_sum_erase _ _ (show j ∈ range (n + 1) by simp; omega), h0, zero_mul, zero_add] at h1
      rw [← h1]
      refine Finset.sum_congr rfl fun k _ => ?_
      rw [mul_assoc, ← pow_mul, ← pow_mul, ← pow_add, show k * FCR + k * i = (FCR + i) * k by ring, pow_mul])
  by_cases hjn : j = n
  · subst hjn
    have := (genP_monic G FCR j)
    unfold Monic leadingCoeff at this
    rw [genP_natDegree, h0] at this
    exact zero_ne_one this
  · have h1 := key n (by simp; omega)
    have := (genP_monic G FCR n)
    unfold Monic leadingCoeff at this
    rw [genP_natDegree] at this
    rw [this, one_mul, ← pow_mul] at h1
    exact G.al_pow_ne _ h1

theorem genP_succ_coeff (FCR i j : Nat) : (genP G FCR (i + 1)).coeff j =
    (if j = 0 then 0 else (genP G FCR i).coeff (j - 1)) + G.al ^ (FCR + i) * (genP G FCR i).coeff j := by
  have : genP G FCR (i + 1) = genP G FCR i * X + C (G.al ^ (FCR + i)) * genP G FCR i := by
    unfold genP; rw [Finset.prod_range_succ]; ring
  rw [this, coeff_add, coeff_C_mul]
  congr 1
  rcases j with _ | j
  · simp
  · rw [coeff_mul_X]; simp

theorem genStep_ok {NR FCR i : Nat} {tmp : List F} {r : Fin G.N} (hi : i < NR) (hl : tmp.length = NR + 1)
    (hr : G.al ^ r.1 = G.al ^ (FCR + i)) (h : ∀ j, j < i → tmp.getD j 0 = (genP G FCR i).coeff j) :
    Ok (genStep (G.fieldOps u ui) i (tmp, r)) (fun t => (t.1.length = NR + 1 ∧
      ∀ j, j < i + 1 → t.1.getD j 0 = (genP G FCR (i + 1)).coeff j) ∧ t.2.1 = (r.1 + 1) % G.N) := by
  unfold genStep
  dsimp only
  rw [Gf.f_mkV1, sb, wr_of_lt (by omega), sb]
  have h' : ∀ j, j < i + 1 → (tmp.set i 1).getD j 0 = (genP G FCR i).coeff j := by
    intro j hj
    rw [getD_set]
    split
    · rename_i hc
      rw [← hc.1]
      have := (genP_monic G FCR i)
      unfold Monic leadingCoeff at this
      rw [genP_natDegree] at this
      exact this.symm
    · exact h j (by omega)
  refine Ok.bind' (forDown_inv (fun k (t : List F) => t.length = NR + 1 ∧
      (∀ j, j < k + 1 → t.getD j 0 = (genP G FCR i).coeff j) ∧
      (∀ j, k < j → j < i + 1 → t.getD j 0 = (genP G FCR (i + 1)).coeff j)) i _
      ⟨by rw [List.length_set, hl], h', by omega⟩ ?_) ?_
  · rintro j t hj ⟨h1, h2, h3⟩
    rw [rd_of_lt (show 1 + j < t.length by omega), sb, rd_of_lt (show 1 + j - 1 < t.length by omega), sb,
      Gf.f_fmaIV, sb, wr_of_lt (by omega)]
    refine Ok.some ⟨by rw [List.length_set, h1], ?_, ?_⟩
    · intro k hk
      rw [getD_set, if_neg (by omega)]
      exact h2 k (by omega)
    · intro k hk1 hk2
      rw [getD_set]
      by_cases hkj : 1 + j = k
      · rw [if_pos ⟨hkj, by omega⟩, getElem_eq_getD _ 0, getElem_eq_getD _ 0, h2 _ (by omega), h2 _ (by omega),
          genP_succ_coeff, if_neg (by omega), hr, ← hkj, show 1 + j - 1 = j by omega, add_comm]
      · rw [if_neg (by tauto)]
        exact h3 k (by omega) hk2
  · rintro t ⟨h1, h2, h3⟩
    rw [rd_of_lt (show 0 < t.length by omega), sb, Gf.f_mulVI, sb, wr_of_lt (by omega), sb, Gf.f_mkI1, sb,
      Gf.f_mulII, sb]
    refine Ok.some ⟨⟨by rw [List.length_set, h1], ?_⟩, rfl⟩
    intro j hj
    simp only [getD_set]
    by_cases h0 : 0 = j
    · rw [if_pos ⟨h0, by omega⟩, getElem_eq_getD _ 0, h2 0 (by omega), ← h0, genP_succ_coeff, if_pos rfl, zero_add,
        hr, mul_comm]
    · rw [if_neg (by tauto)]
      exact h3 j (by omega) hj

/-- The encoder's constructor. -/
theorem encInit_ok {NR FCR : Nat} (hF : FCR < G.N) (hNR : NR < G.N) :
    Ok (encInit (G.fieldOps u ui) NR FCR) (fun gen => gen.length = NR + 1 ∧
      ∀ j (h : j < gen.length), G.al ^ (gen[j]).1 = (genP G FCR NR).coeff j) := by
  unfold encInit
  rw [Gf.f_mkI G u ui hF, sb]
  refine Ok.bind' (rootLoop G hF _ _ (fun k (t : List F) => t.length = NR + 1 ∧
    ∀ j, j < k → t.getD j 0 = (genP G FCR k).coeff j) ⟨by rw [List.length_replicate], by omega⟩ ?_) ?_
  · rintro i s r hi hr ⟨h1, h2⟩
    exact genStep_ok G u ui hi h1 hr h2
  · rintro ⟨tmp, r⟩ ⟨h1, h2⟩
    dsimp only at h1 h2 ⊢
    rw [Gf.f_mkV1, sb, wr_of_lt (by omega), sb]
    have hv : ∀ j, j < NR + 1 → (tmp.set NR 1).getD j 0 = (genP G FCR NR).coeff j := by
      intro j hj
      rw [getD_set]
      split
      · rename_i hc
        rw [← hc.1]
        have := (genP_monic G FCR NR)
        unfold Monic leadingCoeff at this
        rw [genP_natDegree] at this
        exact this.symm
      · exact h2 j (by omega)
    refine Ok.mono (forUp_inv (fun k (g : List (Fin G.N)) => g.length = NR + 1 ∧
      ∀ j (h : j < g.length), j < k → G.al ^ (g[j]).1 = (genP G FCR NR).coeff j) (Nat.zero_le _)
      ⟨by rw [List.length_replicate], by omega⟩ ?_) ?_
    · rintro k g _ hk ⟨g1, g2⟩
      have hne : (tmp.set NR 1).getD k 0 ≠ 0 := by
        rw [hv k hk]; exact genP_coeff_ne G hNR (by omega)
      rw [rd_of_lt (show k < (tmp.set NR 1).length by rw [List.length_set]; omega), sb, getElem_eq_getD _ 0,
        Gf.f_index G u ui hne, sb, wr_of_lt (by omega)]
      refine Ok.some ⟨by rw [List.length_set, g1], ?_⟩
      intro j hj hjk
      rw [List.getElem_set]
      split
      · rename_i hc
        dsimp only
        rw [G.al_log _ hne, hv k hk, hc]
      · exact g2 j (by rw [List.length_set] at hj; exact hj) (by omega)
    · rintro g ⟨g1, g2⟩
      exact ⟨g1, fun j h => g2 j h (by omega)⟩

theorem sum_gen {NR FCR i : Nat} (hi : i < NR) :
    (genP G FCR NR).eval (G.al ^ (FCR + i)) = 0 ∧
    ev NR (fun j => (genP G FCR NR).coeff (NR - 1 - j)) (G.al ^ (FCR + i)) = (G.al ^ (FCR + i)) ^ NR := by
  have h1 := genP_root G (FCR := FCR) hi
  refine ⟨h1, ?_⟩
  rw [eval_eq_sum_range, genP_natDegree, Finset.sum_range_succ] at h1
  have hm := (genP_monic G FCR NR)
  unfold Monic leadingCoeff at hm
  rw [genP_natDegree] at hm
  rw [hm, one_mul] at h1
  have h2 : ev NR (fun j => (genP G FCR NR).coeff (NR - 1 - j)) (G.al ^ (FCR + i)) =
      ∑ k ∈ range NR, (genP G FCR NR).coeff k * (G.al ^ (FCR + i)) ^ k := by
    unfold ev
    rw [← Finset.sum_range_reflect]
    refine Finset.sum_congr rfl fun j hj => ?_
    rw [mem_range] at hj
    dsimp only
    rw [show NR - 1 - (NR - 1 - j) = j by omega]
  rw [h2]
  exact G.eq_of_add h1

theorem encStep_ok {NR FCR i : Nat} {gen : List (Fin G.N)} {data p : List F} (hNR : 0 < NR)
    (hg : gen.length = NR + 1) (hgen : ∀ j (h : j < gen.length), G.al ^ (gen[j]).1 = (genP G FCR NR).coeff j)
    (hi : i < data.length) (hp : NR ≤ p.length) :
    Ok (encStep (G.fieldOps u ui) NR gen data i p) (fun q => q.length = p.length ∧
      q.drop NR = p.drop NR ∧
      ∀ j, j < NR → q.getD j 0 = (if j + 1 < NR then p.getD (j + 1) 0 else 0) +
        (data.getD i 0 + p.getD 0 0) * (genP G FCR NR).coeff (NR - 1 - j)) := by
  unfold encStep
  rw [rd_of_lt hi, sb, rd_of_lt (show 0 < p.length by omega), sb, Gf.f_add, sb, getElem_eq_getD _ 0,
    getElem_eq_getD _ 0]
  set fb := data.getD i 0 + p.getD 0 0 with hfb
  have drop_set : ∀ (l : List F) k v, k < NR → (l.set k v).drop NR = l.drop NR := by
    intro l k v hk
    rw [List.drop_set, if_pos hk]
  by_cases h0 : fb = 0
  · rw [if_neg (not_not.2 (nz0 G u ui h0))]
    refine Ok.bind' (forUp_inv (fun k (q : List F) => q.length = p.length ∧ q.drop NR = p.drop NR ∧
      (∀ j, j + 1 < k → q.getD j 0 = p.getD (j + 1) 0) ∧ (∀ j, k ≤ j + 1 → q.getD j 0 = p.getD j 0)) (by omega)
      ⟨rfl, rfl, by omega, fun _ _ => rfl⟩ ?_) ?_
    · rintro k q hk1 hk2 ⟨h1, hd, h2, h3⟩
      rw [rd_of_lt (show k < q.length by omega), sb, wr_of_lt (by omega)]
      refine Ok.some ⟨by rw [List.length_set, h1], by rw [drop_set _ _ _ (by omega), hd], ?_, ?_⟩
      · intro j hj
        rw [getD_set]
        by_cases hjk : k - 1 = j
        · rw [if_pos ⟨hjk, by omega⟩, getElem_eq_getD _ 0, h3 k (by omega), ← hjk, show k - 1 + 1 = k by omega]
        · rw [if_neg (by tauto)]; exact h2 j (by omega)
      · intro j hj
        rw [getD_set, if_neg (by omega)]
        exact h3 j (by omega)
    · rintro q ⟨h1, hd, h2, h3⟩
      rw [Gf.f_mkV0, sb, wr_of_lt (by omega)]
      refine Ok.some ⟨by rw [List.length_set, h1], by rw [drop_set _ _ _ (by omega), hd], ?_⟩
      intro j hj
      rw [getD_set, h0, zero_mul, add_zero]
      by_cases hjn : NR - 1 = j
      · rw [if_pos ⟨hjn, by omega⟩, if_neg (by omega)]
      · rw [if_neg (by tauto), if_pos (by omega), h2 j (by omega)]
  · rw [if_pos (nz1 G u ui h0), Gf.f_index G u ui h0, sb]
    have hal := G.al_log fb h0
    refine Ok.bind' (forUp_inv (fun k (q : List F) => q.length = p.length ∧ q.drop NR = p.drop NR ∧
      (∀ j, j + 1 < k → q.getD j 0 = p.getD (j + 1) 0 + fb * (genP G FCR NR).coeff (NR - 1 - j)) ∧
      (∀ j, k ≤ j + 1 → q.getD j 0 = p.getD j 0)) (by omega)
      ⟨rfl, rfl, by omega, fun _ _ => rfl⟩ ?_) ?_
    · rintro k q hk1 hk2 ⟨h1, hd, h2, h3⟩
      rw [rd_of_lt (show NR - k < gen.length by omega), sb, rd_of_lt (show k < q.length by omega), sb,
        Gf.f_fmaII, sb, wr_of_lt (by omega)]
      refine Ok.some ⟨by rw [List.length_set, h1], by rw [drop_set _ _ _ (by omega), hd], ?_, ?_⟩
      · intro j hj
        rw [getD_set]
        by_cases hjk : k - 1 = j
        · rw [if_pos ⟨hjk, by omega⟩, getElem_eq_getD (a := q) _ 0, h3 k (by omega), ← hjk, show k - 1 + 1 = k by omega,
            hgen, show NR - 1 - (k - 1) = NR - k by omega]
          dsimp only
          rw [hal, add_comm]
        · rw [if_neg (by tauto)]; exact h2 j (by omega)
      · intro j hj
        rw [getD_set, if_neg (by omega)]
        exact h3 j (by omega)
    · rintro q ⟨h1, hd, h2, h3⟩
      rw [rd_of_lt (show 0 < gen.length by omega), sb, Gf.f_mulII, sb, Gf.f_value, sb, wr_of_lt (by omega)]
      refine Ok.some ⟨by rw [List.length_set, h1], by rw [drop_set _ _ _ (by omega), hd], ?_⟩
      intro j hj
      rw [getD_set]
      by_cases hjn : NR - 1 = j
      · rw [if_pos ⟨hjn, by omega⟩, if_neg (by omega)]
        dsimp only
        rw [G.al_pow_mod, pow_add, hgen, hal, show NR - 1 - j = 0 by omega, zero_add, mul_comm]
      · rw [if_neg (by tauto), if_pos (by omega), h2 j (by omega)]

/-- The encoder: data followed by parity vanishes at the roots. -/
theorem encode_ok {NR FCR dl : Nat} {gen : List (Fin G.N)} {data p : List F} (hNR : 0 < NR)
    (hg : gen.length = NR + 1) (hgen : ∀ j (h : j < gen.length), G.al ^ (gen[j]).1 = (genP G FCR NR).coeff j)
    (hdl : 0 < dl) (hdlK : dl ≤ G.N - NR) (hd : dl ≤ data.length) (hp : NR ≤ p.length) :
    Ok (encode (G.fieldOps u ui) NR gen data p dl) (fun q => q.length = p.length ∧ q.drop NR = p.drop NR ∧
      ∀ i, i < NR → ev dl (fun j => data.getD j 0) (G.al ^ (FCR + i)) * (G.al ^ (FCR + i)) ^ NR =
        ev NR (fun j => q.getD j 0) (G.al ^ (FCR + i))) := by
  unfold encode
  refine Ok.bind' (P := fun _ => True) (Ok.assertUB ⟨hdl, hdlK⟩ trivial) fun _ _ => ?_
  rw [forUp_fill (g := fun _ => (0 : F)) hp
    (fun j l hj hl => by rw [Gf.f_mkV0, sb, wr_of_lt (by omega)]), sb]
  refine forUp_inv (fun k (q : List F) => q.length = p.length ∧ q.drop NR = p.drop NR ∧
      ∀ i, i < NR → ev k (fun j => data.getD j 0) (G.al ^ (FCR + i)) * (G.al ^ (FCR + i)) ^ NR =
        ev NR (fun j => q.getD j 0) (G.al ^ (FCR + i))) (Nat.zero_le _) ⟨?_, ?_, ?_⟩ ?_
  · rw [List.length_append, List.length_map, List.length_range, List.length_drop]; omega
  · rw [List.drop_append_of_le_length (by simp), List.drop_eq_nil_of_le (by simp), List.nil_append]
  · intro i hi
    rw [ev_zero, zero_mul, eq_comm, ev_congr (d := fun _ => 0)]
    · simp [ev]
    · intro j hj
      rw [List.getD_append _ _ _ _ (by simpa using hj)]
      simp [hj]
  · rintro k q _ hk ⟨h1, h2, h3⟩
    refine (encStep_ok G u ui hNR hg hgen (by omega) (by omega)).mono ?_
    rintro q' ⟨g1, g2, g3⟩
    refine ⟨by omega, by rw [g2, h2], ?_⟩
    intro i hi
    obtain ⟨n, rfl⟩ : ∃ n, NR = n + 1 := ⟨NR - 1, by omega⟩
    set β := G.al ^ (FCR + i) with hβ
    have h4 := h3 i hi
    have hs := (sum_gen G (FCR := FCR) hi).2
    rw [← hβ] at hs
    have e1 : ev (n + 1) (fun j => q'.getD j 0) β =
        ev (n + 1) (fun j => if j + 1 < n + 1 then q.getD (j + 1) 0 else 0) β +
        (data.getD k 0 + q.getD 0 0) * β ^ (n + 1) := by
      rw [← hs, ev_congr (d := fun j => (if j + 1 < n + 1 then q.getD (j + 1) 0 else 0) +
        (data.getD k 0 + q.getD 0 0) * (genP G FCR (n + 1)).coeff (n + 1 - 1 - j)) (fun j hj => g3 j hj), ev_add]
      congr 1
      unfold ev
      rw [Finset.mul_sum]
      exact Finset.sum_congr rfl fun j _ => by ring
    have e2 : ev (n + 1) (fun j => if j + 1 < n + 1 then q.getD (j + 1) 0 else 0) β =
        β * ev n (fun j => q.getD (j + 1) 0) β := by
      rw [ev_succ, if_neg (by omega), add_zero]
      congr 1
      exact ev_congr (fun j hj => by rw [if_pos (by omega)]) β
    have e3 : ev (n + 1) (fun j => q.getD j 0) β = q.getD 0 0 * β ^ n + ev n (fun j => q.getD (j + 1) 0) β :=
      ev_shift n (fun j => q.getD j 0) β
    have h5 := G.two_eq
    rw [ev_succ, e1, e2]
    linear_combination β * h4 + β * e3

end Verif.RS
