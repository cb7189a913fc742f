import Verif.RS.Search
/- Forney's formula, the erasure locator, trimming of the degree. -/
namespace Verif.RS
open Polynomial Finset

variable {F : Type} [Field F] (G : Gf F) (u : F) (ui : Fin G.N)

theorem nz0 {x : F} (h : x = 0) : (G.fieldOps u ui).num x = 0 := G.num_eq_zero.2 h
theorem nz1 {x : F} (h : ¬ x = 0) : ¬ (G.fieldOps u ui).num x = 0 := mt G.num_eq_zero.1 h

theorem evalCoeff_ok {syn loc : List F} {i : Nat} (hs : i < syn.length) (hl : i < loc.length) :
    evalCoeff (G.fieldOps u ui) syn loc i = some ((pl loc * pl syn).coeff i) := by
  unfold evalCoeff
  rw [rd_of_lt hs, sb, rd_of_lt (show 0 < loc.length by omega), sb, Gf.f_mulVV, sb]
  rw [← Ok.eq_some]
  refine Ok.mono (forUp_inv (fun k e => e = ∑ j ∈ range k, loc.getD j 0 * syn.getD (i - j) 0) (by omega)
    (by rw [Finset.sum_range_one, Nat.sub_zero, getElem_eq_getD _ 0, getElem_eq_getD _ 0, mul_comm]) ?_) ?_
  · intro k e hk1 hk2 he
    rw [rd_of_lt (show i - k < syn.length by omega), sb, rd_of_lt (show k < loc.length by omega), sb, Gf.f_mulVV, sb,
      Gf.f_add]
    refine Ok.some ?_
    rw [he, Finset.sum_range_succ, getElem_eq_getD _ 0, getElem_eq_getD _ 0, mul_comm (syn.getD _ _)]
  · rintro e rfl
    rw [coeff_mul, Finset.Nat.sum_antidiagonal_eq_sum_range_succ (fun a b => (pl loc).coeff a * (pl syn).coeff b)]
    simp only [coeff_pl]

/-- `evaluator` and its degree. -/
structure IsEv (NR : Nat) (p : F[X]) (deg : Nat) (r : List F × Int) : Prop where
  len : r.1.length = NR
  val : ∀ i, i ≤ min deg (NR - 1) → r.1.getD i 0 = p.coeff i
  lo : -1 ≤ r.2
  hi : r.2 ≤ (min deg (NR - 1) : Nat)
  top : ∀ i : Nat, i ≤ min deg (NR - 1) → r.2 < i → p.coeff i = 0

theorem computeEvaluator_ok {NR deg : Nat} {syn loc ev : List F} (hNR : 0 < NR) (hs : syn.length = NR)
    (hl : deg < loc.length) (he : ev.length = NR) :
    Ok (computeEvaluator (G.fieldOps u ui) NR syn loc deg ev) (IsEv NR (pl loc * pl syn) deg) := by
  unfold computeEvaluator
  refine Ok.mono (forUp_inv (fun k (r : List F × Int) => r.1.length = NR ∧
      (∀ i, i < k → r.1.getD i 0 = (pl loc * pl syn).coeff i) ∧ -1 ≤ r.2 ∧ r.2 < k ∧
      ∀ i : Nat, i < k → r.2 < i → (pl loc * pl syn).coeff i = 0) (Nat.zero_le _) ?_ ?_) ?_
  · exact ⟨he, by omega, le_rfl, by simp, by omega⟩
  · rintro k ⟨e, d⟩ _ hk ⟨h1, h2, h3, h4, h5⟩
    dsimp only at h1 h2 h3 h4 h5 ⊢
    rw [evalCoeff_ok G u ui (by omega) (by omega), sb, wr_of_lt (by omega), sb]
    refine Ok.some ⟨by rw [List.length_set, h1], ?_, ?_, ?_, ?_⟩
    · intro i hi
      simp only [getD_set]
      split
      · rename_i h; rw [h.1]
      · exact h2 i (by omega)
    · dsimp only; split <;> omega
    · dsimp only; split <;> omega
    · intro i hi
      dsimp only
      by_cases h : (pl loc * pl syn).coeff k = 0
      · rw [if_neg (not_not.2 (nz0 G u ui h))]
        intro hc
        by_cases hik : i = k
        · rw [hik]; exact h
        · exact h5 i (by omega) hc
      · rw [if_pos (nz1 G u ui h)]; intro hc; omega
  · rintro ⟨e, d⟩ ⟨h1, h2, h3, h4, h5⟩
    exact ⟨h1, fun i hi => h2 i (by omega), h3, by dsimp only at h4 ⊢; omega, fun i hi => h5 i (by omega)⟩

theorem evalAt_ok {NR deg : Nat} {p : F[X]} {r : List F × Int} (hNR : 0 < NR) (h : IsEv NR p deg r)
    (root : Fin G.N) :
    evalAt (G.fieldOps u ui) r.1 r.2 root =
      some (∑ i ∈ range (min deg (NR - 1) + 1), p.coeff i * (G.al ^ root.1) ^ i) := by
  obtain ⟨ev, d⟩ := r
  have hlen := h.len
  have hlo := h.lo
  have hhi := h.hi
  dsimp only at hlen hlo hhi ⊢
  unfold evalAt
  rw [rd_of_lt (show 0 < ev.length by omega), sb]
  have hbody : Ok (forUp 1 (d + 1).toNat (ev[0], root) fun j (e, tmp) => do
      let c ← rd ev j
      let p ← (G.fieldOps u ui).mulVI c tmp
      let e ← (G.fieldOps u ui).add e p
      let tmp ← (G.fieldOps u ui).mulII tmp root
      return (e, tmp))
      (fun st => st.1 = ∑ i ∈ range (min deg (NR - 1) + 1), p.coeff i * (G.al ^ root.1) ^ i) := by
    have e0 : ev[0] = p.coeff 0 := by rw [getElem_eq_getD _ 0]; exact h.val 0 (by omega)
    by_cases hd : d < 1
    · rw [forUp_ge (by omega)]
      refine Ok.some ?_
      rw [Finset.sum_range_succ', Finset.sum_eq_zero, zero_add, pow_zero, mul_one]
      · exact e0
      · intro i hi
        rw [mem_range] at hi
        rw [h.top (i + 1) (by omega) (by dsimp only; omega), zero_mul]
    · refine Ok.mono (forUp_inv (fun k (st : F × Fin G.N) =>
          st.1 = ∑ i ∈ range k, p.coeff i * (G.al ^ root.1) ^ i ∧ G.al ^ st.2.1 = (G.al ^ root.1) ^ k)
          (by omega) ?_ ?_) ?_
      · exact ⟨by rw [Finset.sum_range_one, pow_zero, mul_one, e0], by rw [pow_one]⟩
      · rintro k ⟨e, t⟩ hk1 hk2 ⟨h1, h2⟩
        dsimp only at h1 h2 ⊢
        rw [rd_of_lt (show k < ev.length by omega), sb, Gf.f_mulVI, sb, Gf.f_add, sb, Gf.f_mulII, sb]
        refine Ok.some ⟨?_, ?_⟩
        · dsimp only
          rw [Finset.sum_range_succ, h1, h2, getElem_eq_getD _ 0, h.val k (by omega)]
        · dsimp only
          rw [G.al_pow_mod, pow_add, h2, pow_succ]
      · rintro ⟨e, t⟩ ⟨h1, _⟩
        dsimp only at h1 ⊢
        rw [h1]
        apply Finset.sum_subset
        · intro i; simp only [mem_range]; omega
        · intro i hi1 hi2
          simp only [mem_range] at hi1 hi2
          rw [h.top i (by omega) (by dsimp only; omega), zero_mul]
  obtain ⟨st, hst, hv⟩ := hbody
  rw [hst, sb, ← hv]
  rfl

theorem sum_range_even (f : Nat → F) (hf : ∀ i, i % 2 = 1 → f i = 0) (h : Nat) :
    ∑ i ∈ range (2 * h), f i = ∑ k ∈ range h, f (2 * k) := by
  induction h with
  | zero => simp
  | succ h ih =>
    rw [show 2 * (h + 1) = 2 * h + 1 + 1 by ring, Finset.sum_range_succ, Finset.sum_range_succ, ih,
      Finset.sum_range_succ, hf (2 * h + 1) (by omega), add_zero]

include G in
theorem natCast_two (k : Nat) : ((2 * k : Nat) : F) = 0 := by
  rw [Nat.cast_mul, Nat.cast_ofNat, G.two_eq, zero_mul]

theorem derivAt_ok {loc : List F} {count : Nat} (hc : 0 < count) (hl : count < loc.length)
    (hd : (pl loc).natDegree ≤ count) (root : Fin G.N) :
    derivAt (G.fieldOps u ui) loc count root = some ((derivative (pl loc)).eval (G.al ^ root.1)) := by
  set r := G.al ^ root.1 with hr
  have hder : (derivative (pl loc)).eval r = ∑ k ∈ range ((count + 1) / 2), loc.getD (2 * k + 1) 0 * (r ^ 2) ^ k := by
    have hdd : (derivative (pl loc)).natDegree < 2 * ((count + 1) / 2) := by
      have := natDegree_derivative_le (pl loc)
      omega
    rw [eval_eq_sum_range' hdd, sum_range_even]
    · refine Finset.sum_congr rfl fun k _ => ?_
      rw [coeff_derivative, coeff_pl, pow_mul]
      have : ((2 * k : Nat) : F) + 1 = 1 := by rw [natCast_two G, zero_add]
      rw [this, mul_one]
    · intro i hi
      rw [coeff_derivative]
      have : (i : F) + 1 = 0 := by
        have h1 : ((i + 1 : Nat) : F) = 0 := by
          rw [show i + 1 = 2 * ((i + 1) / 2) by omega]; exact natCast_two G _
        rw [← h1, Nat.cast_add, Nat.cast_one]
      rw [this, mul_zero, zero_mul]
  unfold derivAt
  rw [rd_of_lt (show 1 < loc.length by omega), sb, Gf.f_mulII, sb]
  have hbody : Ok (forUp 1 ((count + 1) / 2) (loc[1], (⟨(root.1 + root.1) % G.N, Nat.mod_lt _ G.N_pos⟩ : Fin G.N))
      fun k (d, tmp2) => do
      let c ← rd loc (2 * k + 1)
      let p ← (G.fieldOps u ui).mulVI c tmp2
      let d ← (G.fieldOps u ui).add d p
      let tmp2 ← (G.fieldOps u ui).mulII tmp2 ⟨(root.1 + root.1) % G.N, Nat.mod_lt _ G.N_pos⟩
      return (d, tmp2))
      (fun st => st.1 = (derivative (pl loc)).eval r) := by
    refine Ok.mono (forUp_inv (fun k (st : F × Fin G.N) =>
        st.1 = ∑ k ∈ range k, loc.getD (2 * k + 1) 0 * (r ^ 2) ^ k ∧ G.al ^ st.2.1 = (r ^ 2) ^ k)
        (by omega) ?_ ?_) ?_
    · refine ⟨by rw [Finset.sum_range_one, pow_zero, mul_one, getElem_eq_getD _ 0], ?_⟩
      dsimp only
      rw [G.al_pow_mod, pow_one, pow_add, ← hr, sq]
    · rintro k ⟨e, t⟩ hk1 hk2 ⟨h1, h2⟩
      dsimp only at h1 h2 ⊢
      rw [rd_of_lt (show 2 * k + 1 < loc.length by omega), sb, Gf.f_mulVI, sb, Gf.f_add, sb, Gf.f_mulII, sb]
      refine Ok.some ⟨?_, ?_⟩
      · dsimp only
        rw [Finset.sum_range_succ, h1, h2, getElem_eq_getD _ 0]
      · dsimp only
        rw [G.al_pow_mod, pow_add, h2, G.al_pow_mod, pow_add, ← hr, pow_succ (r ^ 2) k, sq]
    · rintro ⟨e, t⟩ ⟨h1, _⟩
      rw [hder]; exact h1
  obtain ⟨st, hst, hv⟩ := hbody
  rw [hst, sb, ← hv]
  rfl

theorem powLoop (root : Fin G.N) (n : Nat) (m : Fin G.N) :
    Ok (forUp 1 n m fun _ m => (G.fieldOps u ui).mulII m root)
      (fun m' => G.al ^ m'.1 = G.al ^ m.1 * (G.al ^ root.1) ^ (n - 1)) := by
  by_cases hn : n ≤ 1
  · rw [forUp_ge hn]
    exact Ok.some (by rw [show n - 1 = 0 by omega, pow_zero, mul_one])
  · refine forUp_inv (fun k (m' : Fin G.N) => G.al ^ m'.1 = G.al ^ m.1 * (G.al ^ root.1) ^ (k - 1)) (by omega)
      (by simp) ?_
    intro k m' hk1 hk2 h
    rw [Gf.f_mulII]
    refine Ok.some ?_
    dsimp only
    rw [G.al_pow_mod, pow_add, h, show k + 1 - 1 = (k - 1) + 1 by omega, pow_succ]; ring

theorem magnitude_ok {NR FCR deg : Nat} {loc : List F} {A : Finset Nat} {q : F[X]} {r : List F × Int}
    {l : Fin G.N} (hNR : 0 < NR) (hA : ∀ p ∈ A, p < G.N) (hc : pl loc = sigma (xl G) A) (hcard : A.card = deg)
    (hl : deg < loc.length) (hev : IsEv NR q deg r) (hmem : l.1 ∈ A) :
    Ok (magnitude (G.fieldOps u ui) FCR loc l deg r.1 r.2) (fun m =>
      m * xl G l.1 ^ FCR * (sigma (xl G) (A.erase l.1)).eval (xl G l.1)⁻¹ =
        ∑ i ∈ range (min deg (NR - 1) + 1), q.coeff i * (xl G l.1)⁻¹ ^ i) := by
  have hdeg : 0 < deg := by rw [← hcard]; exact Finset.card_pos.2 ⟨_, hmem⟩
  unfold magnitude
  rw [Gf.f_mkI1, sb, Gf.f_mulII, sb, evalAt_ok G u ui hNR hev, sb]
  have hroot : G.al ^ ((l.1 + 1) % G.N) = (xl G l.1)⁻¹ := by rw [G.al_pow_mod, xl_inv]
  simp only [hroot]
  have hxx := mul_inv_cancel₀ (xl_ne G l.1)
  set x := xl G l.1 with hx
  set e := ∑ i ∈ range (min deg (NR - 1) + 1), q.coeff i * x⁻¹ ^ i with he
  by_cases he0 : e = 0
  · rw [if_pos (nz0 G u ui he0), Gf.f_mkV0]
    exact Ok.some (by rw [zero_mul, zero_mul, he0])
  · rw [if_neg (nz1 G u ui he0), derivAt_ok G u ui hdeg hl (by rw [hc, sigma_natDegree (xl_ne G), hcard]), sb]
    simp only [hroot]
    have hσ : (sigma (xl G) (A.erase l.1)).eval x⁻¹ ≠ 0 := eval_sigma_ne (xl_ne G) (xl_inj G hA) hmem
    have hder : (derivative (pl loc)).eval x⁻¹ = x * (sigma (xl G) (A.erase l.1)).eval x⁻¹ := by
      rw [hc, eval_deriv_sigma (xl_ne G) hmem, G.neg_eq]
    have hd0 : (derivative (pl loc)).eval x⁻¹ ≠ 0 := by
      rw [hder]; exact mul_ne_zero (xl_ne G _) hσ
    rw [Gf.f_index G u ui he0, sb, Gf.f_index G u ui hd0, sb, Gf.f_divII, sb]
    have hm0 : G.al ^ ((G.log e + G.N - G.log ((derivative (pl loc)).eval x⁻¹)) % G.N) =
        e / (derivative (pl loc)).eval x⁻¹ := by
      rw [G.al_div (G.log_lt _), G.al_log _ he0, G.al_log _ hd0]
    have fin : ∀ m : F, m * x⁻¹ = e / (derivative (pl loc)).eval x⁻¹ * x⁻¹ ^ FCR →
        m * x ^ FCR * (sigma (xl G) (A.erase l.1)).eval x⁻¹ = e := by
      intro m hm
      rw [hder] at hm
      have h1 : x ^ FCR * x⁻¹ ^ FCR = 1 := by rw [← mul_pow, hxx, one_pow]
      have h2 : e / (x * (sigma (xl G) (A.erase l.1)).eval x⁻¹) * (x * (sigma (xl G) (A.erase l.1)).eval x⁻¹) = e :=
        div_mul_cancel₀ _ (mul_ne_zero (xl_ne G _) hσ)
      set σ := (sigma (xl G) (A.erase l.1)).eval x⁻¹
      linear_combination (x * x ^ FCR * σ) * hm + (-m * x ^ FCR * σ) * hxx + e * h1 + x⁻¹ ^ FCR * x ^ FCR * h2
    set m0 : Fin G.N := ⟨(G.log e + G.N - G.log ((derivative (pl loc)).eval x⁻¹)) % G.N, Nat.mod_lt _ G.N_pos⟩
    by_cases h0 : FCR = 0
    · rw [if_pos h0, Gf.f_divII, sb, if_neg (by omega), sb, Gf.f_value]
      refine Ok.some (fin _ ?_)
      dsimp only
      rw [G.al_div (Nat.mod_lt _ G.N_pos), hroot, hm0, h0, pow_zero, mul_one]
      exact div_mul_cancel₀ _ (inv_ne_zero (xl_ne G _))
    · rw [if_neg h0, sb]
      by_cases h1 : FCR > 1
      · rw [if_pos h1]
        refine Ok.bind' (powLoop G u ui _ FCR m0) ?_
        intro m hm
        rw [Gf.f_value]
        refine Ok.some (fin _ ?_)
        dsimp only at hm
        rw [hm, hm0, hroot, mul_assoc, ← pow_succ, show FCR - 1 + 1 = FCR by omega]
      · rw [if_neg h1, sb, Gf.f_value]
        refine Ok.some (fin _ ?_)
        rw [hm0, show FCR = 1 by omega, pow_one]

theorem computeMagnitudes_ok {NR FCR deg : Nat} {loc : List F} {A : Finset Nat} {q : F[X]} {r : List F × Int}
    {locs : List (Fin G.N)} {mags : List F} (hNR : 0 < NR) (hA : ∀ p ∈ A, p < G.N) (hc : pl loc = sigma (xl G) A)
    (hcard : A.card = deg) (hl : deg < loc.length) (hev : IsEv NR q deg r) (hlocs : deg ≤ locs.length)
    (hmags : deg ≤ mags.length) (hmem : ∀ i (h : i < locs.length), i < deg → (locs[i]).1 ∈ A) :
    Ok (computeMagnitudes (G.fieldOps u ui) FCR loc locs deg r.1 r.2 mags) (fun ms =>
      ms.length = mags.length ∧ ∀ i (h : i < locs.length), i < deg →
        ms.getD i 0 * xl G (locs[i]).1 ^ FCR * (sigma (xl G) (A.erase (locs[i]).1)).eval (xl G (locs[i]).1)⁻¹ =
        ∑ j ∈ range (min deg (NR - 1) + 1), q.coeff j * (xl G (locs[i]).1)⁻¹ ^ j) := by
  unfold computeMagnitudes
  refine forUp_inv (fun k (ms : List F) => ms.length = mags.length ∧ ∀ i (h : i < locs.length), i < k →
        ms.getD i 0 * xl G (locs[i]).1 ^ FCR * (sigma (xl G) (A.erase (locs[i]).1)).eval (xl G (locs[i]).1)⁻¹ =
        ∑ j ∈ range (min deg (NR - 1) + 1), q.coeff j * (xl G (locs[i]).1)⁻¹ ^ j) (Nat.zero_le _)
    ⟨rfl, by omega⟩ ?_
  rintro k ms _ hk ⟨h1, h2⟩
  rw [rd_of_lt (show k < locs.length by omega), sb]
  refine Ok.bind' (magnitude_ok G u ui hNR hA hc hcard hl hev (hmem k (by omega) hk)) ?_
  intro m hm
  rw [wr_of_lt (by omega)]
  refine Ok.some ⟨by rw [List.length_set, h1], ?_⟩
  intro i hi hik
  simp only [getD_set]
  by_cases hki : k = i
  · subst hki
    rw [if_pos ⟨rfl, by omega⟩]; exact hm
  · rw [if_neg (by tauto)]; exact h2 i hi (by omega)

/-! ### The erasure locator -/

theorem erasureLocator_ok {NR count : Nat} {er : List (Fin G.N)} (hcount : count ≤ NR) (hlen : count ≤ er.length)
    (hnd : (posOf G er count).Nodup) :
    Ok (erasureLocator (G.fieldOps u ui) NR er count) (fun loc => loc.length = NR + 1 ∧
      pl loc = sigma (xl G) (posOf G er count).toFinset) := by
  have hN := G.N_ge
  have hq : ∀ e : Fin G.N, G.al ^ ((G.N - 1 + G.N - e.1) % G.N) = xl G e.1 := by
    intro e
    have he := e.2
    rw [xl_eq G he, show G.N - 1 + G.N - e.1 = (G.N - 1 - e.1) + G.N by omega, Nat.add_mod_right, G.al_pow_mod]
  unfold erasureLocator
  rw [Gf.f_mkV1, sb, wr_of_lt (by simp), sb]
  have hinit : Ok (forUp 1 (NR + 1) ((List.replicate (NR + 1) (G.fieldOps u ui).junk).set 0 1) fun i loc => do
      let zero ← (G.fieldOps u ui).mkV 0
      wr loc i zero) (fun loc => loc.length = NR + 1 ∧ ∀ i, loc.getD i 0 = if i = 0 then 1 else 0) := by
    refine Ok.mono (forUp_inv (fun k (loc : List F) => loc.length = NR + 1 ∧
      ∀ i, i < k → loc.getD i 0 = if i = 0 then 1 else 0) (by omega)
      ⟨by rw [List.length_set, List.length_replicate], ?_⟩ ?_) ?_
    · intro i hi
      have : i = 0 := by omega
      subst this
      rw [getD_set, if_pos ⟨rfl, by simp⟩, if_pos rfl]
    · rintro k loc hk1 hk2 ⟨h1, h2⟩
      rw [Gf.f_mkV0, sb, wr_of_lt (by omega)]
      refine Ok.some ⟨by rw [List.length_set, h1], ?_⟩
      intro i hi
      rw [getD_set]
      split
      · rename_i h; rw [if_neg (by omega)]
      · exact h2 i (by omega)
    · rintro loc ⟨h1, h2⟩
      refine ⟨h1, fun i => ?_⟩
      by_cases hi : i < NR + 1
      · exact h2 i hi
      · rw [List.getD_eq_default _ _ (by omega), if_neg (by omega)]
  refine Ok.bind' hinit ?_
  rintro loc ⟨hl, hv⟩
  rw [Gf.f_mkI G u ui (show (G.fieldOps u ui).N - 1 < G.N by rw [Gf.f_N]; omega), sb]
  by_cases h0 : count = 0
  · rw [if_neg (by omega), sb, forUp_ge (by omega)]
    refine Ok.some ⟨hl, ?_⟩
    subst h0
    have : posOf G er 0 = [] := by simp [posOf]
    rw [this]
    ext j
    rw [coeff_pl, hv]
    simp [sigma, coeff_one]
  · rw [if_pos h0]
    have hstart : Ok (do
        let e ← rd er 0
        let q ← (G.fieldOps u ui).divII ⟨(G.fieldOps u ui).N - 1, by rw [Gf.f_N]; omega⟩ e
        let v ← (G.fieldOps u ui).value q
        wr loc 1 v) (fun loc => loc.length = NR + 1 ∧ pl loc = sigma (xl G) (posOf G er 1).toFinset) := by
      rw [rd_of_lt (show 0 < er.length by omega), sb, Gf.f_divII, sb, Gf.f_value, sb, wr_of_lt (by omega)]
      refine Ok.some ⟨by rw [List.length_set, hl], ?_⟩
      have hp : posOf G er 1 = [(er[0]).1] := by
        unfold posOf
        rcases er with _ | ⟨a, t⟩
        · simp at hlen; omega
        · simp
      rw [hp]
      ext j
      rw [coeff_pl, getD_set, hv]
      simp only [List.toFinset_cons, List.toFinset_nil, insert_empty_eq, sigma, Finset.prod_singleton, coeff_sub,
        coeff_one, coeff_C_mul, coeff_X, Gf.f_N, hq]
      by_cases h1 : j = 1
      · subst h1
        rw [if_pos ⟨rfl, by omega⟩, if_neg (by omega), if_pos rfl, mul_one, zero_sub, G.neg_eq]
      · rw [if_neg (by omega), if_neg (by omega : ¬ 1 = j), mul_zero, sub_zero]
    refine Ok.bind' hstart ?_
    rintro loc ⟨hl, hp⟩
    refine forUp_inv (fun k (loc : List F) => loc.length = NR + 1 ∧
      pl loc = sigma (xl G) (posOf G er k).toFinset) (by omega) ⟨hl, hp⟩ ?_
    clear hp hl hstart
    rintro i loc hi1 hi2 ⟨hl, hp⟩
    rw [rd_of_lt (show i < er.length by omega), sb, Gf.f_divII, sb]
    have htake : posOf G er (i + 1) = posOf G er i ++ [(er[i]).1] := by
      unfold posOf
      rw [List.take_add_one, List.getElem?_eq_getElem (by omega), List.map_append]
      rfl
    have hnd1 : (posOf G er (i + 1)).Nodup := by
      refine hnd.sublist ?_
      unfold posOf
      refine List.Sublist.map _ ?_
      exact (List.take_prefix_take_left (by omega)).sublist
    have hnot : (er[i]).1 ∉ (posOf G er i).toFinset := by
      rw [htake, List.nodup_append] at hnd1
      rw [List.mem_toFinset]
      intro h
      exact hnd1.2.2 _ h _ (by simp) rfl
    have hdeg : (pl loc).natDegree ≤ i := by
      rw [hp, sigma_natDegree (xl_ne G)]
      refine (List.toFinset_card_le _).trans ?_
      unfold posOf; rw [List.length_map, List.length_take]; omega
    have hzero : ∀ j, i < j → loc.getD j 0 = 0 := by
      intro j hj
      rw [← coeff_pl]; exact coeff_eq_zero_of_natDegree_lt (by omega)
    set x := xl G (er[i]).1 with hx
    refine Ok.mono (forDown_inv (fun k (l : List F) => l.length = NR + 1 ∧
        (∀ j, j ≤ k → l.getD j 0 = loc.getD j 0) ∧
        (∀ j, k < j → l.getD j 0 = loc.getD j 0 + x * loc.getD (j - 1) 0)) (i + 1) loc ?_ ?_) ?_
    · refine ⟨hl, fun _ _ => rfl, fun j hj => ?_⟩
      rw [hzero (j - 1) (by omega), mul_zero, add_zero]
    · rintro j l hj ⟨g1, g2, g3⟩
      simp only [Nat.zero_add]
      rw [rd_of_lt (show j + 1 < l.length by omega), sb, rd_of_lt (show j < l.length by omega), sb, Gf.f_mulIV, sb,
        Gf.f_add, sb, wr_of_lt (by omega)]
      refine Ok.some ⟨by rw [List.length_set, g1], ?_, ?_⟩
      · intro k hk
        rw [getD_set, if_neg (by omega)]
        exact g2 k (by omega)
      · intro k hk
        rw [getD_set]
        by_cases hkj : j + 1 = k
        · rw [if_pos ⟨hkj, by omega⟩, getElem_eq_getD (a := l) _ 0, getElem_eq_getD (a := l) _ 0, g2 (j + 1) le_rfl, g2 j (by omega)]
          simp only [Gf.f_N, hq]
          rw [← hkj]; rfl
        · rw [if_neg (by tauto)]
          exact g3 k (by omega)
    · rintro l ⟨g1, g2, g3⟩
      refine ⟨g1, ?_⟩
      have : (posOf G er (i + 1)).toFinset = insert (er[i]).1 (posOf G er i).toFinset := by
        rw [htake]; ext p; simp [or_comm]
      rw [this, sigma_insert hnot, ← hp]
      ext j
      rw [coeff_pl, sub_mul, one_mul, coeff_sub, mul_assoc, coeff_C_mul, coeff_pl]
      rcases j with _ | j
      · rw [g2 0 le_rfl, mul_coeff_zero, coeff_X_zero, zero_mul, mul_zero, sub_zero]
      · rw [g3 (j + 1) (by omega), coeff_X_mul, coeff_pl, Nat.add_sub_cancel, G.sub_eq]

/-! ### Trimming -/

theorem trimDeg_ok {loc : List F} {L : Nat} (hl : L < loc.length) (hd : (pl loc).natDegree ≤ L)
    (h0 : (pl loc).coeff 0 ≠ 0) :
    trimDeg (G.fieldOps u ui) loc L = some (some (pl loc).natDegree) := by
  induction L with
  | zero =>
    unfold trimDeg
    rw [rd_of_lt hl, sb, getElem_eq_getD _ 0, ← coeff_pl]
    rw [if_neg (nz1 G u ui h0), show (pl loc).natDegree = 0 by omega]; rfl
  | succ L ih =>
    unfold trimDeg
    rw [rd_of_lt hl, sb, getElem_eq_getD _ 0, ← coeff_pl]
    by_cases h : (pl loc).coeff (L + 1) = 0
    · rw [if_pos (nz0 G u ui h)]
      refine ih (by omega) ?_
      by_contra hc
      have : (pl loc).natDegree = L + 1 := by omega
      rw [← this] at h
      have := leadingCoeff_eq_zero.1 h
      rw [this] at h0; simp at h0
    · rw [if_neg (nz1 G u ui h)]
      have := le_natDegree_of_ne_zero h
      rw [show (pl loc).natDegree = L + 1 by omega]; rfl

end Verif.RS
