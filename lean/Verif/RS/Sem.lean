import Verif.RS.EC
import Verif.RS.Enc
/- Consequences of `ECPost` stated without the locator polynomial. -/
namespace Verif.RS
open Polynomial Finset

variable {F : Type} [Field F] (G : Gf F) (u : F) (ui : Fin G.N)

/-- The total magnitude at position `p` in the first `n` entries of a location list. -/
def mg (ps : List Nat) (mags : List F) (n p : Nat) : F :=
  ∑ i ∈ range n, if ps.getD i 0 = p then mags.getD i 0 else 0

theorem mg_succ (ps : List Nat) (mags : List F) (n p : Nat) :
    mg ps mags (n + 1) p = mg ps mags n p + if ps.getD n 0 = p then mags.getD n 0 else 0 := by
  unfold mg; rw [Finset.sum_range_succ]

theorem nodup_getD {ps : List Nat} (h : ps.Nodup) {i j : Nat} (hi : i < ps.length) (hj : j < ps.length)
    (he : ps.getD i 0 = ps.getD j 0) : i = j := by
  rw [List.getD_eq_getElem _ _ hi, List.getD_eq_getElem _ _ hj] at he
  exact (List.Nodup.getElem_inj_iff h).1 he

theorem mg_at {ps : List Nat} (h : ps.Nodup) {mags : List F} {n i : Nat} (hn : n = ps.length) (hi : i < n) :
    mg ps mags n (ps.getD i 0) = mags.getD i 0 := by
  unfold mg
  rw [Finset.sum_eq_single i]
  · rw [if_pos rfl]
  · intro j hj hne
    rw [mem_range] at hj
    rw [if_neg]
    intro he
    exact hne (nodup_getD h (by omega) (by omega) he)
  · intro h; exact absurd (mem_range.2 hi) h

theorem mg_not_mem {ps : List Nat} {mags : List F} {n p : Nat} (hn : n = ps.length) (hp : p ∉ ps) :
    mg ps mags n p = 0 := by
  unfold mg
  refine Finset.sum_eq_zero fun i hi => ?_
  rw [mem_range] at hi
  rw [if_neg]
  rintro rfl
  apply hp
  rw [List.getD_eq_getElem _ _ (by omega)]
  exact List.getElem_mem _

/-- The exceptional pairs of positions. -/
def Exc (A : Finset Nat) : Prop :=
  ∃ p q, p ≠ q ∧ A = {p, q} ∧ G.num (xl G p * xl G q / ((xl G p + xl G q) * (xl G p + xl G q))) = G.N

theorem sigma_pair {x : Nat → F} {p q : Nat} (h : p ≠ q) :
    sigma x {p, q} = 1 - C (x p + x q) * X + C (x p * x q) * X ^ 2 := by
  unfold sigma
  rw [Finset.prod_pair h, C_add, C_mul]; ring

theorem skipped_iff {A : Finset Nat} (h2 : A.card = 2) :
    SkippedP G (sigma (xl G) A) ↔ Exc G A := by
  have key : ∀ p q : Nat, p ≠ q → (SkippedP G (sigma (xl G) {p, q}) ↔
      G.num (xl G p * xl G q / ((xl G p + xl G q) * (xl G p + xl G q))) = G.N) := by
    intro p q hpq
    unfold SkippedP
    rw [sigma_pair hpq]
    have e2 : (1 - C (xl G p + xl G q) * X + C (xl G p * xl G q) * X ^ 2 : F[X]).coeff 2 = xl G p * xl G q := by
      rw [coeff_add, coeff_sub, coeff_C_mul, coeff_C_mul, coeff_X_pow, coeff_X, coeff_one]; simp
    have e0 : (1 - C (xl G p + xl G q) * X + C (xl G p * xl G q) * X ^ 2 : F[X]).coeff 0 = 1 := by
      rw [coeff_add, coeff_sub, coeff_C_mul, coeff_C_mul, coeff_X_pow, coeff_X, coeff_one]; simp
    have e1 : (1 - C (xl G p + xl G q) * X + C (xl G p * xl G q) * X ^ 2 : F[X]).coeff 1 = -(xl G p + xl G q) := by
      rw [coeff_add, coeff_sub, coeff_C_mul, coeff_C_mul, coeff_X_pow, coeff_X, coeff_one]; simp
    rw [e2, e0, e1, mul_one, neg_mul_neg]
  constructor
  · intro h
    obtain ⟨p, q, hpq, rfl⟩ := Finset.card_eq_two.1 h2
    exact ⟨p, q, hpq, rfl, (key p q hpq).1 h⟩
  · rintro ⟨p, q, hpq, rfl, h⟩
    exact (key p q hpq).2 h

theorem pl_synPoly {syn : List F} {s : Nat → F} {NR : Nat} (hl : syn.length = NR)
    (hs : ∀ i, i < NR → syn.getD i 0 = s i) : pl syn = synPoly s NR := by
  ext j
  rw [coeff_pl]
  simp only [synPoly, finsetSum_coeff, coeff_monomial, Finset.sum_ite_eq', mem_range]
  split
  · exact hs j ‹_›
  · rw [List.getD_eq_default _ _ (by omega)]

/-- Admissible recurrence lengths: some polynomial with constant coefficient 1, of degree at most
`L`, that vanishes at the inverse locators of the erasures, satisfies the recurrence. -/
def Recurs (NR : Nat) (R : Finset Nat) (s : Nat → F) (L : Nat) : Prop :=
  ∃ c : F[X], c.coeff 0 = 1 ∧ c.natDegree ≤ L ∧ (∀ p ∈ R, c.eval (xl G p)⁻¹ = 0) ∧
    ∀ j, L ≤ j → j < NR → ∑ k ∈ range (L + 1), c.coeff k * s (j - k) = 0

theorem rec_coeff {c : F[X]} {s : Nat → F} {NR L j : Nat} (hd : c.natDegree ≤ L) (hLj : L ≤ j) (hj : j < NR) :
    (c * synPoly s NR).coeff j = ∑ k ∈ range (L + 1), c.coeff k * s (j - k) := by
  have hsyn : ∀ j, (synPoly s NR).coeff j = if j < NR then s j else 0 := by
    intro j
    simp only [synPoly, finsetSum_coeff, coeff_monomial, Finset.sum_ite_eq', mem_range]
  rw [coeff_mul, Finset.Nat.sum_antidiagonal_eq_sum_range_succ_mk]
  dsimp only
  rw [← Finset.sum_subset (show range (L + 1) ⊆ range (j + 1) from by
    intro k; simp only [mem_range]; omega)]
  · refine Finset.sum_congr rfl fun k hk => ?_
    rw [hsyn, if_pos (by omega)]
  · intro k _ hk
    rw [mem_range] at hk
    rw [coeff_eq_zero_of_natDegree_lt (by omega), zero_mul]

structure ECSem (NR FCR : Nat) (R : Finset Nat) (s : Nat → F) (res : ECRes F (Fin G.N)) : Prop where
  llen : res.locs.length = NR
  mlen : res.mags.length = NR
  ret : res.ret = -1 ∨ ∃ n : Nat, res.ret = n ∧ n ≤ NR ∧ (posOf G res.locs n).Nodup ∧
    R ⊆ (posOf G res.locs n).toFinset ∧
    ∃ L, IsLeast {L | Recurs G NR R s L} L ∧ n ≤ L ∧
      ((∀ i, i < NR → s i = ∑ p ∈ (posOf G res.locs n).toFinset,
          mg (posOf G res.locs n) res.mags n p * xl G p ^ (FCR + i)) ↔ n = L)
  cap : ∀ (E : Finset Nat) (e : Nat → F), Disjoint R E → (∀ p ∈ E, p < G.N) → (∀ p ∈ E, e p ≠ 0) →
    2 * E.card + R.card ≤ NR → (∀ i, i < NR → s i = ∑ p ∈ R ∪ E, e p * xl G p ^ (FCR + i)) →
    (Exc G (R ∪ E) → res.ret = -1) ∧
    (¬ Exc G (R ∪ E) → res.ret = (R ∪ E).card ∧ (posOf G res.locs (R ∪ E).card).toFinset = R ∪ E ∧
      ∀ p ∈ R ∪ E, mg (posOf G res.locs (R ∪ E).card) res.mags (R ∪ E).card p = e p)

theorem posOf_getD {locs : List (Fin G.N)} {n i : Nat} (hi : i < n) (h : i < locs.length) :
    (posOf G locs n).getD i 0 = (locs[i]).1 := by
  unfold posOf
  rw [List.getD_eq_getElem _ _ (by rw [List.length_map, List.length_take]; omega)]
  simp

theorem ECPost.sem {NR FCR : Nat} {R : Finset Nat} {s : Nat → F} {res : ECRes F (Fin G.N)} {c : F[X]} {L : Nat}
    (hR : ∀ p ∈ R, p < G.N)
    (h : ECPost G NR FCR R (synPoly s NR) res c L) : ECSem G NR FCR R s res := by
  have hxn := xl_ne G
  have hdeg := h.good.deg
  have hhi := h.good.hi
  have hll := h.llen
  have hml := h.mlen
  have hleast : IsLeast {L | Recurs G NR R s L} L := by
    constructor
    · refine ⟨c, h.good.c0, h.good.deg, ?_, ?_⟩
      · intro p hp
        obtain ⟨q, hq⟩ := h.good.dvd
        rw [hq, eval_mul, eval_sigma hxn hp, zero_mul]
      · intro j h1 h2
        rw [← rec_coeff h.good.deg h1 h2]
        exact h.good.van j h1 h2
    · rintro ℓ ⟨c', h0, hd, hev, hrec⟩
      obtain ⟨τ, hτ⟩ := sigma_dvd hxn (xl_inj G hR) hev
      refine h.minl τ ℓ (by rw [← hτ]; exact hd) ?_ ?_ ?_
      · rw [hτ, mul_coeff_zero, sigma_coeff_zero, one_mul] at h0
        rw [h0]; exact one_ne_zero
      · intro j h1 h2
        rw [← hτ, rec_coeff hd h1 h2]
        exact hrec j h1 h2
      · have hc' : c' ≠ 0 := by rintro rfl; simp at h0
        refine le_trans (natDegree_le_of_dvd ⟨τ, hτ⟩ hc') hd
  -- facts when locations were found
  have hfound : res.ret ≠ -1 → (posOf G res.locs c.natDegree).length = c.natDegree ∧
      (posOf G res.locs c.natDegree).toFinset.card = c.natDegree ∧
      Set.InjOn (xl G) (posOf G res.locs c.natDegree).toFinset ∧
      ∀ p ∈ (posOf G res.locs c.natDegree).toFinset,
        (mg (posOf G res.locs c.natDegree) res.mags c.natDegree p * xl G p ^ FCR) *
          (sigma (xl G) ((posOf G res.locs c.natDegree).toFinset.erase p)).eval (xl G p)⁻¹ =
        ∑ j ∈ range (min c.natDegree (NR - 1) + 1), (c * synPoly s NR).coeff j * (xl G p)⁻¹ ^ j := by
    intro hne
    obtain ⟨hnd, hcA, hm⟩ := h.found hne
    have hlen : (posOf G res.locs c.natDegree).length = c.natDegree :=
      posOf_length G (r := (res.locs, c.natDegree)) hll (show c.natDegree ≤ NR by omega)
    refine ⟨hlen, by rw [List.toFinset_card_of_nodup hnd, hlen], ?_, ?_⟩
    · exact xl_inj G fun p hp => posOf_lt G (List.mem_toFinset.1 hp)
    · intro p hp
      rw [List.mem_toFinset, List.mem_iff_getElem] at hp
      obtain ⟨i, hi, rfl⟩ := hp
      have hi' : i < c.natDegree := by omega
      have e1 : (posOf G res.locs c.natDegree)[i] = (res.locs[i]'(by omega)).1 := by
        rw [← posOf_getD G hi' (by omega), List.getD_eq_getElem _ _ hi]
      have := hm i (by omega) hi'
      rw [← e1] at this
      rw [← this, ← List.getD_eq_getElem _ 0 hi, mg_at hnd hlen.symm hi']
  refine ⟨hll, hml, ?_, ?_⟩
  · rcases h.ret with hr | hr
    · exact Or.inl hr
    right
    have hne : res.ret ≠ -1 := by omega
    obtain ⟨hnd, hcA, _⟩ := h.found hne
    obtain ⟨hlen, hcard, hinj, hm⟩ := hfound hne
    set A := (posOf G res.locs c.natDegree).toFinset with hA
    refine ⟨c.natDegree, hr, by omega, hnd, ?_, L, hleast, hdeg, ?_⟩
    · intro p hp
      have hdv := h.good.dvd
      have h0 : c.eval (xl G p)⁻¹ = 0 := by
        obtain ⟨q, hq⟩ := hdv
        rw [hq, eval_mul, eval_sigma hxn hp, zero_mul]
      rw [hcA] at h0
      unfold sigma at h0
      rw [eval_prod, Finset.prod_eq_zero_iff] at h0
      obtain ⟨q, hq, h0⟩ := h0
      simp only [eval_sub, eval_one, eval_mul, eval_C, eval_X] at h0
      have : xl G q = xl G p := by
        rw [sub_eq_zero] at h0
        exact (eq_of_mul_inv_eq_one h0.symm)
      have := xl_inj G (A := {p, q}) (by
        intro k hk
        simp only [Finset.mem_insert, Finset.mem_singleton] at hk
        rcases hk with rfl | rfl
        · exact hR _ hp
        · exact posOf_lt G (List.mem_toFinset.1 hq)) (by simp) (by simp) this
      rw [← this]; exact hq
    · have hpow : ∀ i, ∑ p ∈ A, mg (posOf G res.locs c.natDegree) res.mags c.natDegree p * xl G p ^ (FCR + i) =
          ∑ p ∈ A, (mg (posOf G res.locs c.natDegree) res.mags c.natDegree p * xl G p ^ FCR) * xl G p ^ i :=
        fun i => Finset.sum_congr rfl fun p _ => by rw [pow_add]; ring
      simp only [← hA, hpow]
      constructor
      · intro hs
        obtain ⟨q, hq⟩ := key_eq (x := xl G) (A := A) hs
        refine le_antisymm hdeg (hleast.2 ⟨c, h.good.c0, le_rfl, ?_, ?_⟩)
        · intro p hp
          obtain ⟨q, hq⟩ := h.good.dvd
          rw [hq, eval_mul, eval_sigma hxn hp, zero_mul]
        · intro j h1 h2
          rw [← rec_coeff le_rfl h1 h2]
          rw [← hcA] at hq
          rw [coeff_of_key hq h2]
          by_cases h0 : c.natDegree = 0
          · have : A = ∅ := by rw [← Finset.card_eq_zero]; omega
            rw [this]; simp [omega]
          · exact coeff_eq_zero_of_natDegree_lt (lt_of_lt_of_le
              (omega_natDegree_lt hxn (n := c.natDegree) (by omega) (by omega)) h1)
      · intro hL
        refine explain (L := L) hxn hinj hcA (by omega) hhi h.good.van ?_
        intro p hp
        rw [hm p hp]
        by_cases hLN : L = NR
        · rw [show min c.natDegree (NR - 1) + 1 = L ∨ L = 0 by omega |>.resolve_right ?_]
          intro h0
          have : A = ∅ := by rw [← Finset.card_eq_zero]; omega
          rw [this] at hp; simp at hp
        · rw [show min c.natDegree (NR - 1) + 1 = L + 1 by omega, Finset.sum_range_succ,
            h.good.van L le_rfl (by omega), zero_mul, add_zero]
  · intro E e hdisj hE he hcap hs
    have hs' : ∀ i, i < NR → s i = ∑ p ∈ R ∪ E, (e p * xl G p ^ FCR) * xl G p ^ i := by
      intro i hi
      rw [hs i hi]
      exact Finset.sum_congr rfl fun p _ => by rw [pow_add]; ring
    have hlt : ∀ p ∈ R ∪ E, p < G.N := by
      intro p hp
      rcases Finset.mem_union.1 hp with hp | hp
      · exact hR p hp
      · exact hE p hp
    have hinjA := xl_inj G hlt
    obtain ⟨hc, hL⟩ := good_unique (z := fun p => e p * xl G p ^ FCR) hxn hinjA hdisj hs'
      (fun p hp => mul_ne_zero (he p hp) (pow_ne_zero _ (hxn p))) hcap h.good h.minl
    have hd : c.natDegree = (R ∪ E).card := by rw [hc, sigma_natDegree hxn]
    have hex : c.natDegree = 2 → (SkippedP G c ↔ Exc G (R ∪ E)) := by
      intro h2
      rw [hc]
      exact skipped_iff G (by omega)
    have hexc : Exc G (R ∪ E) → (R ∪ E).card = 2 := by
      rintro ⟨p, q, hpq, hA, _⟩
      rw [hA, Finset.card_pair hpq]
    constructor
    · intro hx
      have h2 : c.natDegree = 2 := by rw [hd]; exact hexc hx
      exact h.skipped h2 ((hex h2).2 hx)
    · intro hx
      have hne := h.complete (R ∪ E) hlt hc (by
        rintro ⟨h2, hsk⟩
        exact hx ((hex h2).1 hsk))
      have hr : res.ret = c.natDegree := by
        rcases h.ret with hr | hr
        · exact absurd hr hne
        · exact hr
      obtain ⟨hnd, hcA, _⟩ := h.found hne
      obtain ⟨hlen, hcard, hinj, hm⟩ := hfound hne
      rw [← hd]
      have hAe : (posOf G res.locs c.natDegree).toFinset = R ∪ E := by
        have hsub : (R ∪ E) ⊆ (posOf G res.locs c.natDegree).toFinset := by
          intro p hp
          have h0 : c.eval (xl G p)⁻¹ = 0 := by rw [hc]; exact eval_sigma hxn hp
          rw [hcA] at h0
          unfold sigma at h0
          rw [eval_prod, Finset.prod_eq_zero_iff] at h0
          obtain ⟨q, hq, h0⟩ := h0
          simp only [eval_sub, eval_one, eval_mul, eval_C, eval_X] at h0
          have : xl G q = xl G p := by
            rw [sub_eq_zero] at h0
            exact (eq_of_mul_inv_eq_one h0.symm)
          have := xl_inj G (A := {p, q}) (by
            intro k hk
            simp only [Finset.mem_insert, Finset.mem_singleton] at hk
            rcases hk with rfl | rfl
            · exact hlt _ hp
            · exact posOf_lt G (List.mem_toFinset.1 hq)) (by simp) (by simp) this
          rw [← this]; exact hq
        exact (Finset.eq_of_subset_of_card_le hsub (by omega)).symm
      refine ⟨hr, hAe, ?_⟩
      intro p hp
      have h1 := hm p (by rw [hAe]; exact hp)
      obtain ⟨q, hq⟩ := key_eq (x := xl G) (A := R ∪ E) hs'
      have hc0 : 0 < (R ∪ E).card := Finset.card_pos.2 ⟨p, hp⟩
      have hom := eval_omega (z := fun p => e p * xl G p ^ FCR) hxn hp
      have hod := omega_natDegree_lt (z := fun p => e p * xl G p ^ FCR) (A := R ∪ E) hxn (n := (R ∪ E).card)
        le_rfl hc0
      rw [eval_eq_sum_range' (n := min c.natDegree (NR - 1) + 1) (by omega)] at hom
      have h2 : ∑ j ∈ range (min c.natDegree (NR - 1) + 1), (c * synPoly s NR).coeff j * (xl G p)⁻¹ ^ j =
          e p * xl G p ^ FCR * (sigma (xl G) ((R ∪ E).erase p)).eval (xl G p)⁻¹ := by
        rw [← hom]
        refine Finset.sum_congr rfl fun j hj => ?_
        rw [mem_range] at hj
        rw [hc, coeff_of_key hq (by omega)]
      rw [h2, hAe] at h1
      exact mul_right_cancel₀ (pow_ne_zero FCR (hxn p)) (mul_right_cancel₀ (eval_sigma_ne hxn hinjA hp) h1)

/-- The error correction, stated on positions. -/
theorem errorCorrection_sem {NR FCR count : Nat} {im syn mags : List F} {locs er : List (Fin G.N)} {s : Nat → F}
    (hI : Imap G im) (hNR : 0 < NR) (hNRN : NR < G.N) (hs : syn.length = NR) (hlocs : locs.length = NR)
    (hmags : mags.length = NR) (hcount : count ≤ NR) (her : count ≤ er.length) (hnd : (posOf G er count).Nodup)
    (hsyn : ∀ i, i < NR → syn.getD i 0 = s i) (hnz : ∃ i, i < NR ∧ s i ≠ 0) :
    Ok (errorCorrection (G.fieldOps u ui) NR FCR im syn locs mags er count)
      (ECSem G NR FCR (posOf G er count).toFinset s) := by
  refine (errorCorrection_ok G u ui hI hNR hNRN hs hlocs hmags hcount her hnd ?_).mono ?_
  · obtain ⟨i, hi, h⟩ := hnz
    exact ⟨i, hi, by rw [hsyn i hi]; exact h⟩
  · rintro res ⟨c, L, h⟩
    rw [pl_synPoly hs hsyn] at h
    exact h.sem G fun p hp => posOf_lt G (List.mem_toFinset.1 hp)

end Verif.RS
