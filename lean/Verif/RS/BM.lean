import Verif.RS.Gf
import Mathlib.Algebra.Polynomial.Degree.Operations
import Mathlib.Algebra.Polynomial.Coeff
import Mathlib.Algebra.Polynomial.FieldDivision
import Mathlib.Tactic.LinearCombination
/- Berlekamp-Massey: the loop invariant. -/
namespace Verif.RS
open Polynomial Finset

section list
variable {F : Type} [Field F]

/-- The polynomial whose coefficients are the array entries. -/
noncomputable def pl (l : List F) : F[X] := ∑ i ∈ range l.length, monomial i (l.getD i 0)

theorem coeff_pl (l : List F) (j : Nat) : (pl l).coeff j = l.getD j 0 := by
  unfold pl
  rw [finsetSum_coeff]
  simp only [coeff_monomial]
  rw [Finset.sum_ite_eq' (range l.length) j]
  split
  · rfl
  · rename_i h
    rw [List.getD_eq_default]
    simpa using h

theorem coeff_pl_mul (c : F[X]) (l : List F) {L n : Nat} (hd : c.natDegree ≤ L) (hL : L ≤ n) :
    (c * pl l).coeff n = ∑ i ∈ range (L + 1), c.coeff i * l.getD (n - i) 0 := by
  rw [coeff_mul, Finset.Nat.sum_antidiagonal_eq_sum_range_succ (fun i j => c.coeff i * (pl l).coeff j)]
  simp only [coeff_pl]
  symm
  apply Finset.sum_subset
  · intro i; simp; omega
  · intro i _ hi
    simp only [mem_range, not_lt] at hi
    rw [coeff_eq_zero_of_natDegree_lt (by omega), zero_mul]

end list

variable {F : Type} [Field F] (G : Gf F) (u : F) (ui : Fin G.N)

/-- What the algorithm maintains about the locator `c` and the length `L` after reading the
first `n` syndromes. -/
structure Good (Γ S : F[X]) (ρ n : Nat) (c : F[X]) (L : Nat) : Prop where
  c0 : c.coeff 0 = 1
  deg : c.natDegree ≤ L
  dvd : Γ ∣ c
  van : ∀ j, L ≤ j → j < n → (c * S).coeff j = 0
  lo : ρ ≤ L
  hi : L ≤ n

/-- The auxiliary polynomial. -/
def Aux (Γ S : F[X]) (ρ n : Nat) (c b : F[X]) (L m : Nat) : Prop :=
  (c = Γ ∧ b = Γ ∧ L = ρ ∧ m = n - ρ + 1) ∨
  ∃ nB LB, b.natDegree ≤ LB ∧ Γ ∣ b ∧ (∀ j, LB ≤ j → j < nB → (b * S).coeff j = 0) ∧
    (b * S).coeff nB = 1 ∧ L + LB = nB + 1 + ρ ∧ n = m + nB ∧ 0 < m

/-- No admissible locator is shorter. -/
def Minimal (Γ S : F[X]) (n L : Nat) : Prop :=
  ∀ (τ : F[X]) (ℓ : Nat), (Γ * τ).natDegree ≤ ℓ → τ.coeff 0 ≠ 0 →
    (∀ j, ℓ ≤ j → j < n → (Γ * τ * S).coeff j = 0) → Γ.natDegree ≤ ℓ → L ≤ ℓ

theorem minimal_jump {Γ S : F[X]} {ρ n L : Nat} {c : F[X]} (hΓ : Γ.natDegree = ρ) (hΓ0 : Γ ≠ 0)
    (g : Good Γ S ρ n c L) (hd : (c * S).coeff n ≠ 0) (τ : F[X]) (ℓ : Nat)
    (hdeg : (Γ * τ).natDegree ≤ ℓ) (h0 : τ.coeff 0 ≠ 0)
    (hv : ∀ j, ℓ ≤ j → j < n + 1 → (Γ * τ * S).coeff j = 0) : n + 1 + ρ - L ≤ ℓ := by
  by_contra hlt
  push Not at hlt
  obtain ⟨c', hc'⟩ := g.dvd
  have hc0 : c ≠ 0 := by
    intro h; have := g.c0; rw [h] at this; simp at this
  have hc'0 : c' ≠ 0 := by rintro rfl; rw [mul_zero] at hc'; exact hc0 hc'
  have hτ0 : τ ≠ 0 := by rintro rfl; simp at h0
  have hdc : c'.natDegree + ρ ≤ L := by
    have := g.deg; rw [hc', natDegree_mul hΓ0 hc'0, hΓ] at this; omega
  have hdτ : τ.natDegree + ρ ≤ ℓ := by
    rw [natDegree_mul hΓ0 hτ0, hΓ] at hdeg; omega
  have e1 : (c' * (Γ * τ * S)).coeff n = 0 := by
    rw [coeff_mul]
    apply Finset.sum_eq_zero
    rintro ⟨i, j⟩ hij
    rw [mem_antidiagonal] at hij
    dsimp only at hij ⊢
    by_cases hi : i ≤ c'.natDegree
    · rw [hv j (by omega) (by omega), mul_zero]
    · rw [coeff_eq_zero_of_natDegree_lt (by omega), zero_mul]
  have e2 : (τ * (c * S)).coeff n = τ.coeff 0 * (c * S).coeff n := by
    rw [coeff_mul, Finset.sum_eq_single (0, n)]
    · rintro ⟨i, j⟩ hij hne
      rw [mem_antidiagonal] at hij
      dsimp only at hij ⊢
      by_cases hi : i ≤ τ.natDegree
      · have : i ≠ 0 := by
          rintro rfl; apply hne; simp at hij; rw [hij]
        rw [g.van j (by omega) (by omega), mul_zero]
      · rw [coeff_eq_zero_of_natDegree_lt (by omega), zero_mul]
    · intro h; simp at h
  have e3 : c' * (Γ * τ * S) = τ * (c * S) := by rw [hc']; ring
  rw [e3, e2] at e1
  exact (mul_ne_zero h0 hd) e1

include G in
/-- The polynomial content of one update. -/
theorem good_update {Γ S : F[X]} {ρ n L m : Nat} {c b : F[X]} (hΓ : Γ.natDegree = ρ)
    (g : Good Γ S ρ n c L) (a : Aux Γ S ρ n c b L m) :
    (2 * L ≤ n + ρ →
      Good Γ S ρ (n + 1) (c + C ((c * S).coeff n) * X ^ m * b) (n + ρ + 1 - L)) ∧
    (n + ρ < 2 * L → Good Γ S ρ (n + 1) (c + C ((c * S).coeff n) * X ^ m * b) L) := by
  set d := (c * S).coeff n with hdd
  have hlo := g.lo
  have hhi := g.hi
  have hm0 : 0 < m := by
    rcases a with ⟨_, _, _, h⟩ | ⟨nB, LB, _, _, _, _, _, _, h⟩ <;> omega
  have hdvd : Γ ∣ b := by
    rcases a with ⟨_, h, _⟩ | ⟨nB, LB, _, h, _⟩
    · rw [h]
    · exact h
  have hbdeg : m + b.natDegree ≤ n + ρ + 1 - L := by
    rcases a with ⟨_, h, h1, h2⟩ | ⟨nB, LB, h1, _, _, _, h2, h3, _⟩
    · rw [h, hΓ]; omega
    · omega
  have key : ∀ L', L ≤ L' → n + ρ + 1 - L ≤ L' → L' ≤ n + 1 →
      Good Γ S ρ (n + 1) (c + C d * X ^ m * b) L' := by
    intro L' h1 h2 h3
    refine ⟨?_, ?_, ?_, ?_, by omega, h3⟩
    · rw [coeff_add, g.c0, mul_assoc, coeff_C_mul, coeff_X_pow_mul', if_neg (by omega), mul_zero, add_zero]
    · refine (natDegree_add_le _ _).trans (max_le (g.deg.trans h1) ?_)
      refine natDegree_mul_le.trans ?_
      have := natDegree_C_mul_X_pow_le d m
      omega
    · exact dvd_add g.dvd (Dvd.dvd.mul_left hdvd _)
    · intro j hj hjn
      have e : (c + C d * X ^ m * b) * S = c * S + C d * (X ^ m * (b * S)) := by ring
      rw [e, coeff_add, coeff_C_mul, coeff_X_pow_mul']
      rcases a with ⟨_, h, h4, h5⟩ | ⟨nB, LB, h4, h5, h6, h7, h8, h9, _⟩
      · omega
      · rw [if_pos (by omega)]
        by_cases hjn' : j = n
        · subst hjn'
          rw [show j - m = nB by omega, h7, mul_one]
          exact G.add_self d
        · rw [g.van j (by omega) (by omega), h6 (j - m) (by omega) (by omega)]; ring
  constructor
  · intro h
    exact key _ (by omega) (by omega) (by omega)
  · intro h
    exact key _ (by omega) (by omega) (by omega)

theorem discrepancy_ok {s Cl : List F} {L n : Nat} (hn : n < s.length) (hL : L ≤ n)
    (hC : L < Cl.length) (hd : (pl Cl).natDegree ≤ L) (h0 : (pl Cl).coeff 0 = 1) :
    discrepancy (G.fieldOps u ui) s Cl L n = some ((pl Cl * pl s).coeff n) := by
  unfold discrepancy
  rw [rd_of_lt hn]
  simp only [Option.bind_eq_bind, Option.bind_some]
  rw [← Ok.eq_some]
  have := forUp_inv (lo := 1) (hi := L + 1) (s := s[n])
    (f := fun i d => (rd Cl i).bind fun c =>
      (if i ≤ n then rd s (n - i) else none).bind fun x =>
      ((G.fieldOps u ui).mulVV c x).bind fun p => (G.fieldOps u ui).add d p)
    (fun i d => d = ∑ k ∈ range i, (pl Cl).coeff k * s.getD (n - k) 0) (by omega)
    (by rw [Finset.sum_range_one, h0, one_mul, Nat.sub_zero, getElem_eq_getD hn 0])
    (fun i d h1 h2 hi => by
      rw [rd_of_lt (show i < Cl.length by omega), Option.bind_some, if_pos (by omega),
        rd_of_lt (show n - i < s.length by omega), Option.bind_some]
      simp only [Gf.f_mulVV, Gf.f_add, Option.bind_some]
      refine Ok.some ?_
      rw [hi, Finset.sum_range_succ, coeff_pl, getElem_eq_getD _ 0, getElem_eq_getD _ 0])
  refine this.mono ?_
  rintro d rfl
  rw [coeff_pl_mul _ _ hd hL]

theorem copy_ok {α : Type} {src dst : List α} {n : Nat} (hs : n ≤ src.length)
    (hd : n = dst.length) {f : Nat → List α → Option (List α)}
    (hf : ∀ i l, f i l = (rd src i).bind fun c => wr l i c) :
    forUp 0 n dst f = some (src.take n) := by
  by_cases hn : n = 0
  · subst hn
    have : dst = [] := by simpa using hd.symm
    subst this; rfl
  have hne : 0 < src.length := by omega
  have := forUp_fill (f := f) (g := fun i => src.getD i src[0]) (n := n) (a := dst) (by omega)
    (fun j l hj hl => by
      rw [hf, rd_of_lt (by omega), Option.bind_some, wr_of_lt (by omega), getElem_eq_getD _ src[0]])
  rw [this, List.drop_eq_nil_of_le (by omega), List.append_nil]
  congr 1
  apply List.ext_getElem
  · simp; omega
  · intro i h1 h2
    simp at h1 h2
    simp [h2]

/-- The invariant of the main loop on the arrays. -/
structure BMInv (NR : Nat) (Γ S : F[X]) (ρ n : Nat) (st : BMSt F) : Prop where
  lC : st.C.length = NR + 1
  lB : st.B.length = NR + 1
  good : Good Γ S ρ n (pl st.C) st.L
  aux : Aux Γ S ρ n (pl st.C) (pl st.B) st.L st.m
  min : Minimal Γ S n st.L
  m0 : 0 < st.m
  mle : st.m ≤ n + 1

theorem bmStep_ok {NR ρ n : Nat} {Γ : F[X]} {s : List F} {st : BMSt F} (hΓ : Γ.natDegree = ρ)
    (hΓ0 : Γ.coeff 0 = 1) (hs : s.length = NR) (hn : n < NR) (hρ : ρ ≤ n)
    (h : BMInv NR Γ (pl s) ρ n st) :
    Ok (bmStep (G.fieldOps u ui) NR ρ s n st) (BMInv NR Γ (pl s) ρ (n + 1)) := by
  have hΓne : Γ ≠ 0 := by rintro rfl; simp at hΓ0
  have g := h.good
  have hlo := g.lo
  have hhi := g.hi
  have lC := h.lC
  have lB := h.lB
  have hm0 := h.m0
  have hmle := h.mle
  unfold bmStep
  rw [discrepancy_ok G u ui (by omega) g.hi (by omega) g.deg g.c0]
  simp only [Option.bind_eq_bind, Option.bind_some, Gf.f_num]
  set d := (pl st.C * pl s).coeff n with hd
  by_cases hd0 : G.num d = 0
  · rw [if_pos hd0]
    rw [G.num_eq_zero] at hd0
    refine Ok.some ⟨lC, lB, ⟨g.c0, g.deg, g.dvd, ?_, g.lo, Nat.le_succ_of_le g.hi⟩, ?_, ?_, by simp, by simp; omega⟩
    · intro j h1 h2
      by_cases hj : j = n
      · rw [hj]; exact hd0
      · exact g.van j h1 (by omega)
    · rcases h.aux with ⟨h1, h2, h3, h4⟩ | ⟨nB, LB, h1, h2, h3, h4, h5, h6, h7⟩
      · exact Or.inl ⟨h1, h2, h3, by simp only; omega⟩
      · exact Or.inr ⟨nB, LB, h1, h2, h3, h4, h5, by simp only; omega, by simp⟩
    · intro τ ℓ h1 h2 h3 h4
      exact h.min τ ℓ h1 h2 (fun j hj hj' => h3 j hj (by omega)) h4
  · rw [if_neg hd0]
    rw [G.num_eq_zero] at hd0
    -- the new locator array
    have hT1 : Ok (forUp 0 st.m (List.replicate (NR + 1) (G.fieldOps u ui).junk) fun i T =>
          (rd st.C i).bind fun c => wr T i c)
        (fun T => T.length = NR + 1 ∧ ∀ i, i < st.m → T.getD i 0 = st.C.getD i 0) := by
      refine forUp_inv (fun k (T : List F) => T.length = NR + 1 ∧ ∀ i, i < k → T.getD i 0 = st.C.getD i 0)
        (by omega) ⟨by rw [List.length_replicate], by omega⟩ ?_
      rintro j T _ hj ⟨hl, hT⟩
      rw [rd_of_lt (show j < st.C.length by omega), Option.bind_some, wr_of_lt (by omega)]
      refine Ok.some ⟨by rw [List.length_set, hl], fun i hi => ?_⟩
      rw [getD_set]
      split
      · rename_i hc; rw [getElem_eq_getD _ 0, hc.1]
      · exact hT i (by omega)
    refine Ok.bind hT1 ?_
    rintro T1 ⟨hT1l, hT1⟩
    have hT2 : Ok (forUp st.m (NR + 1) T1 fun i T =>
          (rd st.B (i - st.m)).bind fun b => (rd st.C i).bind fun c =>
            ((G.fieldOps u ui).fmaVV d b c).bind fun v => wr T i v)
        (fun T => T.length = NR + 1 ∧ ∀ i, i < NR + 1 → T.getD i 0 =
          st.C.getD i 0 + if st.m ≤ i then d * st.B.getD (i - st.m) 0 else 0) := by
      refine forUp_inv (fun k (T : List F) => T.length = NR + 1 ∧ ∀ i, i < k → T.getD i 0 =
          st.C.getD i 0 + if st.m ≤ i then d * st.B.getD (i - st.m) 0 else 0)
        (by omega) ⟨hT1l, fun i hi => by rw [hT1 i hi, if_neg (by omega), add_zero]⟩ ?_
      rintro j T hj1 hj ⟨hl, hT⟩
      rw [rd_of_lt (show j - st.m < st.B.length by omega), rd_of_lt (show j < st.C.length by omega),
        Option.bind_some, Option.bind_some, Gf.f_fmaVV, Option.bind_some, wr_of_lt (by omega)]
      refine Ok.some ⟨by rw [List.length_set, hl], fun i hi => ?_⟩
      rw [getD_set]
      split
      · rename_i hc
        obtain ⟨rfl, _⟩ := hc
        rw [getElem_eq_getD _ 0, getElem_eq_getD _ 0, if_pos hj1, add_comm]
      · exact hT i (by omega)
    refine Ok.bind hT2 ?_
    rintro T ⟨hTl, hT⟩
    have hup := good_update G hΓ g h.aux
    rw [← hd] at hup
    -- the polynomial of T
    have hbdeg : st.m + (pl st.B).natDegree ≤ NR := by
      rcases h.aux with ⟨_, h1, h2, h3⟩ | ⟨nB, LB, h1, _, _, _, h2, h3, _⟩
      · rw [h1, hΓ]; omega
      · omega
    have hTp : pl T = pl st.C + C d * X ^ st.m * pl st.B := by
      ext i
      rw [coeff_add, mul_assoc, coeff_C_mul, coeff_X_pow_mul', coeff_pl, coeff_pl, coeff_pl]
      by_cases hi : i < NR + 1
      · rw [hT i hi]; split <;> simp
      · rw [List.getD_eq_default _ _ (by omega), List.getD_eq_default _ _ (by omega)]
        split
        · rw [← coeff_pl, coeff_eq_zero_of_natDegree_lt (by omega)]; simp
        · simp
    have hcopy : forUp 0 (NR + 1) st.C (fun i Cl => (rd T i).bind fun t => wr Cl i t) = some T := by
      rw [copy_ok (src := T) (by omega) (by omega) (fun i l => rfl), List.take_of_length_le (by omega)]
    by_cases hj : 2 * st.L ≤ n + ρ
    · rw [if_pos hj]
      have hB : Ok (forUp 0 (NR + 1) st.B fun i B => (rd st.C i).bind fun c =>
            ((G.fieldOps u ui).divVV c d).bind fun v => wr B i v)
          (fun B => B.length = NR + 1 ∧ ∀ i, i < NR + 1 → B.getD i 0 = st.C.getD i 0 / d) := by
        refine forUp_inv (fun k (B : List F) => B.length = NR + 1 ∧ ∀ i, i < k → B.getD i 0 = st.C.getD i 0 / d)
          (by omega) ⟨lB, by omega⟩ ?_
        rintro j B _ hj ⟨hl, hB⟩
        rw [rd_of_lt (show j < st.C.length by omega), Option.bind_some, Gf.f_divVV G u ui hd0,
          Option.bind_some, wr_of_lt (by omega)]
        refine Ok.some ⟨by rw [List.length_set, hl], fun i hi => ?_⟩
        rw [getD_set]
        split
        · rename_i hc; rw [getElem_eq_getD _ 0, hc.1]
        · exact hB i (by omega)
      obtain ⟨B, hBe, hBl, hB⟩ := hB
      rw [hBe]
      simp only [Option.bind_some, hcopy]
      have hBp : pl B = C d⁻¹ * pl st.C := by
        ext i
        rw [coeff_C_mul, coeff_pl, coeff_pl]
        by_cases hi : i < NR + 1
        · rw [hB i hi, div_eq_inv_mul]
        · rw [List.getD_eq_default _ _ (by omega), List.getD_eq_default _ _ (by omega), mul_zero]
      refine Ok.some ⟨hTl, hBl, ?_, ?_, ?_, by simp, by simp⟩
      · simp only [hTp]; exact hup.1 hj
      · refine Or.inr ⟨n, st.L, ?_, ?_, ?_, ?_, by simp only; omega, by simp only; omega, by simp⟩
        · simp only [hBp]; exact (natDegree_C_mul_le _ _).trans g.deg
        · simp only [hBp]; exact Dvd.dvd.mul_left g.dvd _
        · intro j h1 h2; simp only [hBp]
          rw [mul_assoc, coeff_C_mul, g.van j h1 h2, mul_zero]
        · simp only [hBp]
          rw [mul_assoc, coeff_C_mul, ← hd, inv_mul_cancel₀ hd0]
      · intro τ ℓ h1 h2 h3 h4
        have := minimal_jump hΓ hΓne g (by rw [← hd]; exact hd0) τ ℓ h1 h2 h3
        simp only; omega
    · rw [if_neg hj]
      simp only [Option.bind_some, hcopy]
      refine Ok.some ⟨hTl, lB, ?_, ?_, ?_, by simp, by simp; omega⟩
      · simp only [hTp]; exact hup.2 (by omega)
      · rcases h.aux with ⟨h1, h2, h3, h4⟩ | ⟨nB, LB, h1, h2, h3, h4, h5, h6, h7⟩
        · omega
        · exact Or.inr ⟨nB, LB, h1, h2, h3, h4, h5, by simp only; omega, by simp⟩
      · intro τ ℓ h1 h2 h3 h4
        exact h.min τ ℓ h1 h2 (fun j hj hj' => h3 j hj (by omega)) h4

/-- Berlekamp-Massey with erasures. -/
theorem bm_ok {NR ρ : Nat} {Γ : F[X]} {s Cl : List F} (hΓ : Γ.natDegree = ρ) (hΓ0 : Γ.coeff 0 = 1)
    (hs : s.length = NR) (hCl : Cl.length = NR + 1) (hC : pl Cl = Γ) (hρ : ρ ≤ NR) :
    Ok (bm (G.fieldOps u ui) NR s Cl ρ) (fun r => r.1.length = NR + 1 ∧
      Good Γ (pl s) ρ NR (pl r.1) r.2 ∧ Minimal Γ (pl s) NR r.2) := by
  unfold bm
  simp only [Option.bind_eq_bind]
  rw [copy_ok (src := Cl) (by omega) (by rw [List.length_replicate])
    (fun i l => rfl), List.take_of_length_le (by omega)]
  simp only [Option.bind_eq_bind, Option.bind_some]
  refine Ok.bind (forUp_inv (fun n st => BMInv NR Γ (pl s) ρ n st) hρ ?_ ?_) ?_
  · refine ⟨hCl, hCl, ⟨?_, ?_, ?_, ?_, le_rfl, le_rfl⟩, Or.inl ⟨hC, hC, rfl, by simp⟩, ?_, by simp, by simp⟩
    · simp only [hC, hΓ0]
    · simp only [hC, hΓ]; exact le_rfl
    · simp only [hC]; exact dvd_rfl
    · intro j h1 h2; simp only at h1; omega
    · intro τ ℓ _ _ _ h; simp only; omega
  · intro n st h1 h2 h3
    exact bmStep_ok G u ui hΓ hΓ0 hs h2 h1 h3
  · intro st h
    exact Ok.some ⟨h.lC, h.good, h.min⟩

end Verif.RS
