import Verif.RS.Forney
/- `ReedSolomonErrorCorrection::operator()`. -/
namespace Verif.RS
open Polynomial Finset

variable {F : Type} [Field F] (G : Gf F) (u : F) (ui : Fin G.N)

/-- The exceptional quadratic locators. -/
def SkippedP (c : F[X]) : Prop := G.num (c.coeff 2 * c.coeff 0 / (c.coeff 1 * c.coeff 1)) = G.N

/-- What is known about the outcome; `c` and `L` are the locator and the register length found by
Berlekamp-Massey. -/
structure ECPost (NR FCR : Nat) (R : Finset Nat) (S : F[X]) (res : ECRes F (Fin G.N)) (c : F[X]) (L : Nat) :
    Prop where
  good : Good (sigma (xl G) R) S R.card NR c L
  minl : Minimal (sigma (xl G) R) S NR L
  llen : res.locs.length = NR
  mlen : res.mags.length = NR
  ret : res.ret = -1 ∨ res.ret = c.natDegree
  found : res.ret ≠ -1 → (posOf G res.locs c.natDegree).Nodup ∧
    c = sigma (xl G) (posOf G res.locs c.natDegree).toFinset ∧
    ∀ i (h : i < res.locs.length), i < c.natDegree →
      res.mags.getD i 0 * xl G (res.locs[i]).1 ^ FCR *
        (sigma (xl G) ((posOf G res.locs c.natDegree).toFinset.erase (res.locs[i]).1)).eval
          (xl G (res.locs[i]).1)⁻¹ =
      ∑ j ∈ range (min c.natDegree (NR - 1) + 1), (c * S).coeff j * (xl G (res.locs[i]).1)⁻¹ ^ j
  complete : ∀ A : Finset Nat, (∀ p ∈ A, p < G.N) → c = sigma (xl G) A →
    ¬ (c.natDegree = 2 ∧ SkippedP G c) → res.ret ≠ -1
  skipped : c.natDegree = 2 → SkippedP G c → res.ret = -1

theorem mem_posOf {locs : List (Fin G.N)} {n i : Nat} (h : i < locs.length) (hi : i < n) :
    (locs[i]).1 ∈ posOf G locs n := by
  unfold posOf
  rw [List.mem_map]
  refine ⟨locs[i], ?_, rfl⟩
  rw [List.mem_iff_getElem]
  exact ⟨i, by rw [List.length_take]; omega, by simp⟩

theorem errorCorrection_ok {NR FCR count : Nat} {im syn mags : List F} {locs er : List (Fin G.N)}
    (hI : Imap G im) (hNR : 0 < NR) (hNRN : NR < G.N) (hs : syn.length = NR) (hlocs : locs.length = NR)
    (hmags : mags.length = NR) (hcount : count ≤ NR) (her : count ≤ er.length) (hnd : (posOf G er count).Nodup)
    (hnz : ∃ i, i < NR ∧ syn.getD i 0 ≠ 0) :
    Ok (errorCorrection (G.fieldOps u ui) NR FCR im syn locs mags er count) (fun res =>
      ∃ c L, ECPost G NR FCR (posOf G er count).toFinset (pl syn) res c L) := by
  set R := (posOf G er count).toFinset with hR
  have hRc : R.card = count := by
    rw [hR, List.toFinset_card_of_nodup hnd]
    exact posOf_length G (r := (er, count)) rfl her
  unfold errorCorrection
  refine Ok.bind' (P := fun _ => True) (Ok.assertUB hcount trivial) fun _ _ => ?_
  refine Ok.bind' (erasureLocator_ok G u ui hcount her hnd) ?_
  rintro loc0 ⟨hl0, hp0⟩
  have hbm := bm_ok G u ui (NR := NR) (ρ := count) (Γ := sigma (xl G) R) (s := syn) (Cl := loc0)
    (by rw [sigma_natDegree (xl_ne G), hRc]) sigma_coeff_zero hs hl0 hp0 hcount
  refine Ok.bind' hbm ?_
  rintro ⟨loc, L⟩ ⟨hl, good, hmin⟩
  dsimp only at hl good hmin ⊢
  rw [← hRc] at good
  have hL0 : L ≠ 0 := by
    rintro rfl
    obtain ⟨i, hi, hne⟩ := hnz
    apply hne
    have hd : (pl loc).natDegree = 0 := Nat.le_zero.1 good.deg
    have h1 : pl loc = 1 := by
      rw [eq_C_of_natDegree_eq_zero hd, good.c0, C_1]
    have := good.van i (Nat.zero_le _) hi
    rw [h1, one_mul, coeff_pl] at this
    exact this
  refine Ok.bind' (P := fun _ => True) (Ok.assertUB hL0 trivial) fun _ _ => ?_
  refine Ok.bind' (P := fun _ => True) (Ok.assertUB good.hi trivial) fun _ _ => ?_
  have hc0 := good.c0
  have hLhi := good.hi
  have hdeg := good.deg
  rw [rd_of_lt (show 0 < loc.length by omega), sb, Gf.f_mkV1, sb]
  refine Ok.bind' (P := fun _ => True) (Ok.assertUB ?_ trivial) fun _ _ => ?_
  · rw [getElem_eq_getD _ 0, ← coeff_pl, hc0]
  rw [trimDeg_ok G u ui (by omega) hdeg (by rw [hc0]; exact one_ne_zero), sb]
  dsimp only
  set deg := (pl loc).natDegree with hdegd
  refine Ok.bind' (findLoc_ok G u ui hI (n := NR) (by omega) hdegd.symm hc0 (by omega) hlocs (by omega)) ?_
  rintro ⟨ls, cnt⟩ ⟨hf, hskip, hcomp⟩
  have hskipP : Skipped G loc ↔ SkippedP G (pl loc) := by
    unfold Skipped SkippedP; simp only [coeff_pl]
  dsimp only at hskip hcomp ⊢
  by_cases hlt : cnt < deg
  · rw [if_pos hlt]
    refine Ok.some ⟨pl loc, L, good, hmin, hf.len, hmags, Or.inl rfl, fun h => absurd rfl h, ?_, fun _ _ => rfl⟩
    intro A hA hAe hns
    have := hcomp A hA hAe (by rw [hskipP]; exact hns)
    omega
  · rw [if_neg hlt]
    have hcnt : cnt = deg := le_antisymm hf.cnt (by omega)
    subst hcnt
    have hfn := hf.nodup
    have hfl := hf.len
    dsimp only at hfn hfl
    have hplen : (posOf G ls deg).length = deg := posOf_length G (r := (ls, deg)) hfl hf.cntn
    have hcA : pl loc = sigma (xl G) (posOf G ls deg).toFinset := by
      refine eq_sigma (xl_ne G) (xl_inj G ?_) ?_ hc0 ?_
      · intro p hp; rw [List.mem_toFinset] at hp; exact posOf_lt G hp
      · intro p hp
        rw [List.mem_toFinset] at hp
        rw [xl_inv]; exact hf.root p hp
      · rw [List.toFinset_card_of_nodup hfn, hplen]
    refine Ok.bind' (computeEvaluator_ok G u ui hNR hs (by omega) (by rw [List.length_replicate])) ?_
    rintro ⟨ev, evd⟩ hev
    dsimp only
    have hcm := computeMagnitudes_ok G u ui (FCR := FCR) (A := (posOf G ls deg).toFinset) (locs := ls)
      (mags := mags) (deg := deg) (loc := loc) (r := (ev, evd))
      hNR (by intro p hp; rw [List.mem_toFinset] at hp; exact posOf_lt G hp) hcA
      (by rw [List.toFinset_card_of_nodup hfn, hplen]) (by omega) hev (by omega) (by omega)
      (by intro i h hi; rw [List.mem_toFinset]; exact mem_posOf G h hi)
    dsimp only at hcm
    refine Ok.bind' hcm ?_
    · rintro ms ⟨hml, hms⟩
      refine Ok.some ⟨pl loc, L, good, hmin, hfl, by rw [hml, hmags], Or.inr rfl, fun _ => ⟨hfn, hcA, hms⟩,
        fun _ _ _ _ => by simp only; omega, ?_⟩
      intro h2 hsk
      have := hskip ⟨h2, hskipP.2 hsk⟩
      omega

end Verif.RS
