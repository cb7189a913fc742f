import Verif.BCH.Model
import Verif.RS.Dec
/- The BCH decoders at the level of an abstract field. -/
namespace Verif.BCH
open Verif.RS Polynomial Finset

variable {F : Type} [Field F] (G : Gf F) (u : F) (ui : Fin G.N) {σ : Type}

/-- How the buffers `s` hold a block `W` of `dl + NP` field elements. -/
structure AccOK (A : Access σ F) (dl NP : Nat) (Inv : σ → (Nat → F) → Prop) : Prop where
  getd : ∀ s W j, Inv s W → j < dl → A.get s true j = some (W j)
  getp : ∀ s W j, Inv s W → j < NP → A.get s false j = some (W (dl + j))
  updd : ∀ s W j m, Inv s W → j < dl → G.num m ≤ 1 → ∃ s', A.upd s true j m = some s' ∧
    Inv s' (fun i => if i = j then W i + m else W i)
  updp : ∀ s W j m, Inv s W → j < NP → G.num m ≤ 1 → ∃ s', A.upd s false j m = some s' ∧
    Inv s' (fun i => if i = dl + j then W i + m else W i)
  congr : ∀ s W W', Inv s W → (∀ j, j < dl + NP → W' j = W j) → Inv s W'
  ext : ∀ s s' W, Inv s W → Inv s' W → s = s'

theorem anyMagBig_ok {mags : List F} {count : Nat} (h : count ≤ mags.length) :
    Ok (anyMagBig (G.fieldOps u ui) mags count) (fun b =>
      b = true ↔ ∃ i, i < count ∧ 1 < G.num (mags.getD i 0)) := by
  unfold anyMagBig
  refine forUp_inv (fun k (b : Bool) => b = true ↔ ∃ i, i < k ∧ 1 < G.num (mags.getD i 0))
    (Nat.zero_le _) (by simp) ?_
  intro k b _ hk hb
  rw [rd_of_lt (show k < mags.length by omega), sb]
  refine Ok.some ?_
  rw [Bool.or_eq_true, hb, decide_eq_true_iff, Gf.f_num, getElem_eq_getD (a := mags) _ 0]
  constructor
  · rintro (⟨i, h1, h2⟩ | h1)
    · exact ⟨i, by omega, h2⟩
    · exact ⟨k, by omega, h1⟩
  · rintro ⟨i, h1, h2⟩
    by_cases hik : i = k
    · subst hik; exact Or.inr h2
    · exact Or.inl ⟨i, by omega, h2⟩

theorem applyMags_ok {A : Access σ F} {K NP dl count : Nat} {Inv : σ → (Nat → F) → Prop} (hA : AccOK G A dl NP Inv)
    {locs : List (Fin G.N)} {mags : List F} {s : σ} {W : Nat → F}
    (hK : K + NP = G.N) (hdl : dl ≤ K) (hs : Inv s W)
    (hl : count ≤ locs.length) (hm : count ≤ mags.length) (hsmall : ∀ i, i < count → G.num (mags.getD i 0) ≤ 1)
    (hge : ∀ p ∈ posOf G locs count, K - dl ≤ p) :
    Ok (applyMags (G.fieldOps u ui) A K locs mags count dl s) (fun r =>
      Inv r (fun j => W j + mg (posOf G locs count) mags count (K - dl + j))) := by
  unfold applyMags
  refine forUp_inv (fun k r => Inv r (fun j => W j + mg (posOf G locs count) mags k (K - dl + j))) (Nat.zero_le _) ?_ ?_
  · refine hA.congr s W _ hs fun j _ => ?_
    simp [mg]
  · intro k r _ hk hr
    have hlk := hge _ (mem_posOf G (show k < locs.length by omega) hk)
    have hlk2 := (locs[k]).2
    have hpk := posOf_getD G hk (show k < locs.length by omega)
    rw [rd_of_lt (show k < locs.length by omega), sb, rd_of_lt (show k < mags.length by omega), sb, Gf.f_numI]
    have hsm : G.num mags[k] ≤ 1 := by rw [getElem_eq_getD (a := mags) _ 0]; exact hsmall k hk
    dsimp only
    by_cases hb : (locs[k]).1 + dl - K < dl
    · rw [if_pos hb]
      obtain ⟨s', h1, h2⟩ := hA.updd r _ _ mags[k] hr hb hsm
      refine ⟨s', h1, hA.congr _ _ _ h2 fun j hj => ?_⟩
      rw [mg_succ, hpk]
      by_cases hj : j = (locs[k]).1 + dl - K
      · rw [if_pos (by omega), if_pos hj, getElem_eq_getD (a := mags) _ 0, add_assoc]
      · rw [if_neg (by omega), if_neg hj, add_zero]
    · rw [if_neg hb]
      obtain ⟨s', h1, h2⟩ := hA.updp r _ ((locs[k]).1 + dl - K - dl) mags[k] hr (by omega) hsm
      refine ⟨s', h1, hA.congr _ _ _ h2 fun j hj => ?_⟩
      rw [mg_succ, hpk]
      by_cases hj : j = dl + ((locs[k]).1 + dl - K - dl)
      · rw [if_pos (by omega), if_pos hj, getElem_eq_getD (a := mags) _ 0, add_assoc]
      · rw [if_neg (by omega), if_neg hj, add_zero]

/-- What a BCH decoder does: as the symbol decoder (which turns `W` into `V` and returns `vret`), but
it refuses changes that are not bit flips. -/
structure BSem (NR FCR n : Nat) (R : Finset Nat) (W V : Nat → F) (vret ret : Int) : Prop where
  dec : DecSem G NR FCR n R W V vret
  cases : (ret = vret ∧ ∀ j, j < n → G.num (V j + W j) ≤ 1) ∨
    (ret = -1 ∧ ∃ j, j < n ∧ 1 < G.num (V j + W j))

theorem num_zero_le {x : F} (h : x = 0) : G.num x ≤ 1 := by rw [h, G.num_zero]; omega

theorem decode_ok {A : Access σ F} {NR FCR K NP count dl : Nat} {im : List F} {er : List (Fin G.N)}
    {Inv : σ → (Nat → F) → Prop} (hA : AccOK G A dl NP Inv) {s : σ} {W : Nat → F} (hs : Inv s W)
    (hI : Imap G im) (hF : FCR < G.N) (hNR : 0 < NR) (hNRN : NR < G.N) (hdl : 0 < dl) (hdlK : dl ≤ K)
    (hK : K + NP = G.N) (hcount : count ≤ NR) (her : count ≤ er.length)
    (hnd : (posOf G er count).Nodup) (hlt : ∀ p ∈ posOf G er count, p < dl + NP) :
    Ok (decode (G.fieldOps u ui) A NR FCR K NP im s er count dl) (fun r => r.erasures.length = er.length ∧
      (r.ret ≤ 0 → r.buf = s) ∧ ∃ V vret, BSem G NR FCR (dl + NP) (posOf G er count).toFinset W V vret r.ret ∧
        (r.ret ≠ -1 → Inv r.buf V)) := by
  classical
  unfold decode
  refine Ok.bind' (P := fun _ => True) (Ok.assertUB hcount trivial) fun _ _ => ?_
  refine Ok.bind' (P := fun _ => True) (Ok.assertUB ⟨hdl, hdlK⟩ trivial) fun _ _ => ?_
  refine Ok.bind' (shiftErasures_ok G u ui (n := dl + NP) hdlK (by omega) her hlt) ?_
  rintro er' ⟨he1, he2, he3⟩
  have hRlt : ∀ p ∈ (posOf G er count).toFinset, p < dl + NP := fun p hp => hlt p (List.mem_toFinset.1 hp)
  refine Ok.bind' (computeSyndromes_ok G u ui (W := W) (K := K) (NP := NP) hF
    (List.length_replicate) hdl hdlK (fun j hj => hA.getd s W j hs hj) (fun j hj => hA.getp s W j hs hj)) ?_
  rintro ⟨syn, nz⟩ ⟨hs1, hs2, hs3⟩
  dsimp only at hs1 hs2 hs3 ⊢
  have hnz : nz = 0 ↔ Cw G NR FCR (dl + NP) W := by
    rw [hs3, Finset.card_eq_zero, Finset.filter_eq_empty_iff]
    unfold Cw
    simp
  have hww : ∀ j, j < dl + NP → G.num (W j + W j) ≤ 1 := fun j _ => num_zero_le G (G.add_self _)
  by_cases h0 : nz = 0
  · rw [if_pos h0]
    exact Ok.some ⟨he1, fun _ => rfl, W, 0, ⟨sem_clean G (by omega) (hnz.1 h0), Or.inl ⟨rfl, hww⟩⟩, fun _ => hs⟩
  rw [if_neg h0]
  have hnc : ¬ Cw G NR FCR (dl + NP) W := fun h => h0 (hnz.2 h)
  have hec := errorCorrection_sem G u ui (FCR := FCR) (count := count) (er := er')
    (s := fun i => ev (dl + NP) W (G.al ^ (FCR + i))) (locs := List.replicate NR (G.fieldOps u ui).junkI)
    (mags := List.replicate NR (G.fieldOps u ui).junk)
    hI hNR hNRN hs1 List.length_replicate List.length_replicate hcount (by omega)
    (by rw [he3]; exact posOf_map_nodup _ hnd) hs2 (by
      unfold Cw at hnc
      push Not at hnc
      exact hnc)
  refine Ok.bind' hec ?_
  intro res hsem
  have ho : K - dl = G.N - (dl + NP) := by omega
  have himg : (posOf G er' count).toFinset = (posOf G er count).toFinset.image (G.N - (dl + NP) + ·) := by
    rw [he3]
    ext p
    simp only [List.mem_toFinset, List.mem_map, Finset.mem_image]
    rw [ho]
  rw [himg] at hsem
  have hlen := hsem.llen
  have hmlen := hsem.mlen
  have hret := hsem.ret
  by_cases hle : res.ret ≤ 0
  · rw [if_pos hle]
    refine Ok.some ⟨he1, fun _ => rfl, W, res.ret, ⟨?_, Or.inl ⟨rfl, hww⟩⟩, fun _ => hs⟩
    refine sem_of_ec G (by omega) hRlt hnc hsem (fun h => h) ?_ (fun _ _ _ => rfl) ?_ ?_
    · rintro c hc ⟨p, hp, _⟩
      have : c = 0 := by omega
      subst this
      simp [posOf] at hp
    · intro c hc _
      have : c = 0 := by omega
      subst this
      exact ⟨by omega, fun j _ => by simp [mg]⟩
    · intro c hc _ s hs
      have : c = 0 := by omega
      subst this
      have : s = ∅ := by ext i; rw [hs]; simp
      rw [this, hc]; rfl
  rw [if_neg hle]
  have hnN : dl + NP ≤ G.N := by omega
  obtain ⟨cnt, hcr, hcN, hndp⟩ : ∃ cnt : Nat, res.ret = cnt ∧ cnt ≤ NR ∧ (posOf G res.locs cnt).Nodup := by
    obtain ⟨cnt, h1, h2, h3, _⟩ := hret.resolve_left (by omega)
    exact ⟨cnt, h1, h2, h3⟩
  clear hret
  rw [hcr, Int.toNat_natCast]
  refine Ok.bind' (anyLocBelow_ok G u ui (by omega)) ?_
  intro bad hbad
  rw [ho] at hbad
  have hunq : ∀ c : Nat, res.ret = c → c = cnt := by intro c hc; omega
  cases bad with
  | true =>
    rw [if_pos rfl]
    refine Ok.some ⟨he1, fun _ => rfl, W, -1, ⟨?_, Or.inl ⟨rfl, hww⟩⟩, fun _ => hs⟩
    have hb := hbad.1 rfl
    obtain ⟨q, hq, hq2⟩ := hb
    refine sem_of_ec G (by omega) hRlt hnc hsem (fun _ => rfl) (fun _ _ _ => rfl) (fun _ _ _ => rfl) ?_ ?_
    · intro c hc hge
      rw [hunq c hc] at hge
      have := hge q hq
      omega
    · intro c hc hge
      rw [hunq c hc] at hge
      have := hge q hq
      omega
  | false =>
    have hge : ∀ p ∈ posOf G res.locs cnt, G.N - (dl + NP) ≤ p := by
      intro p hp
      by_contra hlt
      have := hbad.2 ⟨p, hp, by omega⟩
      exact absurd this (by simp)
    rw [if_neg (by simp)]
    have hplen : (posOf G res.locs cnt).length = cnt := by
      unfold posOf; rw [List.length_map, List.length_take]; omega
    set V : Nat → F := fun j => W j + mg (posOf G res.locs cnt) res.mags cnt (G.N - (dl + NP) + j) with hV
    have hVW : ∀ j, V j + W j = mg (posOf G res.locs cnt) res.mags cnt (G.N - (dl + NP) + j) := by
      intro j
      rw [hV]
      dsimp only
      rw [add_comm, ← add_assoc, G.add_self, zero_add]
    have hsem' : DecSem G NR FCR (dl + NP) (posOf G er count).toFinset W V
        (((range cnt).filter fun i => res.mags.getD i 0 ≠ 0).card : Int) := by
      refine sem_of_ec G (by omega) hRlt hnc hsem (fun h => by omega) ?_ (fun h => by omega) ?_ ?_
      · rintro c hc ⟨p, hp, hlt⟩
        rw [hunq c hc] at hp
        have := hge p hp
        omega
      · intro c hc _
        rw [hunq c hc]
        exact ⟨by omega, fun j _ => rfl⟩
      · intro c hc _ s hs
        rw [hunq c hc] at hs
        congr 2
        ext i
        rw [hs, mem_filter, mem_range]
    refine Ok.bind' (anyMagBig_ok G u ui (by omega)) ?_
    intro big hbig
    cases big with
    | true =>
      rw [if_pos rfl]
      refine Ok.some ⟨he1, fun _ => rfl, V, _, ⟨hsem', Or.inr ⟨rfl, ?_⟩⟩, fun h => absurd rfl h⟩
      obtain ⟨i, hi, hm⟩ := hbig.1 rfl
      have hmem : (posOf G res.locs cnt).getD i 0 ∈ posOf G res.locs cnt := by
        rw [List.getD_eq_getElem _ _ (by omega)]
        exact List.getElem_mem _
      have h1 := hge _ hmem
      have h2 := posOf_lt G hmem
      have h3 := mg_at (mags := res.mags) hndp hplen.symm hi
      clear hbig
      generalize (posOf G res.locs cnt).getD i 0 = p at h1 h2 h3
      refine ⟨p - (G.N - (dl + NP)), by omega, ?_⟩
      rw [hVW, Nat.add_sub_cancel' h1, h3]
      exact hm
    | false =>
      rw [if_neg (by simp)]
      have hsmall : ∀ i, i < cnt → G.num (res.mags.getD i 0) ≤ 1 := by
        intro i hi
        by_contra h
        have := hbig.2 ⟨i, hi, by omega⟩
        exact absurd this (by simp)
      have hap := applyMags_ok G u ui hA (locs := res.locs) (mags := res.mags) (count := cnt) hK hdlK hs (by omega)
        (by omega) hsmall (by rw [ho]; exact hge)
      rw [ho] at hap
      refine Ok.bind' hap ?_
      intro s' hs'
      rw [countNonzero_ok G u ui (by omega), sb]
      have hsv : ∀ j, j < dl + NP → G.num (V j + W j) ≤ 1 := by
        intro j hj
        rw [hVW]
        by_cases hm : G.N - (dl + NP) + j ∈ posOf G res.locs cnt
        · rw [List.mem_iff_getElem] at hm
          obtain ⟨i, hi, he⟩ := hm
          have hgd : (posOf G res.locs cnt).getD i 0 = G.N - (dl + NP) + j := by
            rw [List.getD_eq_getElem _ _ hi, he]
          rw [← hgd, mg_at hndp hplen.symm (by omega)]
          exact hsmall i (by omega)
        · rw [mg_not_mem hplen.symm hm]
          exact num_zero_le G rfl
      refine Ok.some ⟨he1, ?_, V, _, ⟨hsem', Or.inl ⟨rfl, hsv⟩⟩, fun _ => hs'⟩
      dsimp only
      intro hz
      have hz0 : (((range cnt).filter fun i => res.mags.getD i 0 ≠ 0).card) = 0 := by omega
      have hall : ∀ i, i < cnt → res.mags.getD i 0 = 0 := by
        rw [Finset.card_eq_zero, Finset.filter_eq_empty_iff] at hz0
        intro i hi
        have := hz0 (mem_range.2 hi)
        rwa [not_not] at this
      refine hA.ext s' s W (hA.congr _ _ _ hs' fun j _ => ?_) hs
      have : mg (posOf G res.locs cnt) res.mags cnt (G.N - (dl + NP) + j) = 0 := by
        unfold mg
        refine Finset.sum_eq_zero fun i hi => ?_
        rw [hall i (mem_range.1 hi)]; simp
      rw [this, add_zero]

end Verif.BCH
