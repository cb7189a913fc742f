import Verif.RS.Props
import Mathlib.FieldTheory.Finite.Basic
/- C26: the shortcut of `LocationFinder` for one and two positions against the exhaustive search,
and what the value skipped by `ArtinSchreier()` means for the decoder. -/
namespace Verif.RS
open Verif.GF Finset Polynomial

section field
variable {F : Type} [Field F] (G : Gf F) (u : F) (ui : Fin G.N)

theorem search_field {im loc : List F} {deg n : Nat} {locs : List (Fin G.N)} (hI : Imap G im)
    (h12 : deg = 1 ∨ deg = 2) (hl : deg < loc.length) (h0 : loc.getD 0 0 = 1) (hd : loc.getD deg 0 ≠ 0)
    (hz : ∀ i, deg < i → loc.getD i 0 = 0) (hn : locs.length = n) (hdn : deg ≤ n) :
    ∃ rf rc, findLoc (G.fieldOps u ui) im loc deg locs = some rf ∧
      chien (G.fieldOps u ui) loc deg locs = some rc ∧ rf.1.length = n ∧ rc.1.length = n ∧
      rf.2 ≤ deg ∧ rc.2 ≤ deg ∧ (posOf G rf.1 rf.2).Nodup ∧ (posOf G rc.1 rc.2).Nodup ∧
      (∀ p, p ∈ posOf G rc.1 rc.2 ↔ p < G.N ∧ (pl loc).eval (G.al ^ (p + 1)) = 0) ∧
      (∀ p, p ∈ posOf G rf.1 rf.2 → p ∈ posOf G rc.1 rc.2) ∧
      (deg = 2 ∧ Skipped G loc → rf.2 = 0) ∧
      (¬ (deg = 2 ∧ Skipped G loc) → (rf.2 = deg ↔ rc.2 = deg)) ∧
      (rf.2 = deg → ∀ p, p ∈ posOf G rc.1 rc.2 → p ∈ posOf G rf.1 rf.2) := by
  classical
  have hN := G.N_ge
  have hnd : (pl loc).natDegree = deg := by
    apply le_antisymm
    · refine natDegree_le_iff_coeff_eq_zero.2 fun i hi => ?_
      rw [coeff_pl]; exact hz i hi
    · exact le_natDegree_of_ne_zero (by rw [coeff_pl]; exact hd)
  have hc1 : (pl loc).coeff 0 = 1 := by rw [coeff_pl, h0]
  have hc0 : pl loc ≠ 0 := by intro h; rw [h] at hc1; simp at hc1
  have hrl : ∀ l : List Nat, l.Nodup → (∀ p ∈ l, p < G.N) → (∀ p ∈ l, (pl loc).eval (G.al ^ (p + 1)) = 0) →
      l.length ≤ deg := by
    intro l h1 h2 h3
    rw [← hnd]
    exact nodup_roots_le G hc0 h1 h2 h3
  obtain ⟨rf, hrf, hF, hs, hns⟩ := findLoc_ok G u ui (locs := locs) hI hl hnd hc1 (by omega) hn hdn
  obtain ⟨rc, hrc, hcl, hcp, hcn⟩ := chien_ok G u ui (locs := locs) hl hnd (by rw [hc1]; exact one_ne_zero) (by omega) hn hdn
  have hmem : ∀ p, p ∈ posOf G rc.1 rc.2 ↔ p < G.N ∧ (pl loc).eval (G.al ^ (p + 1)) = 0 := by
    intro p
    rw [hcp, List.mem_filter, List.mem_range, decide_eq_true_iff]
  have hcnd : (posOf G rc.1 rc.2).Nodup := by
    rw [hcp]; exact List.nodup_range.filter _
  have hlc := posOf_length G hcl hcn
  have hlf := posOf_length G hF.len hF.cntn
  have hcd : rc.2 ≤ deg := by
    rw [← hlc]
    exact hrl _ hcnd (fun p hp => ((hmem p).1 hp).1) (fun p hp => ((hmem p).1 hp).2)
  have hsub : ∀ p, p ∈ posOf G rf.1 rf.2 → p ∈ posOf G rc.1 rc.2 := by
    intro p hp
    exact (hmem p).2 ⟨posOf_lt G hp, hF.root p hp⟩
  have hfc : rf.2 = deg → ∀ p, p ∈ posOf G rc.1 rc.2 → p ∈ posOf G rf.1 rf.2 := by
    intro h p hp
    have h1 : (posOf G rf.1 rf.2).toFinset = (posOf G rc.1 rc.2).toFinset := by
      apply Finset.eq_of_subset_of_card_le
      · intro q hq
        rw [List.mem_toFinset] at hq ⊢
        exact hsub q hq
      · rw [List.toFinset_card_of_nodup hcnd, List.toFinset_card_of_nodup hF.nodup, hlc, hlf]
        omega
    rw [← List.mem_toFinset, h1, List.mem_toFinset]
    exact hp
  refine ⟨rf, rc, hrf, hrc, hF.len, hcl, hF.cnt, hcd, hF.nodup, hcnd, hmem, hsub, hs, ?_, hfc⟩
  intro hsk
  constructor
  · intro h
    have h1 : (posOf G rf.1 rf.2).length ≤ (posOf G rc.1 rc.2).length := by
      rw [← List.toFinset_card_of_nodup hcnd, ← List.toFinset_card_of_nodup hF.nodup]
      apply Finset.card_le_card
      intro q hq
      rw [List.mem_toFinset] at hq ⊢
      exact hsub q hq
    omega
  · intro h
    refine hns (posOf G rc.1 rc.2).toFinset ?_ ?_ hsk
    · intro p hp
      rw [List.mem_toFinset] at hp
      exact posOf_lt G hp
    · refine eq_sigma (xl_ne G) (xl_inj G ?_) ?_ hc1 ?_
      · intro p hp
        rw [List.mem_toFinset] at hp
        exact posOf_lt G hp
      · intro p hp
        rw [List.mem_toFinset] at hp
        rw [xl_inv]
        exact ((hmem p).1 hp).2
      · rw [List.toFinset_card_of_nodup hcnd, hlc, hnd]; omega

end field

variable {w M P : Nat} {T : Tab} {NR FCR dl : Nat}

/-- The positions at which a locator polynomial (lowest coefficient first) vanishes: position `p`
of the unshortened block belongs to the root `x^(p+1)`. -/
def IsRoot (P : Nat) (l : List Nat) (p : Nat) : Prop :=
  ∑ k ∈ range l.length, toR P (l.getD k 0) * (xR P ^ (p + 1)) ^ k = 0

/-- The positions a search returns. -/
def found {n : Nat} (r : List (Fin n) × Nat) : List Nat := (r.1.take r.2).map Fin.val

/-- For a locator of degree one or two with constant term one: the exhaustive search returns the
root positions; the shortcut returns a subset of them; it finds as many as the degree exactly if
the exhaustive search does, and then the same ones -- except if the quadratic `1 + b x + a x^2` has
`a = b^2 * all-ones`: then it finds none. -/
theorem C26_search (R : Ready w M P T) (hM : 1 < M) (u : Val M) (ui : Fin (2 ^ M - 1)) {im loc : List (Val M)}
    (him : artin (tableOps w M T u ui) = some im) {deg : Nat} (h12 : deg = 1 ∨ deg = 2)
    (hl : loc.length = deg + 1) (h0 : (loc.map Val.v).getD 0 0 = 1) (hd : (loc.map Val.v).getD deg 0 ≠ 0)
    (locs : List (Fin (2 ^ M - 1))) (hn : deg ≤ locs.length) :
    ∃ rf rc, findLoc (tableOps w M T u ui) im loc deg locs = some rf ∧
      chien (tableOps w M T u ui) loc deg locs = some rc ∧
      rf.2 ≤ deg ∧ rc.2 ≤ deg ∧ (found rf).Nodup ∧ (found rc).Nodup ∧
      (∀ p, p ∈ found rc ↔ p < 2 ^ M - 1 ∧ IsRoot P (loc.map Val.v) p) ∧
      (∀ p, p ∈ found rf → p ∈ found rc) ∧
      (deg = 2 → toR P ((loc.map Val.v).getD 1 0) ≠ 0 →
        toR P ((loc.map Val.v).getD 2 0) = toR P (2 ^ M - 1) * toR P ((loc.map Val.v).getD 1 0) ^ 2 → rf.2 = 0) ∧
      (¬ (deg = 2 ∧ toR P ((loc.map Val.v).getD 2 0) = toR P (2 ^ M - 1) * toR P ((loc.map Val.v).getD 1 0) ^ 2) →
        (rf.2 = deg ↔ rc.2 = deg)) ∧
      (rf.2 = deg → ∀ p, p ∈ found rf ↔ p ∈ found rc) := by
  letI := valField R
  rw [tableOps_eq R hM] at him ⊢
  have hI : Imap (valGf R hM) im := by
    obtain ⟨im', h, hI⟩ := artin_ok (valGf R hM) u ui
    have h' := h.symm.trans him
    cases h'
    exact hI
  have hv : ∀ i, (loc.map Val.v).getD i 0 = (loc.getD i 0).v := by
    intro i
    have := List.getD_map (d := (0 : Val M)) (f := Val.v) (l := loc) (n := i)
    rw [val_zero_v R] at this
    exact this
  have hz : ∀ x : Val M, x.v = 0 ↔ x = 0 := fun x => (valGf R hM).num_eq_zero
  have h1 : ∀ x : Val M, x.v = 1 ↔ x = 1 := fun x => (valGf R hM).num_eq_one
  have ht : ∀ x : Val M, toR P x.v = valIso R x := fun x => rfl
  have hQ : 0 < 2 ^ M := by positivity
  obtain ⟨rf, rc, hrf, hrc, _, _, a1, a2, a3, a4, a5, a6, a7, a8, a9⟩ := search_field (valGf R hM) u ui (loc := loc)
    (locs := locs) hI h12 (by omega) ((h1 _).1 (by rw [← hv]; exact h0)) (fun h => hd (by rw [hv, hz]; exact h))
    (fun i hi => by rw [List.getD_eq_default _ _ (by omega)]) rfl hn
  have hroot : ∀ p, (pl loc).eval ((valGf R hM).al ^ (p + 1)) = 0 ↔ IsRoot P (loc.map Val.v) p := by
    intro p
    rw [← map_eq_zero_iff _ (valIso R).injective, pl, eval_finsetSum, map_sum]
    unfold IsRoot
    rw [List.length_map]
    refine Eq.congr_left (Finset.sum_congr rfl fun k _ => ?_)
    rw [eval_monomial, map_mul, hv, ht, map_pow, map_pow, iso_al]
  have hskip : (loc.getD 1 0) ≠ 0 → (Skipped (valGf R hM) loc ↔
      toR P ((loc.map Val.v).getD 2 0) = toR P (2 ^ M - 1) * toR P ((loc.map Val.v).getD 1 0) ^ 2) := by
    intro hb
    have hl0 : loc.getD 0 0 = 1 := (h1 _).1 (by rw [← hv]; exact h0)
    have e1 : Skipped (valGf R hM) loc ↔ loc.getD 2 0 / (loc.getD 1 0 * loc.getD 1 0) = (⟨2 ^ M - 1, by omega⟩ : Val M) := by
      unfold Skipped
      rw [hl0, mul_one]
      exact ⟨fun h => Val.ext' h, fun h => by rw [h]; rfl⟩
    rw [e1, div_eq_iff (mul_ne_zero hb hb), hv, hv, ht, ht, ← (valIso R).injective.eq_iff, map_mul, map_mul, ← pow_two]
    rfl
  refine ⟨rf, rc, hrf, hrc, a1, a2, a3, a4, ?_, a6, ?_, ?_, ?_⟩
  · intro p
    rw [← hroot]
    exact a5 p
  · intro hd2 hb hs
    rw [hv, ht, ne_eq, map_eq_zero_iff _ (valIso R).injective] at hb
    exact a7 ⟨hd2, (hskip hb).2 hs⟩
  · intro hns
    by_cases hb : loc.getD 1 0 = 0
    · rcases h12 with h | h
      · subst h
        exact absurd hb (fun h => hd (by rw [hv, hz]; exact h))
      · subst h
        apply a8
        rintro ⟨_, hs⟩
        unfold Skipped at hs
        rw [hb, mul_zero, div_zero, (valGf R hM).num_zero] at hs
        have := (valGf R hM).N_ge
        omega
    · apply a8
      rintro ⟨h2, hs⟩
      exact hns ⟨h2, (hskip hb).1 hs⟩
  · intro h p
    exact ⟨a6 p, a9 h p⟩

/-- The decoder gives up on every correctable but excluded two-position pattern (unless nothing
is wrong). -/
theorem C26_rejected (R : Ready w M P T) (hM : 1 < M) (u : Val M) (ui : Fin (2 ^ M - 1)) (p : Params M NR FCR dl)
    {im data parity : List (Val M)} {er : List (Fin (2 ^ M - 1))} {count : Nat}
    (call : Call (tableOps w M T u ui) NR dl im data parity er count)
    {c : List Nat} (hcl : c.length = dl + NR) (hcv : ∀ x ∈ c, x < 2 ^ M) (hc : Codeword P NR FCR c)
    (hcap : 2 * (diffPos (blk data parity dl NR) c \ erased er count).card + count ≤ NR)
    (hne : blk data parity dl NR ≠ c)
    (hex : Excluded P M (dl + NR) (erased er count ∪ (diffPos (blk data parity dl NR) c \ erased er count))) :
    ∃ r, decode (tableOps w M T u ui) NR FCR im data parity er count dl = some r ∧ r.ret = -1 := by
  letI := valField R
  obtain ⟨r, hr, h1, h2, h3, h4, _, _, hs⟩ := decode_sem R hM u ui p call
  have hd := call.hdata
  have hp := call.hparity
  have hbl := blk_length hd hp
  obtain ⟨W, hW⟩ := lift_block hcv
  have hlt := erased_lt call.inside
  have hcw : Cw (valGf R hM) NR FCR (dl + NR) W := by
    rw [← hcl]; exact (cw_iff R hM hW).2 hc
  have hbW : ∀ j, j < dl + NR → (blk data parity dl NR).getD j 0 = (word data parity dl j).v :=
    fun j hj => blk_getD R hd hp hj
  have hmem : ∀ j, j ∈ diffPos (blk data parity dl NR) c \ erased er count ↔
      j < dl + NR ∧ j ∉ erased er count ∧ word data parity dl j ≠ W j := by
    intro j
    rw [mem_sdiff, diffPos, mem_filter, mem_range, hbl]
    constructor
    · rintro ⟨⟨hj, hne⟩, hnot⟩
      refine ⟨hj, hnot, ?_⟩
      rw [hbW j hj, hW j (by omega)] at hne
      exact fun h => hne (by rw [h])
    · rintro ⟨hj, hnot, hne⟩
      refine ⟨⟨hj, ?_⟩, hnot⟩
      rw [hbW j hj, hW j (by omega)]
      exact fun h => hne (Val.ext' h)
  have key := hs.cap W _ hcw hmem (by rw [erased_card call.nodup call.her]; exact hcap)
  rw [exc'_iff R hM p.len (by
    intro q hq
    rcases Finset.mem_union.1 hq with hq | hq
    · exact hlt q hq
    · exact ((hmem q).1 hq).1)] at key
  refine ⟨r, hr, key.1 hex ?_⟩
  by_contra hall
  push Not at hall
  apply hne
  refine blk_eq_of hbl hcl fun j hj => ?_
  rw [hbW j hj, hW j (by omega), hall j hj]

/-! ### Which fields are affected -/

/-- Excluded patterns exist in the unshortened block exactly if `x^2 + x` takes the value
all-ones. -/
theorem C26_excluded_iff (R : Ready w M P T) (hM : 1 < M) :
    (∃ A, (∀ p ∈ A, p < 2 ^ M - 1) ∧ Excluded P M (2 ^ M - 1) A) ↔
      ∃ z : GFR P, z ^ 2 + z = toR P (2 ^ M - 1) := by
  haveI : Fact (Irreducible (GF2.natPoly P)) := ⟨Ready.irr R⟩
  have h2 : ∀ a : GFR P, a + a = 0 := toR_add_self
  have hprim := R.built.prim
  have hQ : 4 ≤ 2 ^ M := by
    calc 4 = 2 ^ 2 := rfl
      _ ≤ 2 ^ M := Nat.pow_le_pow_right (by norm_num) hM
  constructor
  · rintro ⟨A, hA, p, q, hpq, rfl, h⟩
    have hp := hA p (by simp)
    have hq := hA q (by simp)
    set a := loc P (2 ^ M - 1) p
    set b := loc P (2 ^ M - 1) q
    have hab : a + b ≠ 0 := by
      intro h0
      have : a = b := by
        have := h2 b
        linear_combination h0 - this
      have := pow_injOn_Iio_orderOf (x := xR P) (show (2 ^ M - 1 - 1 - p) ∈ Set.Iio (orderOf (xR P)) by
        rw [show orderOf (xR P) = 2 ^ M - 1 from hprim, Set.mem_Iio]; omega) (show (2 ^ M - 1 - 1 - q) ∈ Set.Iio (orderOf (xR P)) by
        rw [show orderOf (xR P) = 2 ^ M - 1 from hprim, Set.mem_Iio]; omega) this
      omega
    refine ⟨a / (a + b), ?_⟩
    field_simp
    have := h2 (a ^ 2)
    linear_combination h + this
  · rintro ⟨z, hz⟩
    have hN0 : toR P (2 ^ M - 1) ≠ 0 := by
      intro h0
      have := toR_inj R.deg (show 2 ^ M - 1 < 2 ^ M by omega) (show 0 < 2 ^ M by omega) (by rw [h0, toR_zero])
      omega
    have hz0 : z ≠ 0 := by
      rintro rfl
      apply hN0; rw [← hz]; ring
    have hz1 : z + 1 ≠ 0 := by
      intro h
      apply hN0
      rw [← hz]
      linear_combination z * h
    obtain ⟨i, hi, hti⟩ := exists_pow R.hM R.deg hprim (x := (z + 1) / z) (div_ne_zero hz1 hz0)
    have hi0 : i ≠ 0 := by
      rintro rfl
      rw [pow_zero, eq_div_iff hz0, one_mul] at hti
      have : (1 : GFR P) = 0 := by linear_combination -hti
      exact one_ne_zero this
    refine ⟨{2 ^ M - 1 - 1 - i, 2 ^ M - 1 - 1}, ?_, 2 ^ M - 1 - 1 - i, 2 ^ M - 1 - 1, by omega, rfl, ?_⟩
    · intro p hp
      simp only [mem_insert, mem_singleton] at hp
      omega
    · have e1 : loc P (2 ^ M - 1) (2 ^ M - 1 - 1 - i) = (z + 1) / z := by
        rw [← hti]
        unfold loc
        rw [show 2 ^ M - 1 - 1 - (2 ^ M - 1 - 1 - i) = i by omega]
      have e2 : loc P (2 ^ M - 1) (2 ^ M - 1 - 1) = 1 := by
        unfold loc
        rw [Nat.sub_self, pow_zero]
      rw [e1, e2, ← hz]
      have h5 : (z + 1) / z + 1 = 1 / z := by
        rw [div_add_one hz0]
        congr 1
        linear_combination h2 z
      rw [h5]
      field_simp

/-- For the fields in which `x^2 + x` reaches all-ones: in every unshortened code with four or more
parity symbols there is a received block with exactly two wrong symbols, no erasures, on which the
decoder gives up. -/
theorem C26_failure (R : Ready w M P T) (hM : 1 < M) {z : GFR P} (hz : z ^ 2 + z = toR P (2 ^ M - 1))
    (p : Params M NR FCR dl) (hfull : dl + NR = 2 ^ M - 1) (h4 : 4 ≤ NR) :
    ∃ (data parity : List (Val M)) (c : List Nat), data.length = dl ∧ parity.length = NR ∧ c.length = dl + NR ∧
      Codeword P NR FCR c ∧ diff (blk data parity dl NR) c = 2 ∧
      ∀ (u : Val M) (ui : Fin (2 ^ M - 1)) (im : List (Val M)), artin (tableOps w M T u ui) = some im →
        ∃ r, decode (tableOps w M T u ui) NR FCR im data parity [] 0 dl = some r ∧ r.ret = -1 := by
  obtain ⟨A, hA, hex⟩ := (C26_excluded_iff R hM).2 ⟨z, hz⟩
  have hQ : 0 < 2 ^ M := by positivity
  have hQ1 : 1 < 2 ^ M := Nat.one_lt_two_pow (by omega)
  set W : Nat → Val M := fun j => if j ∈ A then ⟨1, hQ1⟩ else ⟨0, hQ⟩ with hW
  set data := (List.range dl).map W with hdata
  set parity := (List.range NR).map (fun j => W (dl + j)) with hparity
  have hdl : data.length = dl := by rw [hdata, List.length_map, List.length_range]
  have hpl : parity.length = NR := by rw [hparity, List.length_map, List.length_range]
  have hb : blk data parity dl NR = (List.range (dl + NR)).map (fun j => (W j).v) := by
    unfold blk
    rw [List.take_of_length_le (by omega), List.take_of_length_le (by omega), hdata, hparity, List.range_add,
      List.map_append, List.map_append, List.map_map, List.map_map, List.map_map]
    rfl
  have hbv : ∀ j, j < dl + NR → (blk data parity dl NR).getD j 0 = if j ∈ A then 1 else 0 := by
    intro j hj
    rw [hb, List.getD_eq_getElem _ _ (by simp; omega), List.getElem_map, List.getElem_range, hW]
    dsimp only
    split <;> rfl
  have hbl : (blk data parity dl NR).length = dl + NR := by rw [hb]; simp
  have hdp : diffPos (blk data parity dl NR) (List.replicate (dl + NR) 0) = A := by
    ext j
    rw [diffPos, mem_filter, mem_range, hbl]
    constructor
    · rintro ⟨hj, hne⟩
      rw [hbv j hj, List.getD_replicate _ hj] at hne
      by_contra hja
      rw [if_neg hja] at hne
      exact hne rfl
    · intro hj
      have := hA j hj
      refine ⟨by omega, ?_⟩
      rw [hbv j (by omega), List.getD_replicate _ (by omega), if_pos hj]
      norm_num
  have hc2 : A.card = 2 := by
    obtain ⟨a, b, hab, rfl, _⟩ := hex
    exact Finset.card_pair hab
  have hcz : Codeword P NR FCR (List.replicate (dl + NR) 0) := by
    intro i _
    unfold polyAt
    refine Finset.sum_eq_zero fun j hj => ?_
    rw [List.length_replicate, mem_range] at hj
    rw [List.getD_replicate _ hj, toR_zero, zero_mul]
  have hdiff : diff (blk data parity dl NR) (List.replicate (dl + NR) 0) = 2 := by
    unfold diff; rw [hdp, hc2]
  refine ⟨data, parity, List.replicate (dl + NR) 0, hdl, hpl, List.length_replicate .., hcz, hdiff, ?_⟩
  intro u ui im him
  have hempty : erased ([] : List (Fin (2 ^ M - 1))) 0 = ∅ := rfl
  refine C26_rejected R hM u ui p (c := List.replicate (dl + NR) 0) ⟨him, by omega, by omega, by omega, le_rfl, by simp, by simp⟩
    (List.length_replicate ..) ?_ hcz ?_ ?_ ?_
  · intro x hx
    rw [List.eq_of_mem_replicate hx]; exact hQ
  · rw [hdp, hempty, Finset.sdiff_empty, hc2]; omega
  · intro h
    rw [h] at hdiff
    simp [diff, diffPos] at hdiff
  · rw [hdp, hempty, Finset.sdiff_empty, Finset.empty_union, hfull]
    exact hex

/-- Trace of an element by repeated bit-serial squaring (only used to compute constants). -/
def trace (w M P : Nat) : Nat → Nat → Nat × Nat
  | 0, s => (0, s)
  | k + 1, s => let (a, y) := trace w M P k s; (a ^^^ y, (refMul w M P y y).getD 0)

theorem trace_spec (hM : 0 < M) (hw : M ≤ w) (h : HasDeg M P) {s : Nat} (hs : s ≤ 2 ^ M - 1) (k : Nat) :
    (trace w M P k s).2 ≤ 2 ^ M - 1 ∧ toR P (trace w M P k s).2 = toR P s ^ 2 ^ k ∧
    toR P (trace w M P k s).1 = ∑ i ∈ range k, toR P s ^ 2 ^ i := by
  induction k with
  | zero => simp [trace, hs, toR_zero]
  | succ k ih =>
    obtain ⟨h1, h2, h3⟩ := ih
    obtain ⟨v, hv, hvl, hve⟩ := C20_mul (w := w) hM hw h h1 h1
    unfold trace
    dsimp only
    rw [hv, Option.getD_some]
    refine ⟨hvl, ?_, ?_⟩
    · rw [hve, h2, pow_succ, pow_mul, pow_two]
    · rw [toR_xor, h2, h3, Finset.sum_range_succ]

/-- If the trace of all-ones is one then `x^2 + x` never is all-ones, so nothing is excluded. -/
theorem no_solution (hM : 0 < M) (hw : M ≤ w) (h : HasDeg M P) (hp : Primitive M P)
    (ht : (trace w M P M (2 ^ M - 1)).1 = 1) (z : GFR P) : z ^ 2 + z ≠ toR P (2 ^ M - 1) := by
  haveI : Fact (Irreducible (GF2.natPoly P)) := ⟨irreducible_of_primitive hM h hp⟩
  intro hz
  have h2 : ∀ a : GFR P, a + a = 0 := toR_add_self
  have hsum : ∀ k, ∑ i ∈ range k, toR P (2 ^ M - 1) ^ 2 ^ i = z ^ 2 ^ k + z := by
    intro k
    induction k with
    | zero => simpa using (h2 z).symm
    | succ k ih =>
      have hc : ((z ^ 2 + z) ^ 2 ^ k : GFR P) = z ^ 2 ^ (k + 1) + z ^ 2 ^ k := by
        haveI : CharP (GFR P) 2 := CharTwo.of_one_ne_zero_of_two_eq_zero one_ne_zero (by rw [← one_add_one_eq_two]; exact h2 1)
        rw [add_pow_char_pow, ← pow_mul, ← pow_succ']
      rw [Finset.sum_range_succ, ih, ← hz, hc]
      linear_combination h2 (z ^ 2 ^ k)
  have := (trace_spec (w := w) hM hw h (s := 2 ^ M - 1) le_rfl M).2.2
  rw [ht, toR_one, hsum M] at this
  have hfix : z ^ 2 ^ M = z := by
    haveI : Finite (GFR P) := Finite.of_equiv _ (equivR h)
    haveI := Fintype.ofFinite (GFR P)
    have := FiniteField.pow_card z
    rwa [← Nat.card_eq_fintype_card, card_R h] at this
  rw [hfix, h2] at this
  exact one_ne_zero this

theorem not_excluded (R : Ready w M P T) (hM : 1 < M) (ht : (trace w M P M (2 ^ M - 1)).1 = 1) {n : Nat}
    (hn : n ≤ 2 ^ M - 1) {A : Finset Nat} (hA : ∀ p ∈ A, p < n) : ¬ Excluded P M n A := by
  intro hex
  obtain ⟨p, q, hpq, rfl, h⟩ := hex
  have hp := hA p (by simp)
  have hq := hA q (by simp)
  obtain ⟨z, hz⟩ := (C26_excluded_iff R hM).1 ⟨{2 ^ M - 1 - n + p, 2 ^ M - 1 - n + q}, by
    intro r hr
    simp only [mem_insert, mem_singleton] at hr
    omega, 2 ^ M - 1 - n + p, 2 ^ M - 1 - n + q, by omega, rfl, by
      unfold loc at h ⊢
      rw [show 2 ^ M - 1 - 1 - (2 ^ M - 1 - n + p) = n - 1 - p by omega,
        show 2 ^ M - 1 - 1 - (2 ^ M - 1 - n + q) = n - 1 - q by omega]
      exact h⟩
  exact no_solution R.hM R.hw R.deg R.built.prim ht z hz

/-- Of the fields used in the tests, these four are not affected: no pattern is excluded. -/
theorem C26_unaffected {n : Nat} (hn : n ≤ 2 ^ M - 1) {A : Finset Nat} (hA : ∀ p ∈ A, p < n) (R : Ready w M P T)
    (hf : (M = 4 ∧ P = 0b10011) ∨ (M = 7 ∧ P = 0b10001001) ∨ (M = 8 ∧ P = 0b100011101) ∨
      (M = 14 ∧ P = 0b100000000101011)) : ¬ Excluded P M n A := by
  obtain ⟨T0, hs, ht⟩ := R.tab
  have R' : ∀ w', M ≤ w' → ∃ T', Ready w' M P T' := by
    intro w' hw'
    obtain ⟨T', h⟩ := (C18_iff R.hM hw' R.deg hs).2 R.built.prim
    exact ⟨T', R.hM, hw', R.deg, T0, hs, h⟩
  rcases hf with ⟨rfl, rfl⟩ | ⟨rfl, rfl⟩ | ⟨rfl, rfl⟩ | ⟨rfl, rfl⟩
  · obtain ⟨T', R'⟩ := R' 16 (by norm_num)
    exact not_excluded R' (by norm_num) (by decide +kernel) hn hA
  · obtain ⟨T', R'⟩ := R' 16 (by norm_num)
    exact not_excluded R' (by norm_num) (by decide +kernel) hn hA
  · obtain ⟨T', R'⟩ := R' 16 (by norm_num)
    exact not_excluded R' (by norm_num) (by decide +kernel) hn hA
  · obtain ⟨T', R'⟩ := R' 16 (by norm_num)
    exact not_excluded R' (by norm_num) (by decide +kernel) hn hA

/-- The others are: `x^2 + x` is all-ones at 20704, 52726 and 37936. -/
theorem C26_affected :
    (∃ z : GFR 0b1000000000101101, z ^ 2 + z = toR 0b1000000000101101 (2 ^ 15 - 1)) ∧
    (∃ z : GFR 0b10001000000001011, z ^ 2 + z = toR 0b10001000000001011 (2 ^ 16 - 1)) ∧
    (∃ z : GFR 0b10000000000101101, z ^ 2 + z = toR 0b10000000000101101 (2 ^ 16 - 1)) := by
  have key : ∀ {M P x y : Nat}, 0 < M → M ≤ 16 → HasDeg M P → x ≤ 2 ^ M - 1 → refMul 16 M P x x = some y →
      y ^^^ x = 2 ^ M - 1 → ∃ z : GFR P, z ^ 2 + z = toR P (2 ^ M - 1) := by
    intro M P x y hM hw h hx hy hxy
    obtain ⟨v, hv, _, hve⟩ := C20_mul (w := 16) hM hw h hx hx
    rw [hy] at hv
    cases hv
    exact ⟨toR P x, by rw [← hxy, toR_xor, hve, pow_two]⟩
  refine ⟨key (x := 20704) (y := (2 ^ 15 - 1) ^^^ 20704) ?_ ?_ ?_ ?_ ?_ ?_,
    key (x := 52726) (y := (2 ^ 16 - 1) ^^^ 52726) ?_ ?_ ?_ ?_ ?_ ?_,
    key (x := 37936) (y := (2 ^ 16 - 1) ^^^ 37936) ?_ ?_ ?_ ?_ ?_ ?_⟩
  all_goals first
    | (unfold HasDeg; norm_num)
    | decide +kernel

/-- So `ReedSolomonEncoder<4, 1, GaloisField<16, 0b10001000000001011, uint16_t>>` has codewords
with two wrong symbols that the decoder rejects. -/
theorem C26_witness : ∃ T, Ready 16 16 0b10001000000001011 T ∧
    ∃ (data parity : List (Val 16)) (c : List Nat), data.length = 65531 ∧ parity.length = 4 ∧ c.length = 65535 ∧
      Codeword 0b10001000000001011 4 1 c ∧ diff (blk data parity 65531 4) c = 2 ∧
      ∀ (u : Val 16) (ui : Fin (2 ^ 16 - 1)) (im : List (Val 16)), artin (tableOps 16 16 T u ui) = some im →
        ∃ r, decode (tableOps 16 16 T u ui) 4 1 im data parity [] 0 65531 = some r ∧ r.ret = -1 := by
  obtain ⟨T, R⟩ := C18_tests_build.2.2.2.2.2.1
  obtain ⟨z, hz⟩ := C26_affected.2.1
  exact ⟨T, R, C26_failure R (by norm_num) hz ⟨by norm_num, by norm_num, by norm_num, by norm_num⟩ (by norm_num) (by norm_num)⟩

/-- Without the exception: in the four unaffected fields every pattern within the capability is
corrected. -/
theorem C24_correct_unaffected (R : Ready w M P T)
    (hf : (M = 4 ∧ P = 0b10011) ∨ (M = 7 ∧ P = 0b10001001) ∨ (M = 8 ∧ P = 0b100011101) ∨
      (M = 14 ∧ P = 0b100000000101011))
    (u : Val M) (ui : Fin (2 ^ M - 1)) (p : Params M NR FCR dl)
    {im data parity : List (Val M)} {er : List (Fin (2 ^ M - 1))} {count : Nat}
    (call : Call (tableOps w M T u ui) NR dl im data parity er count)
    {c : List Nat} (hcl : c.length = dl + NR) (hcv : ∀ x ∈ c, x < 2 ^ M) (hc : Codeword P NR FCR c)
    (hcap : 2 * (diffPos (blk data parity dl NR) c \ erased er count).card + count ≤ NR) :
    ∃ r, decode (tableOps w M T u ui) NR FCR im data parity er count dl = some r ∧
      blk r.data r.parity dl NR = c ∧ r.ret = diff (blk data parity dl NR) c := by
  have hM : 1 < M := by omega
  obtain ⟨r, hr, h1, h2, _⟩ := C24_correct R hM u ui p call hcl hcv hc hcap (by
    apply C26_unaffected p.len _ R hf
    intro q hq
    rcases Finset.mem_union.1 hq with hq | hq
    · exact erased_lt call.inside q hq
    · rw [mem_sdiff, diffPos, mem_filter, mem_range, blk_length call.hdata call.hparity] at hq
      exact hq.1.1)
  exact ⟨r, hr, h1, h2⟩

/-- Encode, corrupt, decode.  `data'`, `parity'` is any received block; `e` counts the positions
outside the announced erasures in which it differs from what was sent. -/
theorem C24_roundtrip (R : Ready w M P T) (hM : 1 < M) (u : Val M) (ui : Fin (2 ^ M - 1)) (p : Params M NR FCR dl)
    {gen : List (Fin (2 ^ M - 1))} (hgen : encInit (tableOps w M T u ui) NR FCR = some gen)
    {data par sent : List (Val M)} (hd : data.length = dl) (hpar : par.length = NR)
    (hsent : encode (tableOps w M T u ui) NR gen data par dl = some sent)
    {im data' parity' : List (Val M)} {er : List (Fin (2 ^ M - 1))} {count : Nat}
    (hd' : data'.length = dl) (hp' : parity'.length = NR)
    (call : Call (tableOps w M T u ui) NR dl im data' parity' er count)
    (hcap : 2 * (diffPos (blk data' parity' dl NR) (blk data sent dl NR) \ erased er count).card + count ≤ NR)
    (hex : ¬ Excluded P M (dl + NR)
      (erased er count ∪ (diffPos (blk data' parity' dl NR) (blk data sent dl NR) \ erased er count))) :
    ∃ r, decode (tableOps w M T u ui) NR FCR im data' parity' er count dl = some r ∧
      r.data = data ∧ r.parity = sent ∧ r.ret = diff (blk data' parity' dl NR) (blk data sent dl NR) := by
  have hlen := p.len
  have hpos := p.pos
  obtain ⟨gen', hg, he⟩ := C22_encoder (NR := NR) (FCR := FCR) R hM u ui p.fcr p.nr (by omega)
  rw [hgen] at hg
  cases hg
  obtain ⟨q, hq, h1, _, h3⟩ := he data par dl p.pos p.len (by omega) (by omega)
  rw [hsent] at hq
  cases hq
  obtain ⟨r, hr, hb, hret, hl1, hl2, _, _⟩ := C24_correct R hM u ui p call (c := blk data sent dl NR)
    (blk_length (by omega) (by omega)) (by
      intro x hx
      unfold blk at hx
      rw [List.mem_map] at hx
      obtain ⟨v, _, rfl⟩ := hx
      exact v.lt) h3 hcap hex
  refine ⟨r, hr, ?_, ?_, hret⟩
  · unfold blk at hb
    rw [List.map_append, List.map_append] at hb
    have h4 := List.append_inj_left hb (by simp; omega)
    have h5 : r.data.take dl = data.take dl := List.map_injective_iff.2 (fun a b h => Val.ext' h) h4
    rwa [List.take_of_length_le (by omega), List.take_of_length_le (by omega)] at h5
  · unfold blk at hb
    rw [List.map_append, List.map_append] at hb
    have h4 := List.append_inj_right hb (by simp; omega)
    have h5 : r.parity.take NR = sent.take NR := List.map_injective_iff.2 (fun a b h => Val.ext' h) h4
    rwa [List.take_of_length_le (by omega), List.take_of_length_le (by omega)] at h5

end Verif.RS
