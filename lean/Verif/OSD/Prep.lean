import Verif.OSD.Echelon
import Verif.OSD.Order
import Verif.RS.Search
import Verif.OSD.TmpLen
/- The common first part of both decoders. -/
namespace Verif.OSD
open Finset
open Verif.RS (sb)

variable {K N : Nat}

theorem getD_map_append {α : Type} (f : Nat → α) (n : Nat) (l : List α) (d : α) (i : Nat) (hi : i < n) :
    ((List.range n).map f ++ l).getD i d = f i := by
  rw [List.getD_eq_getElem?_getD, List.getElem?_append_left (by simp; exact hi)]
  simp [hi]

theorem getD_map_append_ge {α : Type} (f : Nat → α) (n : Nat) (l : List α) (d : α) (i : Nat) (hi : n ≤ i) :
    ((List.range n).map f ++ l.drop n).getD i d = l.getD i d := by
  rw [List.getD_eq_getElem?_getD, List.getElem?_append_right (by simp; exact hi)]
  simp only [List.length_map, List.length_range, List.getElem?_drop, List.getD_eq_getElem?_getD]
  congr 2; omega

structure Valid (N K : Nat) (M : Mem) : Prop where
  int16 : N ≤ 2 ^ 15
  G : M.G.length = W N * K
  codeword : M.codeword.length = W N
  softperm : M.softperm.length = W N
  perm : M.perm.length = W N
  tmp : M.tmp.length = N

theorem Ech.pi_ltN {σ : Nat → Nat} {π : Equiv.Perm Nat} {v : Nat → Nat → ZMod 2} {k T : Nat} (E : Ech K N σ π v k T)
    {i : Nat} (hi : i < N) : π i < N := by
  by_contra h
  have := E.TN
  have h1 := E.fix (π i) (by omega)
  have h2 := π.injective h1
  omega

theorem sum_ind (m : Nat → ZMod 2) {k : Nat} (hk : k < K) :
    ∑ j ∈ range K, (if j = k then 1 else 0) * m j = m k := by
  simp only [ite_mul, one_mul, zero_mul, sum_ite_eq', mem_range, hk, if_true]

/-- The pivots are the most reliable basis. -/
theorem Ech.basis {σ : Nat → Nat} {π : Equiv.Perm Nat} {g v : Nat → Nat → ZMod 2} {T : Nat} {soft : List (BitVec 8)}
    (E : Ech K N σ π v K T) (S : Same K N g v) (h1 : ∀ t, t < N → σ t < N) (hs : ∀ p, p < N → ∃ t, t < N ∧ σ t = p)
    (ho : ∀ s t, s < t → t < N → Before soft (σ s) (σ t)) (hT : K ≤ N) (p : Nat) :
    Basis K N g soft p ↔ ∃ a, a < K ∧ σ (π a) = p := by
  have hb : ∀ s t, s < N → t < N → Before soft (σ s) (σ t) → s < t := by
    intro s t hs ht h
    by_contra h2
    rcases Nat.lt_or_eq_of_le (Nat.not_lt.1 h2) with h3 | h3
    · exact before_asymm h (ho t s h3 hs)
    · subst h3; exact before_irrefl _ _ h
  constructor
  · rintro ⟨hp, c, hc, hc1, hc0⟩
    obtain ⟨t0, ht0, rfl⟩ := hs p hp
    obtain ⟨m, hm⟩ := (S.1 c).1 hc
    have hex : ∃ j, j < K ∧ m j ≠ 0 := by
      by_contra hne
      push Not at hne
      rw [hm _ hp, sum_eq_zero fun j hj => by rw [hne j (mem_range.1 hj), zero_mul]] at hc1
      exact absurd hc1 (by decide)
    classical
    set a := Nat.find hex with ha
    obtain ⟨haK, hma⟩ := Nat.find_spec hex
    rw [← ha] at haK hma
    have hmin : ∀ j, j < a → m j = 0 := by
      intro j hj
      have := Nat.find_min hex (ha ▸ hj)
      by_contra h
      exact this ⟨by omega, h⟩
    have hma1 : m a = 1 := (z01 (m a)).resolve_left hma
    have hpa := E.pi_ltN (show a < N by omega)
    have hlow : ∀ t, t < π a → ∀ j, j < K → m j * v j (σ t) = 0 := by
      intro t ht j hj
      rcases Nat.lt_trichotomy j a with h | h | h
      · rw [hmin j h, zero_mul]
      · subst h; rw [E.lead _ t hj ht, mul_zero]
      · rw [E.lead j t hj (lt_trans ht (E.inc _ _ h hj)), mul_zero]
    have hat : c (σ (π a)) = 1 := by
      rw [hm _ (h1 _ hpa), sum_eq_single a]
      · rw [hma1, E.one a haK, mul_one]
      · intro j hj hne
        rw [mem_range] at hj
        rcases Nat.lt_or_gt_of_ne hne with h | h
        · rw [hmin j h, zero_mul]
        · rw [E.lead j _ hj (E.inc _ _ h hj), mul_zero]
      · intro h; exact absurd (mem_range.2 haK) h
    refine ⟨a, haK, ?_⟩
    rcases Nat.lt_trichotomy t0 (π a) with h | h | h
    · rw [hm _ hp, sum_eq_zero fun j hj => hlow t0 h j (mem_range.1 hj)] at hc1
      exact absurd hc1 (by decide)
    · rw [h]
    · have := hc0 _ (h1 _ hpa) (ho _ _ h ht0)
      rw [hat] at this
      exact absurd this (by decide)
  · rintro ⟨a, ha, rfl⟩
    have hpa := E.pi_ltN (show a < N by omega)
    refine ⟨h1 _ hpa, v a, ?_, E.one a ha, ?_⟩
    · refine (S.1 _).2 ⟨fun j => if j = a then 1 else 0, fun p _ => ?_⟩
      rw [sum_ind (fun j => v j p) ha]
    · intro q hq hqb
      obtain ⟨s, hs', rfl⟩ := hs q hq
      exact E.lead a s ha (hb _ _ hs' hpa hqb)

/-- The hard decisions on the basis, encoded. -/
def base (K : Nat) (soft : List (BitVec 8)) (q : Nat → Nat) (v : Nat → Nat → ZMod 2) (p : Nat) : ZMod 2 :=
  ∑ j ∈ range K, hardBit soft (q j) * v j p

structure Prep (N K : Nat) (g : Nat → Nat → ZMod 2) (soft : List (BitVec 8)) (M : Mem) (q : Nat → Nat)
    (v : Nat → Nat → ZMod 2) : Prop where
  valid : Valid N K M
  KN : K ≤ N
  qlt : ∀ i, i < N → q i < N
  qinj : ∀ i j, i < N → j < N → q i = q j → i = j
  perm : ∀ i, i < N → M.perm.getD i 0 = q i
  rep : Rep (W N) N K M.G fun j i => v j (q i)
  same : Same K N g v
  id : ∀ a b, a < K → b < K → v a (q b) = if a = b then 1 else 0
  basis : ∀ p, Basis K N g soft p ↔ ∃ a, a < K ∧ q a = p
  sp : ∀ i, i < N → (M.softperm.getD i 0).toInt = val soft (q i)
  spz : ∀ i, N ≤ i → i < W N → M.softperm.getD i 0 = 0#8
  cw : ∀ i, i < N → M.codeword.getD i 0 = bv (base K soft q v (q i))
  ord : ∀ a b, a < b → b < K → Before soft (q a) (q b)

theorem encode_ok {G cw : List (BitVec 8)} {q : Nat → Nat} {v : Nat → Nat → ZMod 2} {h : Nat → ZMod 2} (hK : 1 ≤ K) (hKN : K ≤ N)
    (R : Rep (W N) N K G fun j i => v j (q i)) (hl : N ≤ cw.length) (hc : ∀ i, i < K → cw.getD i 0 = bv (h i))
    (hid : ∀ a b, a < K → b < K → v a (q b) = if a = b then 1 else 0) :
    Ok (encode N K G cw) (fun cw' => cw'.length = cw.length ∧
      ∀ i, i < N → cw'.getD i 0 = bv (∑ j ∈ range K, h j * v j (q i))) := by
  have hW := N_le_W N
  unfold encode
  refine Ok.bind' (P := fun (cw' : List (BitVec 8)) => cw'.length = cw.length ∧ (∀ i, i < K → cw'.getD i 0 = bv (h i)) ∧
    ∀ i, K ≤ i → i < N → cw'.getD i 0 = bv (∑ j ∈ range 1, h j * v j (q i))) ?_ ?_
  · refine Ok.mono (forUp_inv (fun t (cw' : List (BitVec 8)) => cw'.length = cw.length ∧ (∀ i, i < K → cw'.getD i 0 = bv (h i)) ∧
      ∀ i, K ≤ i → i < t → cw'.getD i 0 = bv (∑ j ∈ range 1, h j * v j (q i))) hKN ⟨rfl, hc, fun i h1 h2 => by omega⟩ ?_) ?_
    · rintro t cw1 h1 h2 ⟨l1, c1, d1⟩
      have e1 : rd cw1 0 = some (bv (h 0)) := by
        rw [rd_of_lt (by omega), getElem_eq_getD (by omega) 0, c1 0 (by omega)]
      have e2 := R.rd hW (show 0 < K by omega) h2
      rw [Nat.mul_zero, Nat.zero_add] at e2
      rw [e1, e2]
      dsimp only [Option.bind_eq_bind, Option.bind_some]
      rw [bv_and]
      refine Ok.wr (by omega) ⟨by rw [List.length_set]; exact l1, ?_, ?_⟩
      · intro i hi
        rw [getD_set, if_neg (by omega), c1 i hi]
      · intro i hi1 hi2
        rw [getD_set]
        by_cases hit : t = i
        · subst hit; rw [if_pos ⟨rfl, by omega⟩, sum_range_one]
        · rw [if_neg (by omega), d1 i hi1 (by omega)]
    · rintro cw1 h; exact h
  · rintro cw1 ⟨l1, c1, d1⟩
    refine Ok.mono (forUp_inv (fun t (cw' : List (BitVec 8)) => cw'.length = cw.length ∧ (∀ i, i < K → cw'.getD i 0 = bv (h i)) ∧
      ∀ i, K ≤ i → i < N → cw'.getD i 0 = bv (∑ j ∈ range t, h j * v j (q i))) hK ⟨l1, c1, d1⟩ ?_) ?_
    · rintro j cw2 h1 h2 ⟨l2, c2, d2⟩
      refine Ok.mono (forUp_inv (fun t (cw' : List (BitVec 8)) => cw'.length = cw.length ∧ (∀ i, i < K → cw'.getD i 0 = bv (h i)) ∧
        ∀ i, K ≤ i → i < N → cw'.getD i 0 = bv (if i < t then ∑ j ∈ range (j + 1), h j * v j (q i) else ∑ j ∈ range j, h j * v j (q i)))
        hKN ⟨l2, c2, fun i hi1 hi2 => by rw [if_neg (by omega), d2 i hi1 hi2]⟩ ?_) ?_
      · rintro t cw3 h3 h4 ⟨l3, c3, d3⟩
        have e1 : rd cw3 t = some (bv (∑ j ∈ range j, h j * v j (q t))) := by
          rw [rd_of_lt (by omega), getElem_eq_getD (by omega) 0, d3 t h3 h4, if_neg (by omega)]
        have e2 : rd cw3 j = some (bv (h j)) := by
          rw [rd_of_lt (by omega), getElem_eq_getD (by omega) 0, c3 j h2]
        rw [e1, e2, R.rd hW h2 h4]
        dsimp only [Option.bind_eq_bind, Option.bind_some]
        rw [bv_and, bv_xor]
        refine Ok.wr (by omega) ⟨by rw [List.length_set]; exact l3, ?_, ?_⟩
        · intro i hi
          rw [getD_set, if_neg (by omega), c3 i hi]
        · intro i hi1 hi2
          rw [getD_set]
          by_cases hit : t = i
          · subst hit; rw [if_pos ⟨rfl, by omega⟩, if_pos (by omega), sum_range_succ]
          · rw [if_neg (by omega), d3 i hi1 hi2]
            by_cases h5 : i < t
            · rw [if_pos h5, if_pos (by omega)]
            · rw [if_neg h5, if_neg (by omega)]
      · rintro cw3 ⟨l3, c3, d3⟩
        exact ⟨l3, c3, fun i hi1 hi2 => by rw [d3 i hi1 hi2, if_pos hi2]⟩
    · rintro cw2 ⟨l2, c2, d2⟩
      refine ⟨l2, fun i hi => ?_⟩
      by_cases hiK : i < K
      · rw [c2 i hiK]
        congr 1
        rw [sum_eq_single i]
        · rw [hid i i hiK hiK, if_pos rfl, mul_one]
        · intro j hj hne
          rw [hid j i (mem_range.1 hj) hiK, if_neg hne, mul_zero]
        · intro h; exact absurd (mem_range.2 hiK) h
      · exact d2 i (by omega) hi

theorem entry_bv {genmat : List (BitVec 8)} (h01 : ∀ x ∈ genmat, x = 0#8 ∨ x = 1#8) (j p : Nat) :
    genmat.getD (N * j + p) 0 = bv (entry N genmat j p) := by
  unfold entry
  by_cases h : N * j + p < genmat.length
  · have := h01 _ (List.getElem_mem h)
    rw [getElem_eq_getD h 0] at this
    rcases this with h | h <;> rw [h] <;> decide
  · rw [List.getD_eq_default _ _ (by omega)]; decide

theorem prepare_ok {M : Mem} {soft genmat : List (BitVec 8)} (hM : Valid N K M) (hK : 1 ≤ K)
    (h01 : ∀ x ∈ genmat, x = 0#8 ∨ x = 1#8) (hg : N * K ≤ genmat.length) (hs : N ≤ soft.length)
    (hr : FullRank K N (entry N genmat)) :
    Ok (prepare N K M soft genmat) (fun M' => ∃ q v, Prep N K (entry N genmat) soft M' q v) := by
  have hW := N_le_W N
  unfold prepare
  rw [forUp_fill (g := fun i => i) (by rw [hM.perm]; exact hW) (fun j l hj hl => by
    have := hM.int16
    rw [show assertUB (j < 2 ^ 15) = some () from if_pos (by omega), sb, wr_of_lt (by rw [hl, hM.perm]; omega)]), sb]
  rw [forUp_fill (g := fun i => abs8 (clamp (soft.getD i 0))) (by rw [hM.softperm]; exact hW) (fun j l hj hl => by
    rw [rd_of_lt (show j < soft.length by omega), getElem_eq_getD (show j < soft.length by omega) 0]
    dsimp only [Option.bind_eq_bind, Option.bind_some]
    rw [wr_of_lt (by rw [hl, hM.softperm]; omega)]), sb]
  set sp0 := (List.range N).map (fun i => abs8 (clamp (soft.getD i 0))) ++ M.softperm.drop N with hsp0
  have hsp0l : sp0.length = W N := by
    rw [hsp0, List.length_append, List.length_map, List.length_range, List.length_drop, hM.softperm]; omega
  have hsp : ∀ i, i < N → (sp0.getD i 0).toInt = |val soft i| := by
    intro i hi
    rw [hsp0, getD_map_append _ _ _ _ _ hi, abs8_clamp]; rfl
  rw [List.map_id' (List.range N)]
  obtain ⟨p1, t1, hsort, hlp, hst, _⟩ := Verif.Sort.C17_merge_sort _ (strictWeak_key fun a => (sp0.getD a 0).toInt) 32 (by norm_num) (by norm_num)
    M.tmp (List.range N ++ M.perm.drop N) N (by have := hM.int16; omega) (by rw [List.length_append, List.length_range]; omega) (by rw [hM.tmp])
  rw [List.take_left' List.length_range] at hst
  have htl := Verif.Sort.mergeSort_tmp hsort
  rw [hsort, sb]
  dsimp only
  have hlp' : p1.length = W N := by
    rw [hlp, List.length_append, List.length_range, List.length_drop, hM.perm]; omega
  set σ : Nat → Nat := fun t => p1.getD t 0 with hσ
  have hget : ∀ t, t < N → ∃ h : t < (p1.take N).length, (p1.take N)[t] = σ t := by
    intro t ht
    refine ⟨by rw [List.length_take]; omega, ?_⟩
    rw [List.getElem_take, getElem_eq_getD (by omega) 0]
  have hσlt : ∀ t, t < N → σ t < N := by
    intro t ht
    obtain ⟨h, e⟩ := hget t ht
    have := List.getElem_mem h
    rw [e] at this
    exact List.mem_range.1 (hst.perm.mem_iff.1 this)
  have hσsur : ∀ p, p < N → ∃ t, t < N ∧ σ t = p := by
    intro p hp
    have := hst.perm.mem_iff.2 (List.mem_range.2 hp)
    obtain ⟨t, ht, e⟩ := List.mem_iff_getElem.1 this
    have ht' : t < N := by rw [List.length_take] at ht; omega
    obtain ⟨_, e'⟩ := hget t ht'
    exact ⟨t, ht', e'.symm.trans e⟩
  have hσinj : ∀ s t, s < N → t < N → σ s = σ t → s = t := by
    intro s t hs' ht h
    have hnd := hst.perm.nodup_iff.2 List.nodup_range
    obtain ⟨h1, e1⟩ := hget s hs'
    obtain ⟨h2, e2⟩ := hget t ht
    exact (List.Nodup.getElem_inj_iff hnd).1 (e1.trans (h.trans e2.symm))
  have hord : ∀ s t, s < t → t < N → Before soft (σ s) (σ t) := by
    intro s t hst' ht
    have := stable_pairwise (f := fun a => (sp0.getD a 0).toInt) hst
    obtain ⟨h1, e1⟩ := hget s (by omega)
    obtain ⟨h2, e2⟩ := hget t ht
    have := List.pairwise_iff_getElem.1 this s t h1 h2 hst'
    rw [e1, e2] at this
    unfold Before
    rwa [hsp _ (hσlt s (by omega)), hsp _ (hσlt t ht)] at this
  -- the permuted matrix
  refine Ok.bind' (P := fun (G : List (BitVec 8)) => G.length = M.G.length ∧
      ∀ a i, a < K → i < N → G.getD (W N * a + i) 0 = bv (entry N genmat a (σ i))) ?_ ?_
  · refine Ok.mono (forUp_inv (fun j (G : List (BitVec 8)) => G.length = M.G.length ∧
      ∀ a i, a < j → i < N → G.getD (W N * a + i) 0 = bv (entry N genmat a (σ i))) (Nat.zero_le _) ⟨rfl, fun a i h => by omega⟩ ?_) ?_
    · rintro j G1 _ hj ⟨l1, d1⟩
      refine Ok.mono (forUp_inv (fun t (G : List (BitVec 8)) => G.length = M.G.length ∧
        ∀ a i, i < N → (a < j ∨ (a = j ∧ i < t)) → G.getD (W N * a + i) 0 = bv (entry N genmat a (σ i))) (Nat.zero_le _)
        ⟨l1, fun a i hi h => d1 a i (by omega) hi⟩ ?_) ?_
      · rintro t G2 _ ht ⟨l2, d2⟩
        have hp := hσlt t ht
        have hidx : N * j + σ t < genmat.length := lt_of_lt_of_le (idx_lt hj hp) hg
        have hidx2 : W N * j + t < G2.length := by
          rw [l2, hM.G]; exact idx_lt hj (by omega)
        rw [rd_of_lt (show t < p1.length by omega), getElem_eq_getD (show t < p1.length by omega) 0]
        dsimp only [Option.bind_eq_bind, Option.bind_some]
        rw [rd_of_lt hidx, getElem_eq_getD hidx 0, Option.bind_some, entry_bv h01]
        refine Ok.wr hidx2 ⟨by rw [List.length_set]; exact l2, ?_⟩
        intro a i hi h
        rw [getD_set]
        by_cases h2 : W N * j + t = W N * a + i
        · obtain ⟨rfl, rfl⟩ := idx_inj (by omega) (by omega) h2
          rw [if_pos ⟨rfl, hidx2⟩]
        · rw [if_neg (fun hh => h2 hh.1)]
          refine d2 a i hi ?_
          rcases h with h | ⟨rfl, h⟩
          · exact Or.inl h
          · right
            refine ⟨rfl, ?_⟩
            by_contra h3
            have : i = t := by omega
            subst this
            exact h2 rfl
      · rintro G2 ⟨l2, d2⟩
        refine ⟨l2, fun a i ha hi => d2 a i hi ?_⟩
        by_cases h : a < j
        · exact Or.inl h
        · exact Or.inr ⟨by omega, hi⟩
    · rintro G1 h; exact h
  · rintro G0 ⟨lG0, hG0⟩
    have S0 : St K N σ (G0, p1) (entry N genmat) (Equiv.refl _) :=
      ⟨⟨by rw [lG0, hM.G], hG0⟩, (by rw [hlp']; exact hW : N ≤ p1.length), fun i _ => rfl⟩
    refine Ok.bind' (rowEchelon_ok S0 hr hσsur) ?_
    rintro ⟨G1, p2⟩ ⟨l1, l2, hKN, v1, π, S1, E1, T, H1⟩
    dsimp only at l1 l2 ⊢
    set q : Nat → Nat := fun i => σ (π i) with hq
    have hqlt : ∀ i, i < N → q i < N := fun i hi => hσlt _ (H1.pi_ltN hi)
    have hT : Tri K q v1 := ⟨fun a ha => H1.one a ha, fun a i ha hi => H1.lead a _ ha (H1.inc i a hi ha)⟩
    refine Ok.bind' (backSub_ok (N := N) (q := q) hW hKN S1.rep hT) ?_
    rintro G2 ⟨l3, v2, R2, E2, hid⟩
    have hbasis := fun p => H1.basis (soft := soft) E1 hσlt hσsur hord hKN p
    have hperm : ∀ i, i < N → p2.getD i 0 = q i := S1.perm.2
    have hp2 : p2.length = W N := l2.trans hlp'
    rw [forUp_fill (g := fun i => clamp (soft.getD (q i) 0)) (by rw [hsp0l]; exact hW) (fun j l hj hl => by
      have := hqlt j hj
      rw [rd_of_lt (show j < p2.length by omega), getElem_eq_getD (show j < p2.length by omega) 0, hperm j hj]
      dsimp only [Option.bind_eq_bind, Option.bind_some]
      rw [rd_of_lt (show q j < soft.length by omega), getElem_eq_getD (show q j < soft.length by omega) 0, Option.bind_some,
        wr_of_lt (by rw [hl, hsp0l]; omega)]), sb]
    set sp1 := (List.range N).map (fun i => clamp (soft.getD (q i) 0)) ++ sp0.drop N with hsp1
    have hsp1l : sp1.length = W N := by
      rw [hsp1, List.length_append, List.length_map, List.length_range, List.length_drop, hsp0l]; omega
    have hsp1v : ∀ i, i < N → (sp1.getD i 0).toInt = val soft (q i) := by
      intro i hi
      rw [hsp1, getD_map_append _ _ _ _ _ hi, clamp_int]; rfl
    refine Ok.bind' (P := fun (sp : List (BitVec 8)) => sp.length = W N ∧ (∀ i, i < N → (sp.getD i 0).toInt = val soft (q i)) ∧
      ∀ i, N ≤ i → i < W N → sp.getD i 0 = 0#8) ?_ ?_
    · refine Ok.mono (forUp_inv (fun t (sp : List (BitVec 8)) => sp.length = W N ∧ (∀ i, i < N → (sp.getD i 0).toInt = val soft (q i)) ∧
        ∀ i, N ≤ i → i < t → sp.getD i 0 = 0#8) hW ⟨hsp1l, hsp1v, fun i h1 h2 => by omega⟩ ?_) (fun _ h => h)
      rintro t sp h1 h2 ⟨a1, a2, a3⟩
      refine Ok.wr (by omega) ⟨by rw [List.length_set]; exact a1, ?_, ?_⟩
      · intro i hi; rw [getD_set, if_neg (by omega), a2 i hi]
      · intro i hi1 hi2
        rw [getD_set]
        by_cases h : t = i
        · rw [if_pos ⟨h, by omega⟩]
        · rw [if_neg (by omega), a3 i hi1 (by omega)]
    · rintro sp2 ⟨a1, a2, a3⟩
      rw [forUp_fill (g := fun i => bv (hardBit soft (q i))) (by rw [hM.codeword]; omega) (fun j l hj hl => by
        rw [rd_of_lt (show j < sp2.length by omega), getElem_eq_getD (show j < sp2.length by omega) 0]
        dsimp only [Option.bind_eq_bind, Option.bind_some]
        rw [a2 j (by omega), wr_of_lt (by rw [hl, hM.codeword]; omega)]
        congr 2
        unfold hardBit
        split <;> decide), sb]
      refine Ok.bind' (encode_ok (h := fun j => hardBit soft (q j)) hK hKN R2 ?_ ?_ hid) ?_
      · rw [List.length_append, List.length_map, List.length_range, List.length_drop, hM.codeword]; omega
      · intro i hi; rw [getD_map_append _ _ _ _ _ hi]
      · rintro cw ⟨lc, hc⟩
        refine Ok.some ⟨q, v2, ⟨hM.int16, ?_, ?_, ?_, ?_, ?_⟩, hKN, hqlt, ?_, hperm, R2, E1.trans E2, hid, hbasis, a2, a3, hc,
          fun a b hab hb => hord _ _ (H1.inc a b hab hb) (H1.pi_ltN (by omega))⟩
        · show G2.length = _
          rw [l3, l1, lG0, hM.G]
        · show cw.length = _
          rw [lc, List.length_append, List.length_map, List.length_range, List.length_drop, hM.codeword]; omega
        · exact a1
        · exact hp2
        · show t1.length = N
          rw [htl, hM.tmp]
        · intro i j hi hj h
          exact π.injective (hσinj _ _ (H1.pi_ltN hi) (H1.pi_ltN hj) h)

end Verif.OSD
