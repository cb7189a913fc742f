import Verif.RS.Sem
/- `ReedSolomonDecoder::operator()`. -/
namespace Verif.RS
open Polynomial Finset

variable {F : Type} [Field F] (G : Gf F) (u : F) (ui : Fin G.N)

/-- The block: `dl` data symbols followed by the parity symbols. -/
def word (data parity : List F) (dl : Nat) : Nat → F :=
  fun j => if j < dl then data.getD j 0 else parity.getD (j - dl) 0

/-- The locator of symbol `j` of a block of `n` symbols. -/
def X' (n j : Nat) : F := G.al ^ (n - 1 - j)

/-- Membership in the code of length `n`. -/
def Cw (NR FCR n : Nat) (W : Nat → F) : Prop := ∀ i, i < NR → ev n W (G.al ^ (FCR + i)) = 0

/-- The exceptional pairs of symbols. -/
def Exc' (n : Nat) (A : Finset Nat) : Prop :=
  ∃ p q, p ≠ q ∧ A = {p, q} ∧
    G.num (X' G n p * X' G n q / ((X' G n p + X' G n q) * (X' G n p + X' G n q))) = G.N

/-- Admissible recurrence lengths, for symbols of the block. -/
def Recurs' (NR n : Nat) (R : Finset Nat) (s : Nat → F) (L : Nat) : Prop :=
  ∃ c : F[X], c.coeff 0 = 1 ∧ c.natDegree ≤ L ∧ (∀ p ∈ R, c.eval (X' G n p)⁻¹ = 0) ∧
    ∀ j, L ≤ j → j < NR → ∑ k ∈ range (L + 1), c.coeff k * s (j - k) = 0

theorem ev_loc (n : Nat) (W : Nat → F) (k : Nat) :
    ev n W (G.al ^ k) = ∑ j ∈ range n, W j * X' G n j ^ k := by
  unfold ev X'
  exact Finset.sum_congr rfl fun j _ => by rw [← pow_mul, ← pow_mul, mul_comm k]

theorem xl_X' {n j : Nat} (hj : j < n) (hn : n ≤ G.N) : xl G (G.N - n + j) = X' G n j := by
  rw [xl_eq G (by omega)]
  unfold X'
  congr 1; omega

theorem add_inj (o : Nat) : Function.Injective (fun j : Nat => o + j) := fun a b h => by
  dsimp only at h; omega

theorem exc_iff {n : Nat} (hn : n ≤ G.N) {A : Finset Nat} (hA : ∀ p ∈ A, p < n) :
    Exc G (A.image (G.N - n + ·)) ↔ Exc' G n A := by
  constructor
  · rintro ⟨p, q, hpq, hAe, h⟩
    have hp : p ∈ A.image (G.N - n + ·) := by rw [hAe]; simp
    have hq : q ∈ A.image (G.N - n + ·) := by rw [hAe]; simp
    rw [Finset.mem_image] at hp hq
    obtain ⟨p', hp', rfl⟩ := hp
    obtain ⟨q', hq', rfl⟩ := hq
    refine ⟨p', q', fun h => hpq (by rw [h]), ?_, ?_⟩
    · apply Finset.image_injective (add_inj (G.N - n))
      rw [hAe]; simp
    · rw [xl_X' G (hA _ hp') hn, xl_X' G (hA _ hq') hn] at h
      exact h
  · rintro ⟨p, q, hpq, rfl, h⟩
    refine ⟨G.N - n + p, G.N - n + q, by omega, by simp, ?_⟩
    rw [xl_X' G (hA p (by simp)) hn, xl_X' G (hA q (by simp)) hn]
    exact h

theorem recurs_iff {NR n : Nat} (hn : n ≤ G.N) {R : Finset Nat} (hR : ∀ p ∈ R, p < n) (s : Nat → F) (L : Nat) :
    Recurs G NR (R.image (G.N - n + ·)) s L ↔ Recurs' G NR n R s L := by
  unfold Recurs Recurs'
  have : ∀ c : F[X], (∀ p ∈ R.image (G.N - n + ·), c.eval (xl G p)⁻¹ = 0) ↔
      (∀ p ∈ R, c.eval (X' G n p)⁻¹ = 0) := by
    intro c
    constructor
    · intro h p hp
      rw [← xl_X' G (hR p hp) hn]
      exact h _ (Finset.mem_image_of_mem _ hp)
    · intro h p hp
      rw [Finset.mem_image] at hp
      obtain ⟨j, hj, rfl⟩ := hp
      rw [xl_X' G (hR j hj) hn]
      exact h j hj
  simp only [this]

theorem shiftErasures_ok {K dl count n : Nat} {er : List (Fin G.N)} (hdl : dl ≤ K) (hn : n + (K - dl) = G.N)
    (hc : count ≤ er.length) (hlt : ∀ p ∈ posOf G er count, p < n) :
    Ok (shiftErasures (G.fieldOps u ui) K er count dl) (fun er' => er'.length = er.length ∧
      er'.drop count = er.drop count ∧ posOf G er' count = (posOf G er count).map (K - dl + ·)) := by
  unfold shiftErasures
  split
  · rename_i hcond
    refine Ok.mono (forUp_inv (fun k (e : List (Fin G.N)) => e.length = er.length ∧ e.drop count = er.drop count ∧
      (∀ i (h : i < e.length) (h' : i < er.length), i < k → (e[i]).1 = K - dl + (er[i]).1) ∧
      (∀ i (h : i < e.length) (h' : i < er.length), k ≤ i → (e[i]).1 = (er[i]).1)) (Nat.zero_le _)
      ⟨rfl, rfl, by omega, fun _ _ _ _ => rfl⟩ ?_) ?_
    · rintro k e _ hk ⟨h1, h2, h3, h4⟩
      have hp : (er[k]).1 < n := hlt _ (mem_posOf G (by omega) hk)
      have he : (e[k]).1 = (er[k]).1 := h4 k (by omega) (by omega) le_rfl
      rw [rd_of_lt (show k < e.length by omega), sb]
      have hidx : (e[k]).1 + K - dl < G.N := by omega
      rw [Gf.f_numI, Gf.f_mkI G u ui hidx, sb, wr_of_lt (by omega)]
      refine Ok.some ⟨by rw [List.length_set, h1], by rw [List.drop_set, if_pos hk, h2], ?_, ?_⟩
      · intro i hi hi' hik
        rw [List.length_set] at hi
        rw [List.getElem_set]
        split
        · rename_i hc; subst hc; dsimp only; omega
        · exact h3 i hi hi' (by omega)
      · intro i hi hi' hik
        rw [List.length_set] at hi
        rw [List.getElem_set, if_neg (by omega)]
        exact h4 i hi hi' (by omega)
    · rintro e ⟨h1, h2, h3, _⟩
      refine ⟨h1, h2, ?_⟩
      apply List.ext_getElem
      · simp [posOf, h1]
      · intro i hi hi'
        simp only [posOf, List.length_map, List.length_take] at hi hi'
        simp only [posOf, List.getElem_map, List.getElem_take]
        exact h3 i (by omega) (by omega) (by omega)
  · rename_i hcond
    refine Ok.some ⟨rfl, rfl, ?_⟩
    by_cases h0 : count = 0
    · subst h0; simp [posOf]
    · have : K - dl = 0 := by omega
      rw [this]; simp

theorem anyLocBelow_ok {locs : List (Fin G.N)} {count bound : Nat} (h : count ≤ locs.length) :
    Ok (anyLocBelow (G.fieldOps u ui) locs count bound) (fun b =>
      b = true ↔ ∃ p ∈ posOf G locs count, p < bound) := by
  unfold anyLocBelow
  refine Ok.mono (forUp_inv (fun k (b : Bool) => b = true ↔ ∃ i, ∃ h : i < locs.length, i < k ∧ (locs[i]).1 < bound)
    (Nat.zero_le _) (by simp) ?_) ?_
  · intro k b _ hk hb
    rw [rd_of_lt (show k < locs.length by omega), sb]
    refine Ok.some ?_
    rw [Bool.or_eq_true, hb, decide_eq_true_iff]
    constructor
    · rintro (⟨i, hi, h1, h2⟩ | h1)
      · exact ⟨i, hi, by omega, h2⟩
      · exact ⟨k, by omega, by omega, h1⟩
    · rintro ⟨i, hi, h1, h2⟩
      by_cases hik : i = k
      · subst hik; exact Or.inr h2
      · exact Or.inl ⟨i, hi, by omega, h2⟩
  · intro b hb
    rw [hb]
    constructor
    · rintro ⟨i, hi, h1, h2⟩
      exact ⟨_, mem_posOf G hi h1, h2⟩
    · rintro ⟨p, hp, h2⟩
      unfold posOf at hp
      rw [List.mem_map] at hp
      obtain ⟨l, hl, rfl⟩ := hp
      rw [List.mem_iff_getElem] at hl
      obtain ⟨i, hi, rfl⟩ := hl
      rw [List.length_take] at hi
      refine ⟨i, by omega, by omega, ?_⟩
      simpa using h2

theorem applyMags_ok {NR dl count : Nat} {locs : List (Fin G.N)} {mags data parity : List F}
    (hNR : NR ≤ G.N) (hdl : dl ≤ G.N - NR) (hd : dl ≤ data.length) (hp : NR ≤ parity.length)
    (hl : count ≤ locs.length) (hm : count ≤ mags.length)
    (hge : ∀ p ∈ posOf G locs count, G.N - NR - dl ≤ p) :
    Ok (applyMags (G.fieldOps u ui) (G.N - NR) locs mags count dl data parity) (fun r =>
      r.1.length = data.length ∧ r.2.length = parity.length ∧ r.1.drop dl = data.drop dl ∧
      r.2.drop NR = parity.drop NR ∧
      ∀ j, j < dl + NR → word r.1 r.2 dl j = word data parity dl j +
        mg (posOf G locs count) mags count (G.N - NR - dl + j)) := by
  unfold applyMags
  refine Ok.mono (forUp_inv (fun k (r : List F × List F) => r.1.length = data.length ∧ r.2.length = parity.length ∧
      r.1.drop dl = data.drop dl ∧ r.2.drop NR = parity.drop NR ∧
      ∀ j, j < dl + NR → word r.1 r.2 dl j = word data parity dl j +
        mg (posOf G locs count) mags k (G.N - NR - dl + j)) (Nat.zero_le _) ?_ ?_) (fun r h => h)
  · refine ⟨rfl, rfl, rfl, rfl, fun j _ => ?_⟩
    simp [mg]
  · rintro k ⟨d, p⟩ _ hk ⟨h1, h2, h3, h4, h5⟩
    dsimp only at h1 h2 h3 h4 h5 ⊢
    have hlk := hge _ (mem_posOf G (show k < locs.length by omega) hk)
    have hlk2 := (locs[k]).2
    have hpk := posOf_getD G hk (show k < locs.length by omega)
    rw [rd_of_lt (show k < locs.length by omega), sb, rd_of_lt (show k < mags.length by omega), sb, Gf.f_numI]
    by_cases hb : (locs[k]).1 + dl - (G.N - NR) < dl
    · rw [if_pos hb, rd_of_lt (show _ < d.length by omega), sb, Gf.f_add, sb, wr_of_lt (by omega), sb]
      refine Ok.some ⟨by rw [List.length_set, h1], h2, by rw [List.drop_set, if_pos hb, h3], h4, ?_⟩
      intro j hj
      rw [mg_succ, ← add_assoc, ← h5 j hj, hpk]
      unfold word
      by_cases hjd : j < dl
      · simp only [if_pos hjd, getD_set]
        by_cases he : (locs[k]).1 + dl - (G.N - NR) = j
        · rw [if_pos ⟨he, by omega⟩, if_pos (by omega), getElem_eq_getD (a := d) _ 0, getElem_eq_getD (a := mags) _ 0, he]
        · rw [if_neg (by tauto), if_neg (by omega), add_zero]
      · simp only [if_neg hjd]
        rw [if_neg (by omega), add_zero]
    · rw [if_neg hb, rd_of_lt (show _ < p.length by omega), sb, Gf.f_add, sb, wr_of_lt (by omega), sb]
      refine Ok.some ⟨h1, by rw [List.length_set, h2], h3, by rw [List.drop_set, if_pos (by omega), h4], ?_⟩
      intro j hj
      rw [mg_succ, ← add_assoc, ← h5 j hj, hpk]
      unfold word
      by_cases hjd : j < dl
      · simp only [if_pos hjd]
        rw [if_neg (by omega), add_zero]
      · simp only [if_neg hjd, getD_set]
        by_cases he : (locs[k]).1 + dl - (G.N - NR) = j
        · rw [if_pos ⟨by omega, by omega⟩, if_pos (by omega), getElem_eq_getD (a := p) _ 0, getElem_eq_getD (a := mags) _ 0, he]
        · rw [if_neg (by omega), if_neg (by omega), add_zero]

open Classical in
/-- The number of non-zero magnitudes is the number of changed symbols. -/
theorem card_mags {ps : List Nat} {mags : List F} {c n o : Nat} (hnd : ps.Nodup) (hc : c = ps.length)
    (hlo : ∀ p ∈ ps, o ≤ p) (hhi : ∀ p ∈ ps, p < o + n) :
    ((range c).filter fun i => mags.getD i 0 ≠ 0).card =
      ((range n).filter fun j => mg ps mags c (o + j) ≠ 0).card := by
  have hmem : ∀ i, i < c → ps.getD i 0 ∈ ps := by
    intro i hi
    rw [List.getD_eq_getElem _ _ (by omega)]
    exact List.getElem_mem _
  refine Finset.card_bij (fun i _ => ps.getD i 0 - o) ?_ ?_ ?_
  · intro i hi
    rw [mem_filter, mem_range] at hi ⊢
    have h1 := hlo _ (hmem i hi.1)
    have h2 := hhi _ (hmem i hi.1)
    refine ⟨by omega, ?_⟩
    rw [show o + (ps.getD i 0 - o) = ps.getD i 0 by omega, mg_at hnd hc hi.1]
    exact hi.2
  · intro i hi j hj he
    rw [mem_filter, mem_range] at hi hj

    have h1 := hlo _ (hmem i hi.1)
    have h2 := hlo _ (hmem j hj.1)
    exact nodup_getD hnd (by omega) (by omega) (by omega)
  · intro j hj
    rw [mem_filter, mem_range] at hj
    have : o + j ∈ ps := by
      by_contra hnot
      exact hj.2 (mg_not_mem hc hnot)
    rw [List.mem_iff_getElem] at this
    obtain ⟨i, hi, he⟩ := this
    have hgd : ps.getD i 0 = o + j := by rw [List.getD_eq_getElem _ _ hi, he]
    refine ⟨i, ?_, by omega⟩
    rw [mem_filter, mem_range]
    refine ⟨by omega, ?_⟩
    rw [← mg_at (mags := mags) hnd hc (by omega), hgd]
    exact hj.2

/-- What a decoder does to a block of `n` symbols; `W`, `W'` are the block before and after,
`R` the erased symbols, `ret` the returned number. -/
structure DecSem (NR FCR n : Nat) (R : Finset Nat) (W W' : Nat → F) (ret : Int) : Prop where
  range : ret = -1 ∨ (0 ≤ ret ∧ ret ≤ NR)
  neg : ret = -1 → ∀ j, j < n → W' j = W j
  count : ret ≠ -1 → ∀ s : Finset Nat, (∀ j, j ∈ s ↔ j < n ∧ W' j ≠ W j) → ret = s.card
  clean : Cw G NR FCR n W → ret = 0
  cap : ∀ (c : Nat → F) (E : Finset Nat), Cw G NR FCR n c → (∀ j, j ∈ E ↔ j < n ∧ j ∉ R ∧ W j ≠ c j) →
    2 * E.card + R.card ≤ NR →
    (Exc' G n (R ∪ E) → (∃ j, j < n ∧ W j ≠ c j) → ret = -1) ∧
    (¬ Exc' G n (R ∪ E) → ret ≠ -1 ∧ ∀ j, j < n → W' j = c j)
  valid : ret ≠ -1 → ¬ Cw G NR FCR n W → ∃ A : Finset Nat, (∀ j ∈ A, j < n) ∧ R ⊆ A ∧ A.card ≤ NR ∧
    (∀ j, j < n → W' j ≠ W j → j ∈ A) ∧
    ∃ L, IsLeast {L | Recurs' G NR n R (fun i => ev n W (G.al ^ (FCR + i))) L} L ∧ A.card ≤ L ∧
      (Cw G NR FCR n W' ↔ A.card = L)

theorem cw_unique {NR FCR n : Nat} (hn : n ≤ G.N) {c d : Nat → F} (hc : Cw G NR FCR n c)
    (hd : Cw G NR FCR n d) {S : Finset Nat} (hcard : S.card ≤ NR) (hS : ∀ j, j < n → c j ≠ d j → j ∈ S) :
    ∀ j, j < n → c j = d j := by
  classical
  set T := (range n).filter fun j => c j ≠ d j with hT
  have hTS : T ⊆ S := by
    intro j hj
    rw [hT, mem_filter, mem_range] at hj
    exact hS j hj.1 hj.2
  have key := mds (S := T) (x := X' G n) (c := fun j => (c j - d j) * X' G n j ^ FCR) (NR := NR) (by
    intro a ha b hb hab
    rw [hT] at ha hb
    simp only [coe_filter, mem_range, Set.mem_ofPred_eq] at ha hb
    have := G.al_pow_inj (by omega) (by omega) hab
    omega) (le_trans (Finset.card_le_card hTS) hcard) (by
    intro i hi
    have h1 := hc i hi
    have h2 := hd i hi
    rw [ev_loc] at h1 h2
    have h3 : ∑ j ∈ Finset.range n, (c j - d j) * X' G n j ^ (FCR + i) = 0 := by
      simp only [sub_mul]
      rw [Finset.sum_sub_distrib, h1, h2, sub_zero]
    rw [← h3, hT, Finset.sum_filter]
    refine Finset.sum_congr rfl fun j _ => ?_
    split
    · rw [pow_add]; ring
    · rename_i h; rw [not_not] at h; rw [h, sub_self, zero_mul])
  intro j hj
  by_contra hne
  have hjT : j ∈ T := by rw [hT, mem_filter, mem_range]; exact ⟨hj, hne⟩
  have := key j hjT
  rcases mul_eq_zero.1 this with h | h
  · exact hne (sub_eq_zero.1 h)
  · exact pow_ne_zero _ (G.al_pow_ne _) h

theorem sem_clean {NR FCR n : Nat} (hn : n ≤ G.N) {R : Finset Nat} {W : Nat → F}
    (hW : Cw G NR FCR n W) :
    DecSem G NR FCR n R W W 0 := by
  refine ⟨Or.inr ⟨le_rfl, by omega⟩, fun _ _ _ => rfl, ?_, fun _ => rfl, ?_, fun _ h => absurd hW h⟩
  · intro _ s hs
    have : s = ∅ := by
      ext j; rw [hs]; simp
    rw [this]; rfl
  · intro c E hc hE hcap
    have huniq := cw_unique G hn hW hc (S := R ∪ E) (by
      have := Finset.card_union_le R E; omega) (by
      intro j hj hne
      by_cases hr : j ∈ R
      · exact Finset.mem_union_left _ hr
      · exact Finset.mem_union_right _ ((hE j).2 ⟨hj, hr, hne⟩))
    refine ⟨?_, fun _ => ⟨by omega, huniq⟩⟩
    rintro _ ⟨j, hj, hne⟩
    exact absurd (huniq j hj) hne

theorem sum_pos {n : Nat} (hn : n ≤ G.N) {A : Finset Nat} (hA : ∀ p ∈ A, p < n) (f : Nat → F) (k : Nat) :
    ∑ p ∈ A.image (G.N - n + ·), f p * xl G p ^ k = ∑ j ∈ A, f (G.N - n + j) * X' G n j ^ k := by
  rw [Finset.sum_image (fun a _ b _ h => add_inj (G.N - n) h)]
  refine Finset.sum_congr rfl fun j hj => ?_
  rw [xl_X' G (hA j hj) hn]

/-- From the located positions to the semantics of a decoder that rejects when the search fails
or a position lies in the omitted part. `rej` covers further rejections. -/
theorem sem_of_ec {NR FCR n : Nat} (hn : n ≤ G.N) {R : Finset Nat} {W W' : Nat → F} {ret : Int}
    (hR : ∀ p ∈ R, p < n) {res : ECRes F (Fin G.N)}
    (hW : ¬ Cw G NR FCR n W)
    (h : ECSem G NR FCR (R.image (G.N - n + ·)) (fun i => ev n W (G.al ^ (FCR + i))) res)
    (hneg : res.ret = -1 → ret = -1)
    (hlow : ∀ c : Nat, res.ret = c → (∃ p ∈ posOf G res.locs c, p < G.N - n) → ret = -1)
    (hneg' : ret = -1 → ∀ j, j < n → W' j = W j)
    (hpos : ∀ c : Nat, res.ret = c → (∀ p ∈ posOf G res.locs c, G.N - n ≤ p) →
      ret ≠ -1 ∧ ∀ j, j < n → W' j = W j + mg (posOf G res.locs c) res.mags c (G.N - n + j))
    (hcnt : ∀ c : Nat, res.ret = c → (∀ p ∈ posOf G res.locs c, G.N - n ≤ p) →
      ∀ s : Finset Nat, (∀ i, i ∈ s ↔ i < c ∧ res.mags.getD i 0 ≠ 0) → ret = s.card) :
    DecSem G NR FCR n R W W' ret := by
  classical
  have hlen : ∀ c : Nat, c ≤ NR → (posOf G res.locs c).length = c := fun c hc =>
    posOf_length G (r := (res.locs, c)) h.llen hc
  -- classification
  have hcases : ret = -1 ∨ ∃ c : Nat, res.ret = c ∧ c ≤ NR ∧ (posOf G res.locs c).Nodup ∧
      (∀ p ∈ posOf G res.locs c, G.N - n ≤ p) ∧ ret ≠ -1 := by
    rcases h.ret with hr | ⟨c, hr, hc, hnd, _⟩
    · exact Or.inl (hneg hr)
    · by_cases hlow' : ∃ p ∈ posOf G res.locs c, p < G.N - n
      · exact Or.inl (hlow c hr hlow')
      · push Not at hlow'
        exact Or.inr ⟨c, hr, hc, hnd, hlow', (hpos c hr hlow').1⟩
  have hcount : ∀ c : Nat, res.ret = c → c ≤ NR → (posOf G res.locs c).Nodup →
      (∀ p ∈ posOf G res.locs c, G.N - n ≤ p) → ∀ s : Finset Nat, (∀ j, j ∈ s ↔ j < n ∧ W' j ≠ W j) →
      ret = s.card := by
    intro c hr hc hnd hge s hs
    rw [hcnt c hr hge ((range c).filter fun i => res.mags.getD i 0 ≠ 0) (by simp),
      card_mags (n := n) (o := G.N - n) hnd (hlen c hc).symm hge (fun p hp => by
        have := posOf_lt G hp; omega)]
    congr 2
    ext j
    rw [mem_filter, mem_range, hs]
    refine and_congr_right fun hj => ?_
    rw [(hpos c hr hge).2 j hj]
    simp
  refine ⟨?_, hneg', ?_, fun hc => absurd hc hW, ?_, ?_⟩
  · rcases hcases with hr | ⟨c, hr, hc, hnd, hge, _⟩
    · exact Or.inl hr
    · right
      have h1 := hcnt c hr hge ((range c).filter fun i => res.mags.getD i 0 ≠ 0) (by simp)
      have h2 := Finset.card_filter_le (range c) fun i => res.mags.getD i 0 ≠ 0
      rw [Finset.card_range] at h2
      omega
  · intro hne s hs
    rcases hcases with hr | ⟨c, hr, hc, hnd, hge, _⟩
    · exact absurd hr hne
    · exact hcount c hr hc hnd hge s hs
  · intro c E hc hE hcap
    have hElt : ∀ p ∈ E, p < n := fun p hp => ((hE p).1 hp).1
    have hAlt : ∀ p ∈ R ∪ E, p < n := by
      intro p hp
      rcases Finset.mem_union.1 hp with hp | hp
      · exact hR p hp
      · exact hElt p hp
    have hdisj : Disjoint R E := by
      rw [Finset.disjoint_left]
      intro p hp hpE
      exact ((hE p).1 hpE).2.1 hp
    have himg : (R ∪ E).image (G.N - n + ·) = R.image (G.N - n + ·) ∪ E.image (G.N - n + ·) := Finset.image_union _ _
    have hcardi : ∀ A : Finset Nat, (A.image (G.N - n + ·)).card = A.card := fun A =>
      Finset.card_image_of_injective _ (add_inj (G.N - n))
    have hsyn : ∀ i, i < NR → ev n W (G.al ^ (FCR + i)) =
        ∑ j ∈ R ∪ E, (W j - c j) * X' G n j ^ (FCR + i) := by
      intro i hi
      have h1 := hc i hi
      rw [ev_loc] at h1 ⊢
      rw [← sub_zero (∑ j ∈ Finset.range n, W j * X' G n j ^ (FCR + i)), ← h1, ← Finset.sum_sub_distrib]
      rw [← Finset.sum_subset (show R ∪ E ⊆ Finset.range n from fun p hp => by
        rw [mem_range]; exact hAlt p hp)]
      · exact Finset.sum_congr rfl fun j _ => by ring
      · intro j hj hnot
        rw [mem_range] at hj
        have : W j = c j := by
          by_contra hne
          apply hnot
          by_cases hr : j ∈ R
          · exact Finset.mem_union_left _ hr
          · exact Finset.mem_union_right _ ((hE j).2 ⟨hj, hr, hne⟩)
        rw [this, sub_self]
    have key := h.cap (E.image (G.N - n + ·)) (fun p => W (p - (G.N - n)) - c (p - (G.N - n)))
      ((Finset.disjoint_image (add_inj (G.N - n))).2 hdisj) (by
        intro p hp
        rw [Finset.mem_image] at hp
        obtain ⟨j, hj, rfl⟩ := hp
        have := hElt j hj
        omega) (by
        intro p hp
        rw [Finset.mem_image] at hp
        obtain ⟨j, hj, rfl⟩ := hp
        rw [show G.N - n + j - (G.N - n) = j by omega]
        exact sub_ne_zero.2 ((hE j).1 hj).2.2) (by rw [hcardi, hcardi]; exact hcap) (by
        intro i hi
        rw [← himg, sum_pos G hn hAlt, hsyn i hi]
        refine Finset.sum_congr rfl fun j _ => ?_
        rw [show G.N - n + j - (G.N - n) = j by omega])
    rw [← himg, exc_iff G hn hAlt, hcardi] at key
    refine ⟨fun hx _ => hneg (key.1 hx), fun hx => ?_⟩
    obtain ⟨hr, hA, hm⟩ := key.2 hx
    have hge : ∀ p ∈ posOf G res.locs (R ∪ E).card, G.N - n ≤ p := by
      intro p hp
      rw [← List.mem_toFinset, hA, Finset.mem_image] at hp
      obtain ⟨j, _, rfl⟩ := hp
      omega
    have hcl : (R ∪ E).card ≤ NR := by
      have := Finset.card_union_le R E; omega
    obtain ⟨hne, hW'⟩ := hpos _ hr hge
    refine ⟨hne, fun j hj => ?_⟩
    rw [hW' j hj]
    by_cases hjA : j ∈ R ∪ E
    · rw [hm (G.N - n + j) (Finset.mem_image_of_mem _ hjA), show G.N - n + j - (G.N - n) = j by omega, G.sub_eq,
        ← add_assoc, G.add_self, zero_add]
    · rw [mg_not_mem (hlen _ hcl).symm, add_zero]
      · by_contra hne
        apply hjA
        by_cases hr : j ∈ R
        · exact Finset.mem_union_left _ hr
        · exact Finset.mem_union_right _ ((hE j).2 ⟨hj, hr, hne⟩)
      · rw [← List.mem_toFinset, hA, Finset.mem_image]
        rintro ⟨k, hk, he⟩
        apply hjA
        have : k = j := by omega
        rw [← this]; exact hk
  · intro hne _
    rcases hcases with hr | ⟨c, hr, hc, hnd, hge, _⟩
    · exact absurd hr hne
    rcases h.ret with hr' | ⟨c', hr', hc', _, hRA, L, hL, hcL, hiff⟩
    · rw [hr'] at hr; omega
    have hcc : c' = c := by omega
    subst hcc
    set ps := posOf G res.locs c' with hps
    set A := ps.toFinset.image (· - (G.N - n)) with hAd
    have hback : A.image (G.N - n + ·) = ps.toFinset := by
      ext p
      simp only [hAd, Finset.mem_image, List.mem_toFinset]
      constructor
      · rintro ⟨j, ⟨q, hq, rfl⟩, rfl⟩
        have := hge q hq
        rw [show G.N - n + (q - (G.N - n)) = q by omega]; exact hq
      · intro hp
        have := hge p hp
        exact ⟨p - (G.N - n), ⟨p, hp, rfl⟩, by omega⟩
    have hAlt : ∀ j ∈ A, j < n := by
      intro j hj
      rw [hAd, Finset.mem_image] at hj
      obtain ⟨p, hp, rfl⟩ := hj
      have h1 := hge p (List.mem_toFinset.1 hp)
      have h2 := posOf_lt G (List.mem_toFinset.1 hp)
      omega
    have hAcard : A.card = c' := by
      rw [← Finset.card_image_of_injective A (add_inj (G.N - n)), hback, List.toFinset_card_of_nodup hnd, hps,
        hlen c' hc]
    obtain ⟨_, hW'⟩ := hpos c' hr hge
    refine ⟨A, hAlt, ?_, by omega, ?_, L, ?_, by omega, ?_⟩
    · intro j hj
      have h1 := hRA (Finset.mem_image_of_mem (G.N - n + ·) hj)
      rw [← hback, Finset.mem_image] at h1
      obtain ⟨k, hk, he⟩ := h1
      have : k = j := by omega
      rw [← this]; exact hk
    · intro j hj hd
      by_contra hnot
      apply hd
      rw [hW' j hj, mg_not_mem (hlen c' hc).symm, add_zero]
      rw [← List.mem_toFinset, ← hps, ← hback, Finset.mem_image]
      rintro ⟨k, hk, he⟩
      apply hnot
      have : k = j := by omega
      rw [← this]; exact hk
    · have : {L | Recurs' G NR n R (fun i => ev n W (G.al ^ (FCR + i))) L} =
          {L | Recurs G NR (R.image (G.N - n + ·)) (fun i => ev n W (G.al ^ (FCR + i))) L} := by
        ext ℓ
        simp only [Set.mem_ofPred_eq]
        exact (recurs_iff G hn hR _ ℓ).symm
      rw [this]; exact hL
    · rw [hAcard, ← hiff]
      unfold Cw
      refine forall_congr' fun i => imp_congr_right fun hi => ?_
      have e1 : ev n W' (G.al ^ (FCR + i)) = ev n W (G.al ^ (FCR + i)) +
          ∑ p ∈ ps.toFinset, mg ps res.mags c' p * xl G p ^ (FCR + i) := by
        rw [← hback, sum_pos G hn hAlt, ev_loc, ev_loc]
        rw [Finset.sum_subset (show A ⊆ Finset.range n from fun p hp => by
          rw [mem_range]; exact hAlt p hp), ← Finset.sum_add_distrib]
        · refine Finset.sum_congr rfl fun j hj => ?_
          rw [mem_range] at hj
          rw [hW' j hj]; ring
        · intro j hj hnot
          rw [mg_not_mem (hlen c' hc).symm, zero_mul]
          rw [← List.mem_toFinset, ← hps, ← hback, Finset.mem_image]
          rintro ⟨k, hk, he⟩
          apply hnot
          have : k = j := by omega
          rw [← this]; exact hk
      rw [e1]
      constructor
      · intro h0; exact G.eq_of_add h0
      · intro h0; rw [h0]; exact G.add_self _

theorem posOf_map_nodup {l : List Nat} (o : Nat) (h : l.Nodup) : (l.map (o + ·)).Nodup :=
  h.map (add_inj o)

theorem getD_drop' {α : Type} (l : List α) (a i : Nat) (d : α) : (l.drop a).getD i d = l.getD (a + i) d := by
  simp [List.getD_eq_getElem?_getD]

/-- The Reed-Solomon decoder. -/
theorem decode_ok {NR FCR count dl : Nat} {im data parity : List F} {er : List (Fin G.N)}
    (hI : Imap G im) (hF : FCR < G.N) (hNR : 0 < NR) (hNRN : NR < G.N) (hdl : 0 < dl) (hdlK : dl ≤ G.N - NR)
    (hd : dl ≤ data.length) (hp : NR ≤ parity.length) (hcount : count ≤ NR) (her : count ≤ er.length)
    (hnd : (posOf G er count).Nodup) (hlt : ∀ p ∈ posOf G er count, p < dl + NR) :
    Ok (decode (G.fieldOps u ui) NR FCR im data parity er count dl) (fun r =>
      r.data.length = data.length ∧ r.parity.length = parity.length ∧ r.data.drop dl = data.drop dl ∧
      r.parity.drop NR = parity.drop NR ∧ r.erasures.length = er.length ∧
      (r.ret ≤ 0 → r.data = data ∧ r.parity = parity) ∧
      DecSem G NR FCR (dl + NR) (posOf G er count).toFinset (word data parity dl) (word r.data r.parity dl) r.ret) := by
  classical
  unfold decode
  dsimp only
  rw [Gf.f_N]
  refine Ok.bind' (P := fun _ => True) (Ok.assertUB hcount trivial) fun _ _ => ?_
  refine Ok.bind' (P := fun _ => True) (Ok.assertUB ⟨hdl, hdlK⟩ trivial) fun _ _ => ?_
  refine Ok.bind' (shiftErasures_ok G u ui (n := dl + NR) hdlK (by omega) her hlt) ?_
  rintro er' ⟨he1, he2, he3⟩
  have hRlt : ∀ p ∈ (posOf G er count).toFinset, p < dl + NR := fun p hp => hlt p (List.mem_toFinset.1 hp)
  refine Ok.bind' (computeSyndromes_ok G u ui (W := word data parity dl) (K := G.N - NR) (NP := NR) hF
    (List.length_replicate) hdl hdlK ?_ ?_) ?_
  · intro j hj
    rw [rd_of_lt (by omega), getElem_eq_getD (a := data) _ 0, word, if_pos hj]
  · intro j hj
    rw [rd_of_lt (by omega), getElem_eq_getD (a := parity) _ 0, word, if_neg (by omega), Nat.add_sub_cancel_left]
  rintro ⟨syn, nz⟩ ⟨hs1, hs2, hs3⟩
  dsimp only at hs1 hs2 hs3 ⊢
  have hnz : nz = 0 ↔ Cw G NR FCR (dl + NR) (word data parity dl) := by
    rw [hs3, Finset.card_eq_zero, Finset.filter_eq_empty_iff]
    unfold Cw
    simp
  by_cases h0 : nz = 0
  · rw [if_pos h0]
    exact Ok.some ⟨rfl, rfl, rfl, rfl, he1, fun _ => ⟨rfl, rfl⟩, sem_clean G (by omega) (hnz.1 h0)⟩
  rw [if_neg h0]
  have hnc : ¬ Cw G NR FCR (dl + NR) (word data parity dl) := fun h => h0 (hnz.2 h)
  have hec := errorCorrection_sem G u ui (FCR := FCR) (count := count) (er := er')
    (s := fun i => ev (dl + NR) (word data parity dl) (G.al ^ (FCR + i))) (locs := List.replicate NR (G.fieldOps u ui).junkI)
    (mags := List.replicate NR (G.fieldOps u ui).junk)
    hI hNR hNRN hs1 List.length_replicate List.length_replicate hcount (by omega)
    (by rw [he3]; exact posOf_map_nodup _ hnd) hs2 (by
      unfold Cw at hnc
      push Not at hnc
      exact hnc)
  refine Ok.bind' hec ?_
  intro res hsem
  have himg : (posOf G er' count).toFinset = (posOf G er count).toFinset.image (G.N - (dl + NR) + ·) := by
    rw [he3]
    ext p
    simp only [List.mem_toFinset, List.mem_map, Finset.mem_image]
    have : G.N - NR - dl = G.N - (dl + NR) := by omega
    rw [this]
  rw [himg] at hsem
  have ho : G.N - NR - dl = G.N - (dl + NR) := by omega
  have hlen := hsem.llen
  have hmlen := hsem.mlen
  have hret := hsem.ret
  by_cases hle : res.ret ≤ 0
  · rw [if_pos hle]
    refine Ok.some ⟨rfl, rfl, rfl, rfl, he1, fun _ => ⟨rfl, rfl⟩, ?_⟩
    refine sem_of_ec G (by omega) hRlt hnc hsem (fun h => h) ?_ (fun _ _ _ => rfl) ?_ ?_
    · rintro c hc ⟨p, hp, _⟩
      have : c = 0 := by omega
      subst this
      simp [posOf] at hp
    · intro c hc _
      have : c = 0 := by omega
      subst this
      exact ⟨by dsimp only; omega, fun j _ => by simp [mg]⟩
    · intro c hc _ s hs
      have : c = 0 := by omega
      subst this
      have : s = ∅ := by ext i; rw [hs]; simp
      dsimp only
      rw [this, hc]; rfl
  rw [if_neg hle]
  have hnN : dl + NR ≤ G.N := by omega
  obtain ⟨cnt, hcr, hcN⟩ : ∃ cnt : Nat, res.ret = cnt ∧ cnt ≤ NR := by
    obtain ⟨cnt, h1, h2, _⟩ := hret.resolve_left (by omega)
    exact ⟨cnt, h1, h2⟩
  clear hret
  rw [hcr, Int.toNat_natCast]
  refine Ok.bind' (anyLocBelow_ok G u ui (by omega)) ?_
  intro bad hbad
  rw [ho] at hbad
  have hunq : ∀ c : Nat, res.ret = c → c = cnt := by intro c hc; omega
  cases bad with
  | true =>
    rw [if_pos rfl]
    refine Ok.some ⟨rfl, rfl, rfl, rfl, he1, fun _ => ⟨rfl, rfl⟩, ?_⟩
    have hb := hbad.1 rfl
    obtain ⟨q, hq, hq2⟩ := hb
    refine sem_of_ec G (by omega) hRlt hnc hsem (fun _ => rfl) (fun _ _ _ => rfl) (fun _ _ _ => rfl) ?_ ?_
    · intro c hc hge
      rw [hunq c hc] at hge
      have := hge q hq
      omega
    · intro c hc hge
      rw [hunq c hc] at hge
      have := hge q hq
      omega
  | false =>
    have hge : ∀ p ∈ posOf G res.locs cnt, G.N - (dl + NR) ≤ p := by
      intro p hp
      by_contra hlt
      have := hbad.2 ⟨p, hp, by omega⟩
      exact absurd this (by simp)
    rw [if_neg (by simp)]
    refine Ok.bind' (applyMags_ok G u ui (NR := NR) (by omega) hdlK hd hp (by omega) (by omega) (by rw [ho]; exact hge)) ?_
    rintro ⟨d', p'⟩ ⟨a1, a2, a3, a4, a5⟩
    dsimp only at a1 a2 a3 a4 a5 ⊢
    rw [ho] at a5
    rw [countNonzero_ok G u ui (by omega), sb]
    have hsem' : DecSem G NR FCR (dl + NR) (posOf G er count).toFinset (word data parity dl) (word d' p' dl)
        (((range cnt).filter fun i => res.mags.getD i 0 ≠ 0).card : Int) := by
      refine sem_of_ec G (by omega) hRlt hnc hsem (fun h => by omega) ?_ (fun h => by omega) ?_ ?_
      · rintro c hc ⟨p, hp, hlt⟩
        rw [hunq c hc] at hp
        have := hge p hp
        omega
      · intro c hc _
        rw [hunq c hc]
        exact ⟨by omega, a5⟩
      · intro c hc _ s hs
        rw [hunq c hc] at hs
        congr 2
        ext i
        rw [hs, mem_filter, mem_range]
    refine Ok.some ⟨a1, a2, a3, a4, he1, ?_, hsem'⟩
    dsimp only
    intro hz
    have hz0 : (((range cnt).filter fun i => res.mags.getD i 0 ≠ 0).card) = 0 := by omega
    have hall : ∀ i, i < cnt → res.mags.getD i 0 = 0 := by
      rw [Finset.card_eq_zero, Finset.filter_eq_empty_iff] at hz0
      intro i hi
      have := hz0 (mem_range.2 hi)
      rwa [not_not] at this
    have hmg : ∀ p, mg (posOf G res.locs cnt) res.mags cnt p = 0 := by
      intro p
      unfold mg
      refine Finset.sum_eq_zero fun i hi => ?_
      rw [hall i (mem_range.1 hi)]; simp
    have hww : ∀ j, j < dl + NR → word d' p' dl j = word data parity dl j := by
      intro j hj; rw [a5 j hj, hmg, add_zero]
    constructor
    · apply ext_getD a1 (d := 0)
      intro i hi
      by_cases hid : i < dl
      · have := hww i (by omega)
        simpa [word, hid] using this
      · have e1 : d'.getD i 0 = (d'.drop dl).getD (i - dl) 0 := by
          rw [getD_drop']; congr 1; omega
        have e2 : data.getD i 0 = (data.drop dl).getD (i - dl) 0 := by
          rw [getD_drop']; congr 1; omega
        rw [e1, e2, a3]
    · apply ext_getD a2 (d := 0)
      intro i hi
      by_cases hid : i < NR
      · have := hww (dl + i) (by omega)
        simpa [word] using this
      · have e1 : p'.getD i 0 = (p'.drop NR).getD (i - NR) 0 := by
          rw [getD_drop']; congr 1; omega
        have e2 : parity.getD i 0 = (parity.drop NR).getD (i - NR) 0 := by
          rw [getD_drop']; congr 1; omega
        rw [e1, e2, a4]

end Verif.RS
