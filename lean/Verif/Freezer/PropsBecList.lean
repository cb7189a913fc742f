import Verif.Freezer.PropsBec
import Verif.Polar.EraseList
/- C79 (polar_list_decoder.hh): the list decoder on the erasure channel. -/
namespace Verif.Freezer
open Verif.RS (sb)
open Verif.Polar
open PolarHelper (I8)
variable {L : Nat}

/-! ### Specification -/

open Classical in
/-- The number of positions that are not frozen and lost. -/
noncomputable def lostFree (frozen : List Nat) (level : Nat) (E : Finset Nat) : Nat :=
  ((Finset.range (2 ^ level)).filter fun i => ¬ Frozen frozen i ∧ Lost level E i).card

open Classical in
/-- The number of positions that carry message symbols of the parity-aided code (C39) and are lost. -/
noncomputable def lostData (first stride : Nat) (frozen : List Nat) (level : Nat) (E : Finset Nat) : Nat :=
  ((Finset.range (2 ^ level)).filter fun i => (¬ Frozen frozen i ∧ ¬ isParity first stride (freeBelow frozen i)) ∧ Lost level E i).card

/-! ### Proofs -/

theorem eAt_lost {level : Nat} {E : Finset Nat} {i : Nat} (hi : i < 2 ^ level) (h : eAt level (fun j => decide (j ∈ E)) level i 0 = true) : Lost level E i := by
  obtain ⟨z, z1, z2, z3, z4⟩ := lift (e := fun j => decide (j ∈ E)) level i le_rfl hi (fun _ => -1) (fun _ => Or.inr rfl) fun k hk hf => by
    obtain rfl : k = 0 := by simpa using hk
    rw [h] at hf; cases hf
  simp only [Nat.sub_self, pow_zero, Nat.mul_one] at z2 z3
  refine ⟨z, fun _ => 1, z1, fun _ => Or.inl rfl, z2, ?_, fun j hj he => ?_⟩
  · have := z3 0 (by simp)
    rw [Nat.add_zero] at this
    rw [this]; norm_num
  · rw [z4 j hj (by simpa using he)]
    unfold polar
    simp

theorem codewordOf_take {frozen : List Nat} {level : Nat} {m : List Int} {j : Nat} : codewordOf frozen level (m.take (freeBelow frozen (2 ^ level))) j = codewordOf frozen level m j := by
  unfold codewordOf
  refine polar_congr (fun i hi => ?_) j
  unfold symbolAt
  split
  · rfl
  · rename_i hf
    rw [getD_take_lt (free_lt hi hf)]

theorem symbolAt_inj {frozen : List Nat} {N : Nat} {m m' : List Int} (h1 : m.length = freeBelow frozen N) (h2 : m'.length = freeBelow frozen N)
    (h : ∀ i, i < N → ¬ Frozen frozen i → symbolAt frozen m i = symbolAt frozen m' i) : m = m' := by
  refine ext_getD 1 (by omega) fun r hr => ?_
  obtain ⟨i, hi, hf, rfl⟩ := free_surj frozen N r (by omega)
  have := h i hi hf
  unfold symbolAt at this
  rwa [if_neg hf, if_neg hf] at this

/-- If nothing that is not frozen is lost, then only one message fits the symbols that are left. -/
theorem unique_of_kept {frozen : List Nat} {level : Nat} {E : Finset Nat} {m m' : List Int} (h1 : m.length = freeBelow frozen (2 ^ level))
    (h2 : m'.length = freeBelow frozen (2 ^ level)) (s1 : ∀ x ∈ m, x = 1 ∨ x = -1) (s2 : ∀ x ∈ m', x = 1 ∨ x = -1)
    (hk : ∀ i, i < 2 ^ level → ¬ Frozen frozen i → ¬ Lost level E i)
    (h : ∀ j, j < 2 ^ level → j ∉ E → codewordOf frozen level m j = codewordOf frozen level m' j) : m = m' := by
  refine symbolAt_inj h1 h2 fun i => ?_
  induction i using Nat.strong_induction_on with
  | _ i ih =>
    intro hi hf
    by_contra hne
    refine hk i hi hf ⟨symbolAt frozen m, symbolAt frozen m', symbolAt_sym s1, symbolAt_sym s2, fun k hki => ?_, hne, h⟩
    by_cases hfk : Frozen frozen k
    · unfold symbolAt; rw [if_pos hfk, if_pos hfk]
    · exact ih k hki (by omega) hfk

theorem disagreement_zero {level : Nat} {E : Finset Nat} {cw codeword : List Int} {frozen : List Nat} {data m : List Int}
    (hs : ∀ x ∈ m, x = 1 ∨ x = -1) (hd : ∀ x ∈ data, x = 1 ∨ x = -1) (hcw : ∀ j, j < 2 ^ level → cw.getD j 0 = codewordOf frozen level data j)
    (hr : Received level E cw codeword) :
    disagreement (2 ^ level) (codeword.getD · 0) (codewordOf frozen level m) = 0 ↔
      ∀ j, j < 2 ^ level → j ∉ E → codewordOf frozen level m j = codewordOf frozen level data j := by
  unfold disagreement
  rw [Finset.sum_eq_zero_iff_of_nonneg fun _ _ => penalty_nonneg _ _]
  simp only [Finset.mem_range]
  refine forall_congr' fun j => forall_congr' fun hj => ?_
  have q := hr j hj
  by_cases hE : j ∈ E
  · rw [if_pos hE] at q
    rw [q]
    simp [hE, penalty]
  · rw [if_neg hE, hcw j hj] at q
    have s2 : Sym (codewordOf frozen level data j) := polar_sym (symbolAt_sym hd) hj
    have s1 : Sym (codewordOf frozen level m j) := polar_sym (symbolAt_sym hs) hj
    rw [penalty_zero (v := codeword.getD j 0) (x := codewordOf frozen level data j) s1 (by
      unfold RelS
      simp only [Bool.false_eq_true, if_false]
      rcases s2 with h | h
      · rw [h, mul_one] at q; exact Or.inl ⟨h, q.2⟩
      · rw [h] at q; exact Or.inr ⟨h, by omega⟩)]
    simp [hE]

open Classical in
theorem lost_scl {level : Nat} {E : Finset Nat} {frozen : List Nat} {s x : Nat → Int} (hs : ∀ j, j < 2 ^ level → RelS (decide (j ∈ E)) (s j) (x j))
    (cost : List Int → Int → Int → Int → Int) (hc1 : ∀ w μ s b, 0 ≤ μ → 0 ≤ cost w μ s b ∧ (cost w μ s b < 1 → μ < 1 ∧ penalty s b = 0))
    (Q : Nat → Prop) (hQ : ∀ (w : List Int) μ s, w.length < 2 ^ level → ¬ Frozen frozen w.length → cost w μ s 1 < 1 → cost w μ s (-1) < 1 → Q w.length)
    (hL : 2 ^ ((Finset.range (2 ^ level)).filter fun i => Q i ∧ Lost level E i).card ≤ L) (v : Nat → Int) (hf : ∀ i, i < 2 ^ level → Frozen frozen i → v i = 1) (hv : ∀ i, Sym (v i))
    (hx : ∀ j, j < 2 ^ level → j ∉ E → polar level v j = x j) (h0 : pathMetric level (Frozen frozen) s v = 0)
    (hcu : ∀ i s, i < 2 ^ level → ¬ Frozen frozen i → cost ((List.range i).map v) 0 s (v i) = penalty s (v i)) :
    ∃ k, k < (scl L level s (Frozen frozen) cost).length ∧ (scl L level s (Frozen frozen) cost).getD k ([], 0) = ((List.range (2 ^ level)).map v, 0) := by
  set u := (List.range (2 ^ level)).map v with hud
  have hg : ∀ i, i < 2 ^ level → u.getD i 1 = v i := fun i hi => getD_range_map _ _ hi
  have hpm : pathMetric level (fun i => Frozen frozen (0 * 2 ^ level + i)) (nodeSoft level s (u.getD · 1) 0 0) (fun i => u.getD (0 * 2 ^ level + i) 1) = pathMetric level (Frozen frozen) s v := by
    simp only [Nat.zero_mul, Nat.zero_add]
    have : ∀ (d : Nat) (fr : Nat → Prop) (s : Nat → Int) (v w : Nat → Int), (∀ i, i < 2 ^ d → v i = w i) → pathMetric d fr s v = pathMetric d fr s w := by
      intro d
      induction d with
      | zero => intro fr s v w h; rw [pathMetric, pathMetric, h 0 (by norm_num)]
      | succ d ih =>
        intro fr s v w h
        have e := two_pow_succ' d
        rw [pathMetric, pathMetric]
        split
        · rfl
        · have hp : polar d v = polar d w := funext fun i => polar_congr (fun j hj => h j (by omega)) i
          rw [ih _ _ v w fun i hi => h i (by omega), ih _ _ _ _ fun i hi => h (2 ^ d + i) (by omega), hp]
    exact this level _ s _ _ hg
  have hL1 : 1 ≤ L := Nat.one_le_two_pow.trans hL
  have hcard : ∀ p, ((Finset.range (p + 1)).filter fun i => Q i ∧ Lost level E i).card =
      ((Finset.range p).filter fun i => Q i ∧ Lost level E i).card + if Q p ∧ Lost level E p then 1 else 0 := by
    intro p
    rw [Finset.range_add_one, Finset.filter_insert]
    split
    · rw [Finset.card_insert_of_notMem (by simp)]
    · rfl
  obtain ⟨-, -, h⟩ := zero_list (L := L) (M := level) (e := fun j => decide (j ∈ E)) (Frozen frozen) cost
    (fun p => 2 ^ ((Finset.range p).filter fun i => Q i ∧ Lost level E i).card) hc1 hs
    (fun p => Nat.pow_le_pow_right (by omega) (by rw [hcard]; omega))
    (fun w μ s hp hfr he c1 c2 => by rw [hcard, if_pos ⟨hQ w μ s hp hfr c1 c2, eAt_lost hp he⟩, pow_succ]; omega) hL u (by simp [hud]) (fun i hi h => by rw [hg i hi]; exact hf i hi h)
    (fun x hx => by obtain ⟨i, -, rfl⟩ := List.mem_map.1 hx; exact hv i)
    (fun i s hi hf => by
      rw [hg i hi, ← hcu i s hi hf, hud, ← List.map_take, List.take_range, Nat.min_eq_left hi.le])
    level 0 0 (by omega) (by simp) (([], 0) :: List.replicate (L - 1) ([], 1000000)) (by
      intro a ha
      rcases List.mem_cons.1 ha with rfl | h
      · refine ⟨by simp, le_rfl, fun _ => ⟨v, hv, by simp, fun j hj he => hx j hj (by simpa using he)⟩⟩
      · rw [List.eq_of_mem_replicate h]; simp) (by
      rw [List.filter_cons_of_pos (by simp), List.filter_replicate]
      simp) (by simp) (by rw [hpm]; exact h0)
  rw [Nat.zero_mul, Nat.zero_add, List.take_of_length_le (by simp [hud])] at h
  change _ ∈ scl L level s (Frozen frozen) cost at h
  obtain ⟨k, hk, e⟩ := List.mem_iff_getElem.1 h
  exact ⟨k, hk, by rw [← getElem_eq_getD hk]; exact e⟩

theorem coded_congr {first stride r n : Nat} {m m' : List Int} (hr : r < n) (h : ∀ i, i < dataBelow first stride n → m.getD i 1 = m'.getD i 1) :
    coded first stride m r = coded first stride m' r := by
  have hle := dataBelow_mono first stride (show r + 1 ≤ n by omega)
  have hs := dataBelow_succ first stride r
  rw [coded_eq, coded_eq]
  split
  · rename_i hc
    rw [if_pos hc] at hs
    exact h _ (by omega)
  · exact par_congr first stride fun i hi => h i (by omega)

theorem withParity_take {first stride n K : Nat} {m : List Int} (hK : dataBelow first stride n ≤ K) :
    withParity first stride (m.take K) n = withParity first stride m n := by
  unfold withParity
  refine List.map_congr_left fun r hr => coded_congr (List.mem_range.1 hr) fun i hi => getD_take_lt (by omega)

/-- If no message symbol is lost, then only one message fits the symbols that are left. -/
theorem unique_of_kept_parity {first stride : Nat} {frozen : List Nat} {level : Nat} {E : Finset Nat} {m m' : List Int} (h1 : m.length = parK frozen level stride first)
    (h2 : m'.length = parK frozen level stride first) (s1 : ∀ x ∈ m, x = 1 ∨ x = -1) (s2 : ∀ x ∈ m', x = 1 ∨ x = -1) (hk : lostData first stride frozen level E = 0)
    (h : ∀ j, j < 2 ^ level → j ∉ E → codewordOf frozen level (withParity first stride m (freeBelow frozen (2 ^ level))) j =
      codewordOf frozen level (withParity first stride m' (freeBelow frozen (2 ^ level))) j) : m = m' := by
  classical
  have hkept : ∀ i, i < 2 ^ level → ¬ Frozen frozen i → ¬ isParity first stride (freeBelow frozen i) → ¬ Lost level E i := by
    intro i hi hf hp hl
    unfold lostData at hk
    rw [Finset.card_eq_zero] at hk
    exact Finset.notMem_empty i (hk ▸ Finset.mem_filter.2 ⟨Finset.mem_range.2 hi, ⟨hf, hp⟩, hl⟩)
  have hmonoF : ∀ i j, i ≤ j → freeBelow frozen i ≤ freeBelow frozen j := fun i j hij => by rw [← rank_eq, ← rank_eq]; exact rank_mono _ hij
  set F := freeBelow frozen (2 ^ level) with hF
  have key : ∀ r, r ≤ F → ∀ i, i < dataBelow first stride r → m.getD i 1 = m'.getD i 1 := by
    intro r
    induction r with
    | zero => intro _ i hi; rw [dataBelow_zero] at hi; omega
    | succ r ih =>
      intro hr i hi
      have ih := ih (by omega)
      rw [dataBelow_succ] at hi
      by_cases hlt : i < dataBelow first stride r
      · exact ih i hlt
      by_cases hc : cAt first stride r ≠ 0
      · rw [if_pos hc] at hi
        obtain rfl : i = dataBelow first stride r := by omega
        obtain ⟨p, hp, hf, rfl⟩ := free_surj frozen (2 ^ level) r (by omega)
        by_contra hne
        refine hkept p hp hf (fun h => hc ((isParity_iff first stride _).1 h)) ⟨symbolAt frozen (withParity first stride m F), symbolAt frozen (withParity first stride m' F),
          symbolAt_sym (withParity_sym _ _ s1 _), symbolAt_sym (withParity_sym _ _ s2 _), fun k hkp => ?_, ?_, h⟩
        · unfold symbolAt
          split
          · rfl
          · rename_i hfk
            have := freeBelow_succ frozen k
            rw [if_neg hfk] at this
            have := hmonoF (k + 1) p (by omega)
            rw [withParity_getD _ _ _ (by omega), withParity_getD _ _ _ (by omega)]
            exact coded_congr (by omega) ih
        · unfold symbolAt
          rw [if_neg hf, if_neg hf, withParity_getD _ _ _ (by omega), withParity_getD _ _ _ (by omega), coded_eq, coded_eq, if_pos hc, if_pos hc]
          exact hne
      · rw [if_neg hc] at hi; omega
  exact ext_getD 1 (by omega) fun i hi => key F le_rfl i (by
    have : parK frozen level stride first = dataBelow first stride F := rfl
    omega)

/-! ### C79 -/

/-- The list decoder on the erasure channel.  If there is room for two alternatives for every position that is not frozen and lost, then the lanes of
metric 0 hold exactly the messages whose codewords agree with the one sent at the positions that are left, the message sent among them.
If moreover the last position is not frozen then lane 0 holds one of them, and the message sent if nothing that is not frozen is lost. -/
theorem C79_list (MAX_M : Nat) (soft hard : List (Reg L)) (maps : List (LMap L)) (metric : List Int) (rank : Option (List Nat))
    (message : List (Reg L)) (codeword : List Int) (frozen : List Nat) (level : Nat)
    (h : ListCall L MAX_M soft hard maps metric rank message codeword frozen level)
    (data cw0 cw : List Int) (hd : freeBelow frozen (2 ^ level) ≤ data.length) (hi : ∀ x ∈ data, x = 1 ∨ x = -1)
    (hc : 2 ^ level ≤ cw0.length) (henc : encode ph8 cw0 data frozen level = some cw) (E : Finset Nat) (hr : Received level E cw codeword)
    (hL : 2 ^ lostFree frozen level E ≤ L) :
    ∃ rank' message' metric', listDecode MAX_M soft hard maps metric rank message codeword frozen level = some (rank', message', metric') ∧
      (∀ m : List Int, m.length = freeBelow frozen (2 ^ level) → (∀ x ∈ m, x = 1 ∨ x = -1) →
        ((∃ k : Fin L, (ln k message').take (freeBelow frozen (2 ^ level)) = m ∧ metric'.getD k 0 = 0) ↔
          ∀ j, j < 2 ^ level → j ∉ E → codewordOf frozen level m j = codewordOf frozen level data j)) ∧
      (∃ k : Fin L, (ln k message').take (freeBelow frozen (2 ^ level)) = data.take (freeBelow frozen (2 ^ level)) ∧ metric'.getD k 0 = 0) ∧
      (¬ Frozen frozen (2 ^ level - 1) → ∀ k : Fin L, k.val = 0 → metric'.getD k 0 = 0 ∧
        ((∀ i, i < 2 ^ level → ¬ Frozen frozen i → ¬ Lost level E i) → (ln k message').take (freeBelow frozen (2 ^ level)) = data.take (freeBelow frozen (2 ^ level)))) := by
  obtain ⟨rank', message', metric', e, h1, h2, h3, -, -⟩ := C56_list MAX_M soft hard maps metric rank message codeword frozen level h
  obtain ⟨_, _, _, e', hb⟩ := C57_metric MAX_M soft hard maps metric rank message codeword frozen level h
  rw [e] at e'; cases e'
  obtain ⟨_, _, _, origin, e', hres⟩ := C38_decode MAX_M soft hard maps metric rank message codeword frozen level h
  rw [e] at e'; cases e'
  have hcw : ∀ j, j < 2 ^ level → cw.getD j 0 = codewordOf frozen level data j := by
    intro j hj
    obtain ⟨cw', e, -, h2⟩ := encode_ok (H := ph8) (message := data) (frozen := frozen) (k := level) (c := cw0) 0 (by have := h.level_ge; omega) h.frozen_len (by rw [rank_eq]; exact hd) hc
    rw [henc] at e
    cases e
    rw [h2, if_pos hj, complete_eq, P8_sym _ _ (symbolAt_sym hi), P_prod level _ j hj]
    rfl
  have hdz : ∀ m : List Int, (∀ x ∈ m, x = 1 ∨ x = -1) → _ := fun m hs => disagreement_zero (frozen := frozen) (m := m) hs hi hcw hr
  have main : ∀ m : List Int, m.length = freeBelow frozen (2 ^ level) → (∀ x ∈ m, x = 1 ∨ x = -1) →
        ((∃ k : Fin L, (ln k message').take (freeBelow frozen (2 ^ level)) = m ∧ metric'.getD k 0 = 0) ↔
          ∀ j, j < 2 ^ level → j ∉ E → codewordOf frozen level m j = codewordOf frozen level data j) := by
    intro m hm hs
    rw [← hdz m hs]
    constructor
    · rintro ⟨k, rfl, hk⟩
      have := (hb k (by omega)).2 (Or.inl (by omega))
      rw [← this, hk]
    · intro hD
      have hpb := metric_bounds (frozen := frozen) h.codeword_range hs
      have hp0 := hpb.2 (Or.inr (by rw [hD]; omega))
      rw [hD] at hp0
      have hsy := symbolAt_sym (frozen := frozen) hs
      obtain ⟨k, hk, hp⟩ := lost_scl (L := L) (E := E) (frozen := frozen) (s := (codeword.getD · 0)) (x := codewordOf frozen level data)
        (fun j hj => by
          have q := hr j hj
          unfold RelS
          by_cases hE : j ∈ E
          · rw [if_pos hE] at q; rw [if_pos (by simpa using hE)]; exact q
          · rw [if_neg hE, hcw j hj] at q
            rw [if_neg (by simpa using hE)]
            have s2 : Sym (codewordOf frozen level data j) := polar_sym (symbolAt_sym hi) hj
            rcases s2 with h | h
            · rw [h, mul_one] at q; exact Or.inl ⟨h, q.2⟩
            · rw [h] at q; exact Or.inr ⟨h, by omega⟩)
        addPenalty (fun w μ s b h => by unfold addPenalty; have := penalty_nonneg s b; omega) (fun i => ¬ Frozen frozen i) (fun _ _ _ _ h _ _ => h)
        (by unfold lostFree at hL; convert hL) (symbolAt frozen m) (fun i _ hf => by unfold symbolAt; rw [if_pos hf]) hsy ((hdz m hs).1 hD) hp0 (fun _ _ _ _ => zero_add _)
      rw [h1] at hk
      refine ⟨⟨k, hk⟩, ?_, ?_⟩
      · rw [h3 ⟨k, hk⟩, hp]
        dsimp only
        rw [← info_free (fun _ => Iff.rfl) (N := 2 ^ level) _ (by simp), List.length_map, List.length_range, List.take_of_length_le (by simp [fbits]), fbits_zero, info_range, ← complete_eq,
          filter_range_map _ _ _ _ (by rw [rank_eq, hm]), rank_eq, ← hm, List.take_length]
      · rw [h2, ← getElem_eq_getD (by rw [List.length_map, h1]; exact hk), List.getElem_map, getElem_eq_getD _ ([], 0), hp]
  have hdl : (data.take (freeBelow frozen (2 ^ level))).length = freeBelow frozen (2 ^ level) := by rw [List.length_take]; omega
  have hds : ∀ x ∈ data.take (freeBelow frozen (2 ^ level)), x = 1 ∨ x = -1 := fun x hx => hi x (List.mem_of_mem_take hx)
  have hdata := (main _ hdl hds).2 fun j _ _ => codewordOf_take
  refine ⟨rank', message', metric', e, main, hdata, fun hlast k hk => ?_⟩
  obtain ⟨k1, -, q1⟩ := hdata
  have hsort := hres.sorted hlast k k1 (by rw [Fin.le_def, hk]; omega)
  have hnn : 0 ≤ metric'.getD k 0 := by
    have := hres.metrics.2 k
    have h0 := pathMetric_nonneg level (Frozen frozen) (codeword.getD · 0) (symbolAt frozen ((ln k message').take (freeBelow frozen (2 ^ level))))
    split at this <;> omega
  have hz : metric'.getD k 0 = 0 := by omega
  refine ⟨hz, fun hkept => ?_⟩
  have hl : ((ln k message').take (freeBelow frozen (2 ^ level))).length = freeBelow frozen (2 ^ level) := by
    have := h.message_len
    have := hres.frame
    simp [ln]
    omega
  refine unique_of_kept hl hdl (hres.symbols k) hds hkept fun j hj hE => ?_
  rw [(main _ hl (hres.symbols k)).1 ⟨k, rfl, hz⟩ j hj hE, codewordOf_take]

/-- The parity-aided list decoder on the erasure channel, for codewords of `PolarParityEncoder`.  Lost parity symbols need no room: if there is room for two
alternatives for every lost position that carries a message symbol, then the lanes of metric 0 hold exactly the messages whose codewords agree with the one sent at the
positions that are left, the message sent among them.  If moreover the last position is not frozen then lane 0 holds one of them, and the message sent if no message
symbol is lost. -/
theorem C79_parity (MAX_M : Nat) (soft hard : List (Reg L)) (maps : List (LMap L)) (metric : List Int) (rank : Option (List Nat))
    (message : List (Reg L)) (codeword : List Int) (frozen : List Nat) (level stride first : Nat)
    (h : ParCall L MAX_M soft hard maps metric rank message codeword frozen level stride first)
    (data cw0 cw : List Int) (hd : parK frozen level stride first ≤ data.length) (hi : ∀ x ∈ data, x = 1 ∨ x = -1)
    (hc : 2 ^ level ≤ cw0.length) (henc : parEncode ph8 cw0 data frozen level stride first = some cw) (E : Finset Nat) (hr : Received level E cw codeword)
    (hL : 2 ^ lostData first stride frozen level E ≤ L) :
    ∃ rank' message' metric', parDecode MAX_M soft hard maps metric rank message codeword frozen level stride first = some (rank', message', metric') ∧
      (∀ m : List Int, m.length = parK frozen level stride first → (∀ x ∈ m, x = 1 ∨ x = -1) →
        ((∃ k : Fin L, (ln k message').take (parK frozen level stride first) = m ∧ metric'.getD k 0 = 0) ↔
          ∀ j, j < 2 ^ level → j ∉ E → codewordOf frozen level (withParity first stride m (freeBelow frozen (2 ^ level))) j = cw.getD j 0)) ∧
      (∃ k : Fin L, (ln k message').take (parK frozen level stride first) = data.take (parK frozen level stride first) ∧ metric'.getD k 0 = 0) ∧
      (¬ Frozen frozen (2 ^ level - 1) → ∀ k : Fin L, k.val = 0 → metric'.getD k 0 = 0 ∧
        (lostData first stride frozen level E = 0 → (ln k message').take (parK frozen level stride first) = data.take (parK frozen level stride first))) := by
  classical
  obtain ⟨rank', message', metric', e, h1, h2, h3, -, -⟩ := C56_parity MAX_M soft hard maps metric rank message codeword frozen level stride first h
  obtain ⟨_, _, _, e', hb⟩ := C57_parity_metric MAX_M soft hard maps metric rank message codeword frozen level stride first h
  rw [e] at e'; cases e'
  obtain ⟨_, _, _, e', hres⟩ := C39_decode MAX_M soft hard maps metric rank message codeword frozen level stride first h
  rw [e] at e'; cases e'
  set F := freeBelow frozen (2 ^ level) with hF
  have hK : parK frozen level stride first = dataBelow first stride F := rfl
  set wdata := withParity first stride data F with hwd
  have hds' : ∀ x ∈ wdata, x = 1 ∨ x = -1 := withParity_sym first stride hi _
  have hcw : ∀ j, j < 2 ^ level → cw.getD j 0 = codewordOf frozen level wdata j := by
    intro j hj
    obtain ⟨cw', e', -, ⟨-, hw⟩, -⟩ := C39_encode cw0 data frozen level stride first (by have := h.level_ge; omega) h.frozen_len hd hc hi
    rw [henc] at e'
    cases e'
    have := hw j
    rw [if_pos hj] at this
    exact this
  have hdz : ∀ m : List Int, (∀ x ∈ m, x = 1 ∨ x = -1) → _ := fun m hs => disagreement_zero (frozen := frozen) (m := m) hs hds' hcw hr
  have hmonoF : ∀ i j, i ≤ j → freeBelow frozen i ≤ freeBelow frozen j := fun i j hij => by rw [← rank_eq, ← rank_eq]; exact rank_mono _ hij
  have hfl : ∀ w : List Int, (freeSymbols (Frozen frozen) w).length = freeBelow frozen w.length := by
    intro w
    rw [← info_free (fun _ => Iff.rfl) (N := w.length) w le_rfl, info_length (by simp [fbits]), List.take_of_length_le (by simp [fbits]), filter_count, rank_eq]
  have main : ∀ m : List Int, m.length = parK frozen level stride first → (∀ x ∈ m, x = 1 ∨ x = -1) →
        ((∃ k : Fin L, (ln k message').take (parK frozen level stride first) = m ∧ metric'.getD k 0 = 0) ↔
          ∀ j, j < 2 ^ level → j ∉ E → codewordOf frozen level (withParity first stride m F) j = codewordOf frozen level wdata j) := by
    intro m hm hs
    set W := withParity first stride m F with hW
    have hWs : ∀ x ∈ W, Sym x := withParity_sym first stride hs _
    have hWl : W.length = F := withParity_length _ _ _ _
    rw [← hdz W hWs]
    constructor
    · rintro ⟨k, rfl, hk⟩
      have := (hb k (by omega)).2 (Or.inl (by omega))
      rw [hk] at this
      exact this.symm
    · intro hD
      have hp0 := (metric_bounds (frozen := frozen) h.codeword_range hWs).2 (Or.inr (by rw [hD]; omega))
      rw [hD] at hp0
      have hsy := symbolAt_sym (frozen := frozen) hWs
      have hfree : ∀ i, i ≤ 2 ^ level → freeSymbols (Frozen frozen) ((List.range i).map (symbolAt frozen W)) = withParity first stride m (freeBelow frozen i) := by
        intro i hi
        rw [← info_free (fun _ => Iff.rfl) (N := i) _ (by simp), List.length_map, List.length_range, List.take_of_length_le (by simp [fbits]), fbits_zero, info_range, ← complete_eq,
          filter_range_map _ _ _ _ (by rw [rank_eq, hWl]; exact hmonoF _ _ hi), rank_eq, hW]
        unfold withParity
        rw [← List.map_take, List.take_range, Nat.min_eq_left (hmonoF _ _ hi)]
      obtain ⟨k, hk, hp⟩ := lost_scl (L := L) (E := E) (frozen := frozen) (s := (codeword.getD · 0)) (x := codewordOf frozen level wdata)
        (fun j hj => by
          have q := hr j hj
          unfold RelS
          by_cases hE : j ∈ E
          · rw [if_pos hE] at q; rw [if_pos (by simpa using hE)]; exact q
          · rw [if_neg hE, hcw j hj] at q
            rw [if_neg (by simpa using hE)]
            have s2 : Sym (codewordOf frozen level wdata j) := polar_sym (symbolAt_sym hds') hj
            rcases s2 with h | h
            · rw [h, mul_one] at q; exact Or.inl ⟨h, q.2⟩
            · rw [h] at q; exact Or.inr ⟨h, by omega⟩)
        (parityCost first stride (Frozen frozen)) (fun w μ s b hμ => by unfold parityCost; have := penalty_nonneg s b; dsimp only; split <;> omega)
        (fun i => ¬ Frozen frozen i ∧ ¬ isParity first stride (freeBelow frozen i))
        (fun w μ s hw hf c1 c2 => by
          refine ⟨hf, fun hpar => ?_⟩
          unfold parityCost at c1 c2
          simp only [hfl] at c1 c2
          by_cases hb : (1 : Int) ≠ ((freeSymbols (Frozen frozen) w).drop (freeBelow frozen w.length - span first stride (freeBelow frozen w.length))).prod
          · rw [if_pos ⟨hpar, hb⟩] at c1; omega
          · rw [if_pos ⟨hpar, by omega⟩] at c2; omega)
        (by unfold lostData at hL; convert hL) (symbolAt frozen W) (fun i _ hf => by unfold symbolAt; rw [if_pos hf]) hsy ((hdz W hWs).1 hD) hp0
        (fun i s hi hf => by
          unfold parityCost
          rw [hfree i (by omega)]
          simp only
          rw [withParity_length, zero_add]
          refine if_neg ?_
          rintro ⟨q1, q2⟩
          refine q2 ?_
          have hr : freeBelow frozen i < F := by
            have := freeBelow_succ frozen i
            rw [if_neg hf] at this
            have := hmonoF (i + 1) (2 ^ level) (by omega)
            omega
          have hc := (isParity_iff first stride _).1 q1
          have hd := (coded_data first stride hs (freeBelow frozen i) (by rw [hm, hK]; exact dataBelow_mono _ _ (by omega))).2
          rw [withParity_length, since_span first stride hc] at hd
          rw [hd]
          unfold symbolAt
          rw [if_neg hf, hW]
          unfold withParity
          rw [getD_range_map _ _ hr, coded_eq, if_neg (by omega)])
      rw [h1] at hk
      refine ⟨⟨k, hk⟩, ?_, ?_⟩
      · show (ln ⟨k, hk⟩ message').take (dataBelow first stride F) = m
        rw [h3 ⟨k, hk⟩, hp]
        dsimp only
        rw [hfree _ le_rfl, (coded_data first stride hs _ (by rw [hm, hK])).1, ← hF, ← hK, ← hm, List.take_length]
      · rw [h2, ← getElem_eq_getD (by rw [List.length_map, h1]; exact hk), List.getElem_map, getElem_eq_getD _ ([], 0), hp]
  have hdl : (data.take (parK frozen level stride first)).length = parK frozen level stride first := by rw [List.length_take]; omega
  have hds : ∀ x ∈ data.take (parK frozen level stride first), x = 1 ∨ x = -1 := fun x hx => hi x (List.mem_of_mem_take hx)
  have hwt : withParity first stride (data.take (parK frozen level stride first)) F = wdata := withParity_take le_rfl
  have hdata := (main _ hdl hds).2 fun j _ _ => by rw [hwt]
  refine ⟨rank', message', metric', e, fun m hm hs => ?_, hdata, fun hlast k hk => ?_⟩
  · rw [main m hm hs]
    exact forall_congr' fun j => forall_congr' fun hj => by rw [hcw j hj]
  obtain ⟨k1, -, q1⟩ := hdata
  have hsort := hres.sorted hlast k k1 (by rw [Fin.le_def, hk]; omega)
  have hnn : 0 ≤ metric'.getD k 0 := (hres.metrics.2 k).1
  have hz : metric'.getD k 0 = 0 := by omega
  refine ⟨hz, fun hkept => ?_⟩
  have hl : ((ln k message').take (parK frozen level stride first)).length = parK frozen level stride first := by
    have h4 := h.message_len
    have h5 := hres.frame.1
    rw [List.length_take, ln, List.length_map, h5, hK]
    exact Nat.min_eq_left h4
  refine unique_of_kept_parity hl hdl (hres.symbols k) hds hkept fun j hj hE => ?_
  rw [(main _ hl (hres.symbols k)).1 ⟨k, rfl, hz⟩ j hj hE, hwt]

section
variable {F : Type} [Field F] [LinearOrder F] [IsStrictOrderedRing F]

open Classical in
theorem markov (Q : Nat → Prop) (level : Nat) (r : Nat) {p : F} (h0 : 0 ≤ p) (h1 : p ≤ 1) :
    (r : F) * prob p (2 ^ level) (fun E => r ≤ ((Finset.range (2 ^ level)).filter fun i => Q i ∧ Lost level E i).card) ≤
      ∑ i ∈ Finset.range (2 ^ level) with Q i, prob p (2 ^ level) (fun E => Lost level E i) := by
  have e : ∀ A : Finset Nat → Prop, prob p (2 ^ level) A = ∑ E ∈ (Finset.range (2 ^ level)).powerset, if A E then p ^ E.card * (1 - p) ^ (2 ^ level - E.card) else 0 := by
    intro A
    unfold prob
    rw [Finset.sum_filter]
  simp only [e]
  rw [Finset.sum_comm, Finset.mul_sum]
  refine Finset.sum_le_sum fun E _ => ?_
  have hw := weight_nonneg h0 h1 (2 ^ level) E
  rw [← Finset.sum_filter, Finset.sum_const, nsmul_eq_mul, Finset.filter_filter]
  split
  · rename_i h
    exact mul_le_mul_of_nonneg_right (by exact_mod_cast h) hw
  · rw [mul_zero]
    exact mul_nonneg (by exact_mod_cast Nat.zero_le _) hw

/-- With `2 ^ r` lanes the probability that the list does not hold the message sent with metric 0 is at most the sum of the freezer's numbers over the positions
that are not frozen, divided by `r + 1`. -/
theorem C79_list_failure (r MAX_M : Nat) (soft hard : List (Reg (2 ^ r))) (maps : List (LMap (2 ^ r))) (metric : List Int) (rank : Option (List Nat))
    (message : List (Reg (2 ^ r))) (frozen : List Nat) (level : Nat) (received : Finset Nat → List Int)
    (h : ∀ E, ListCall (2 ^ r) MAX_M soft hard maps metric rank message (received E) frozen level)
    (data cw0 cw : List Int) (hd : freeBelow frozen (2 ^ level) ≤ data.length) (hi : ∀ x ∈ data, x = 1 ∨ x = -1)
    (hc : 2 ^ level ≤ cw0.length) (henc : encode ph8 cw0 data frozen level = some cw) (hr : ∀ E, Received level E cw (received E))
    (p : F) (h0 : 0 ≤ p) (h1 : p ≤ 1) :
    prob p (2 ^ level) (fun E => ¬ ∃ rank' message' metric' k, listDecode MAX_M soft hard maps metric rank message (received E) frozen level = some (rank', message', metric') ∧
        (ln k message').take (freeBelow frozen (2 ^ level)) = data.take (freeBelow frozen (2 ^ level)) ∧ metric'.getD k.val 0 = 0) ≤
      (∑ i ∈ Finset.range (2 ^ level) with ¬ Frozen frozen i, erasure (exact F) level p i) / (r + 1) := by
  have hpos : (0 : F) < r + 1 := by positivity
  rw [le_div_iff₀ hpos, mul_comm]
  have e : ∑ i ∈ Finset.range (2 ^ level) with ¬ Frozen frozen i, erasure (exact F) level p i =
      ∑ i ∈ Finset.range (2 ^ level) with ¬ Frozen frozen i, prob p (2 ^ level) (fun E => Lost level E i) :=
    Finset.sum_congr rfl fun i hi => (C79_probability level p i (Finset.mem_range.1 (Finset.mem_filter.1 hi).1)).symm
  rw [e]
  have hm := markov (fun i => ¬ Frozen frozen i) level (r + 1) h0 h1
  push_cast at hm
  refine le_trans (mul_le_mul_of_nonneg_left (prob_mono h0 h1 fun E _ hA => ?_) hpos.le) (hm.trans (le_of_eq (by congr)))
  by_contra hlt
  have hlt : ¬ r + 1 ≤ lostFree frozen level E := by unfold lostFree; convert hlt
  refine hA ?_
  obtain ⟨rank', message', metric', e, -, ⟨k, k1, k2⟩, -⟩ := C79_list MAX_M soft hard maps metric rank message (received E) frozen level (h E) data cw0 cw hd hi hc henc E (hr E)
    (Nat.pow_le_pow_right (by omega) (by omega))
  exact ⟨rank', message', metric', k, e, k1, k2⟩

open Classical in
/-- The same for the parity-aided list decoder: only the positions that carry message symbols count. -/
theorem C79_parity_failure (r MAX_M : Nat) (soft hard : List (Reg (2 ^ r))) (maps : List (LMap (2 ^ r))) (metric : List Int) (rank : Option (List Nat))
    (message : List (Reg (2 ^ r))) (frozen : List Nat) (level stride first : Nat) (received : Finset Nat → List Int)
    (h : ∀ E, ParCall (2 ^ r) MAX_M soft hard maps metric rank message (received E) frozen level stride first)
    (data cw0 cw : List Int) (hd : parK frozen level stride first ≤ data.length) (hi : ∀ x ∈ data, x = 1 ∨ x = -1)
    (hc : 2 ^ level ≤ cw0.length) (henc : parEncode ph8 cw0 data frozen level stride first = some cw) (hr : ∀ E, Received level E cw (received E))
    (p : F) (h0 : 0 ≤ p) (h1 : p ≤ 1) :
    prob p (2 ^ level) (fun E => ¬ ∃ rank' message' metric' k,
        parDecode MAX_M soft hard maps metric rank message (received E) frozen level stride first = some (rank', message', metric') ∧
        (ln k message').take (parK frozen level stride first) = data.take (parK frozen level stride first) ∧ metric'.getD k.val 0 = 0) ≤
      (∑ i ∈ Finset.range (2 ^ level) with ¬ Frozen frozen i ∧ ¬ isParity first stride (freeBelow frozen i), erasure (exact F) level p i) / (r + 1) := by
  have hpos : (0 : F) < r + 1 := by positivity
  rw [le_div_iff₀ hpos, mul_comm]
  have e : ∑ i ∈ Finset.range (2 ^ level) with ¬ Frozen frozen i ∧ ¬ isParity first stride (freeBelow frozen i), erasure (exact F) level p i =
      ∑ i ∈ Finset.range (2 ^ level) with ¬ Frozen frozen i ∧ ¬ isParity first stride (freeBelow frozen i), prob p (2 ^ level) (fun E => Lost level E i) :=
    Finset.sum_congr rfl fun i hi => (C79_probability level p i (Finset.mem_range.1 (Finset.mem_filter.1 hi).1)).symm
  rw [e]
  have hm := markov (fun i => ¬ Frozen frozen i ∧ ¬ isParity first stride (freeBelow frozen i)) level (r + 1) h0 h1
  push_cast at hm
  refine le_trans (mul_le_mul_of_nonneg_left (prob_mono h0 h1 fun E _ hA => ?_) hpos.le) (hm.trans (le_of_eq (by congr)))
  by_contra hlt
  have hlt : ¬ r + 1 ≤ lostData first stride frozen level E := by unfold lostData; convert hlt
  refine hA ?_
  obtain ⟨rank', message', metric', e, -, ⟨k, k1, k2⟩, -⟩ := C79_parity MAX_M soft hard maps metric rank message (received E) frozen level stride first (h E) data cw0 cw hd hi hc henc E (hr E)
    (Nat.pow_le_pow_right (by omega) (by omega))
  exact ⟨rank', message', metric', k, e, k1, k2⟩

end

/-! ### Cases -/

/-- Level 5, information set {15, 23, 27, 29, 30, 31}, and the first 16 symbols are erased: of the positions that are not frozen only 15 is lost. -/
theorem lost16 : 2 ^ lostFree [0x177f7fff] 5 (Finset.range 16) ≤ 2 := by
  classical
  have h : ∀ i, i < 2 ^ 5 → i ≠ 15 → ¬ Frozen [0x177f7fff] i →
      (lostL 5 ((List.range (2 ^ 5)).map fun j => decide (j ∈ Finset.range 16))).getD i false = false := by decide +kernel
  have : lostFree [0x177f7fff] 5 (Finset.range 16) ≤ 1 := by
    unfold lostFree
    rw [show (1 : Nat) = ({15} : Finset Nat).card from rfl]
    refine Finset.card_le_card fun i hi => ?_
    simp only [Finset.mem_filter, Finset.mem_range, Finset.mem_singleton] at hi ⊢
    by_contra hne
    have := (lost_lostL hi.1).1 hi.2.2
    rw [h i hi.1 hne hi.2.1] at this
    cases this
  calc _ ≤ 2 ^ 1 := Nat.pow_le_pow_right (by omega) this
    _ = 2 := rfl

/-- Two lanes: both alternatives for position 15 are in the list, the message sent among them. -/
example : (encode ph8 (List.replicate 32 0) [-1, 1, 1, -1, -1, 1] [0x177f7fff] 5 >>= fun cw =>
    listRun 2 0x177f7fff 6 (List.zipWith (fun (i : Nat) (x : Int) => if i < 16 then 0 else x * (1 + i)) (List.range 32) cw)) =
    some (some [0, 0], [[1, -1], [1, 1], [1, 1], [-1, -1], [-1, -1], [1, 1]], [0, 0]) := by decide +kernel

/-- The parity-aided code of Polar/PropsPar.lean (`first = 2`, `stride = 1`): message symbols at 15, 23, 29 and 31, parity symbols at 27 and 30 .. -/
example : ∀ i < 2 ^ 5, ¬ Frozen [0x177f7fff] i ∧ isParity 2 1 (rank (fbit [0x177f7fff]) i) ↔ i = 27 ∨ i = 30 := by decide +kernel
/-- .. with symbols erased so that 15 and 27 are lost: two lanes are enough, and hold both messages that fit.  If only 27 is lost, one lane would be enough. -/
example : (List.range 32).filter (fun i => (lostL 5 ((List.range (2 ^ 5)).map fun j => decide (j < 20 ∨ 24 ≤ j ∧ j < 28))).getD i false && !fbit [0x177f7fff] i) = [15, 27] := by decide +kernel
example : (List.range 32).filter (fun i => (lostL 5 ((List.range (2 ^ 5)).map fun j => decide (j / 4 % 2 = 0))).getD i false && !fbit [0x177f7fff] i) = [27] := by decide +kernel
example : (parEncode ph8 (List.replicate 32 0) [-1, 1, -1, 1] [0x177f7fff] 5 1 2 >>= fun cw =>
    parRun 2 0x177f7fff 4 1 2 (List.zipWith (fun (i : Nat) (x : Int) => if i < 20 ∨ 24 ≤ i ∧ i < 28 then 0 else x * (1 + i)) (List.range 32) cw)) =
    some (some [0, 0], [[1, -1], [1, 1], [-1, -1], [1, 1]], [0, 0]) := by decide +kernel
example : (parEncode ph8 (List.replicate 32 0) [-1, 1, -1, 1] [0x177f7fff] 5 1 2 >>= fun cw =>
    parRun 2 0x177f7fff 4 1 2 (List.zipWith (fun (i : Nat) (x : Int) => if i / 4 % 2 = 0 then 0 else x * (1 + i)) (List.range 32) cw)) =
    some (some [0, 1], [[-1, 1], [1, 1], [-1, -1], [1, 1]], [0, 84]) := by decide +kernel

end Verif.Freezer
