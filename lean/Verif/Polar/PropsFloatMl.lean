import Verif.Polar.SclGrid
import Verif.Polar.PropsFloatList
/- C63: the metrics of the list decoders on `float` and `double` when the arithmetic is exact, and when the decoders are maximum likelihood decoders. -/
namespace Verif.Polar
open FlList (FReg)
variable {L : Nat}

/-! ### Specification -/

/-- The multiples of `2^e`. -/
def Multiple (e : ℤ) (q : ℚ) : Prop := ∃ k : ℤ, q = k * (2 : ℚ) ^ e

/-- The correlation of a codeword with the received soft values. -/
def correlationQ (n : Nat) (s : Nat → ℚ) (x : Nat → Int) : ℚ := ∑ j ∈ Finset.range n, s j * x j

/-- The soft values `s` are of a kind `Gr` that the format `F` adds without rounding up to the magnitude `C` (for `float`, for instance, the multiples of `2^e` up to
`2^(24 + e)`, see `grid32`), 1000000 is of that kind too, and the magnitudes of all soft values add up to at most `C - 1000000`. -/
structure ExactSoft (F : Rounding) (Gr : ℚ → Prop) (C : ℚ) (level : Nat) (s : Nat → ℚ) : Prop where
  grid : Grid F Gr C
  million : Gr 1000000
  values : ∀ j, j < 2 ^ level → Gr (s j)
  sum : 1000000 + ∑ j ∈ Finset.range (2 ^ level), |s j| ≤ C

/-- Lane `k` of the result holds the message `m`. -/
def LaneHolds (message' : List (FReg L)) (k : Fin L) (m : List Int) : Prop := (message'.map fun r => r k).take m.length = m.map flSym

/-! ### Proofs -/

theorem correlationQ_eq {n : Nat} {s : Nat → ℚ} {x : Nat → Int} (hx : ∀ j, j < n → Sym (x j)) :
    correlationQ n s x = ∑ j ∈ Finset.range n, |s j| - 2 * disagreeQ n s x := by
  unfold correlationQ disagreeQ
  rw [Finset.mul_sum, ← Finset.sum_sub_distrib]
  refine Finset.sum_congr rfl fun j hj => ?_
  unfold penaltyQ
  rcases hx j (Finset.mem_range.1 hj) with h | h <;> rw [h] <;> push_cast <;> rcases le_total 0 (s j) with q | q
  · rw [abs_of_nonneg q, max_eq_left (by linarith)]; ring
  · rw [abs_of_nonpos q, max_eq_right (by linarith)]; ring
  · rw [abs_of_nonneg q, max_eq_right (by linarith)]; ring
  · rw [abs_of_nonpos q, max_eq_left (by linarith)]; ring

theorem free_getD {frozen : List Nat} {w : List Int} : ∀ i, i < w.length → ¬ Frozen frozen i → (freeSymbols (Frozen frozen) w).getD (freeBelow frozen i) 1 = w.getD i 1 := by
  induction w using List.reverseRecOn with
  | nil => intro i hi; simp at hi
  | append_singleton w b ih =>
    intro i hi hf
    rw [List.length_append, List.length_singleton] at hi
    rcases Nat.lt_succ_iff_lt_or_eq.1 hi with hi | rfl
    · have hlt : freeBelow frozen i < (freeSymbols (Frozen frozen) w).length := by
        rw [freeSymbols_length]
        have h1 := freeBelow_mono frozen (show i + 1 ≤ w.length from hi)
        rw [freeBelow_succ, if_neg hf] at h1
        omega
      rw [getD_snoc_lt hi, ← ih i hi hf]
      by_cases h : Frozen frozen w.length
      · rw [(freeSymbols_snoc _ w b).1 h]
      · rw [(freeSymbols_snoc _ w b).2 h, List.getD_append _ _ _ _ hlt]
    · rw [(freeSymbols_snoc _ w b).2 hf, getD_snoc, ← freeSymbols_length]
      exact getD_snoc _ _

/-- A path with ones at the frozen positions is determined by its message symbols. -/
theorem path_symbols {frozen : List Nat} {w : List Int} {n : Nat} (hl : w.length = n) (h1 : ∀ i, i < n → Frozen frozen i → w.getD i 1 = 1) :
    ∀ i, i < n → w.getD i 1 = symbolAt frozen (freeSymbols (Frozen frozen) w) i := by
  intro i hi
  unfold symbolAt
  split
  · rename_i h; exact h1 i hi h
  · rename_i h; exact (free_getD i (by omega) h).symm

theorem fit_disagree {Gr : ℚ → Prop} {level : Nat} {s : Nat → ℚ} {frozen : List Nat} {Al : List Int → Int → Prop} {a : List Int × WithTop ℚ} {q : ℚ} (h : Fit Gr level s (Frozen frozen) Al (2 ^ level) a q) :
    pathQ level s (a.1.getD · 1) (2 ^ level) = disagreeQ (2 ^ level) s (codewordOf frozen level (freeSymbols (Frozen frozen) a.1)) := by
  rw [pathQ_all fun i => getD_Sym h.sym i]
  unfold codewordOf
  congr 1
  funext j
  exact polar_congr (fun i hi => path_symbols h.len h.ones i hi) j

theorem charges_add (F : Rounding) : Charges F (fun _ _ => True) (addF F) := fun _ _ _ _ => ⟨fun _ => rfl, fun h => absurd trivial h⟩

theorem charges_parity (F : Rounding) (first stride : Nat) (fr : Nat → Prop) :
    Charges F (fun w b => cAt first stride (freeSymbols fr w).length ≠ 0 ∨ b = sinceProd first stride (freeSymbols fr w)) (parityF F first stride fr) :=
  fun w μ s b => ⟨fun h => by rw [parityF_eq, if_pos h], fun h => by rw [parityF_eq, if_neg h]⟩

theorem par_append (first stride : Nat) (m x : List Int) : ∀ r, dataBelow first stride r ≤ m.length → par first stride (m ++ x) r = par first stride m r := by
  intro r
  induction r with
  | zero => intro _; rw [par_zero, par_zero]
  | succ r ih =>
    intro h
    rw [dataBelow_succ] at h
    rw [par_succ, par_succ]
    split
    · rename_i hc
      rw [if_pos hc] at h
      rw [ih (by omega), List.getD_append _ _ _ _ (by omega)]
    · rfl

theorem dataSymbols_length (first stride : Nat) (m : List Int) : (dataSymbols first stride m).length = dataBelow first stride m.length := by
  induction m using List.reverseRecOn with
  | nil => rfl
  | append_singleton m b ih =>
    rw [dataSymbols_append, List.length_append, List.length_append, List.length_singleton, dataBelow_succ, ih]
    by_cases h : cAt first stride m.length = 0
    · rw [if_pos ((isParity_iff _ _ _).2 h), if_neg (by simp [h])]; rfl
    · rw [if_neg (by rw [isParity_iff]; exact h), if_pos h]; rfl

theorem coded_snoc {first stride : Nat} {m : List Int} {b : Int} (h : m = (List.range m.length).map (coded first stride (dataSymbols first stride m)))
    (hb : cAt first stride m.length ≠ 0 ∨ b = sinceProd first stride m) : m ++ [b] = (List.range (m ++ [b]).length).map (coded first stride (dataSymbols first stride (m ++ [b]))) := by
  have hd := dataSymbols_length first stride m
  rw [List.length_append, List.length_singleton, List.range_succ, List.map_append, List.map_singleton, dataSymbols_append]
  congr 1
  · conv_lhs => rw [h]
    refine List.map_congr_left fun r hr => ?_
    have hr : r + 1 ≤ m.length := List.mem_range.1 hr
    have h1 := dataBelow_mono first stride hr
    rw [dataBelow_succ] at h1
    rw [coded_eq, coded_eq]
    split
    · rename_i hc
      rw [if_pos hc] at h1
      rw [List.getD_append _ _ _ _ (by omega)]
    · rw [par_append _ _ _ _ _ (by omega)]
  · rw [coded_eq]
    by_cases hc : cAt first stride m.length = 0
    · rw [if_pos ((isParity_iff _ _ _).2 hc), if_neg (by simp [hc]), List.append_nil]
      rcases hb with h' | h'
      · exact absurd hc h'
      · rw [h', ← since_coded, ← h]
    · rw [if_pos (show cAt first stride m.length ≠ 0 from hc), if_neg (show ¬ isParity first stride m.length by rw [isParity_iff]; exact hc), ← hd, getD_snoc]

/-- The message symbols of a path that keeps the parities. -/
theorem path_parity {fr : Nat → Prop} {first stride : Nat} {w : List Int}
    (h : ∀ i, i < w.length → ¬ fr i → cAt first stride (freeSymbols fr (w.take i)).length ≠ 0 ∨ w.getD i 1 = sinceProd first stride (freeSymbols fr (w.take i))) :
    freeSymbols fr w = (List.range (freeSymbols fr w).length).map (coded first stride (dataSymbols first stride (freeSymbols fr w))) := by
  induction w using List.reverseRecOn with
  | nil => rfl
  | append_singleton w b ih =>
    have ih := ih fun i hi hf => by
      have := h i (by simp; omega) hf
      rwa [List.take_append_of_le_length (by omega), getD_snoc_lt hi] at this
    by_cases hf : fr w.length
    · rw [(freeSymbols_snoc _ w b).1 hf]; exact ih
    · rw [(freeSymbols_snoc _ w b).2 hf]
      have hb := h w.length (by simp) hf
      rw [List.take_left' rfl, getD_snoc] at hb
      exact coded_snoc ih hb

theorem mem_lane {α : Type} {ps : List α} (hp : ps.length = L) {x : α} (h : x ∈ ps) (d : α) : ∃ k : Fin L, ps.getD k d = x := by
  obtain ⟨k, hk, e⟩ := List.mem_iff_getElem.1 h
  exact ⟨⟨k, by omega⟩, by rw [← e, getElem_eq_getD hk d]⟩

theorem lane_mem {α : Type} {ps : List α} (hp : ps.length = L) (k : Fin L) (d : α) : ps.getD k d ∈ ps := by
  have hk : k.val < ps.length := by rw [hp]; exact k.isLt
  rw [← getElem_eq_getD hk]; exact List.getElem_mem hk

theorem metric_lane {ps : List (List Int × WithTop ℚ)} (hp : ps.length = L) (k : Fin L) : (ps.map fun a => metFl a.2).getD k .nan = metFl (ps.getD k ([], 0)).2 :=
  getD_map' _ _ ([], 0) Fl.nan (by rw [hp]; exact k.isLt)

/-- Lane 0 has the least metric. -/
theorem first_least {F : Rounding} {level : Nat} {s : Nat → ℚ} {frozen : List Nat} {cost : List Int → WithTop ℚ → ℚ → Int → WithTop ℚ} {symbols : List Int → List Int} {K : Nat} {rank rank' : Option (List Nat)}
    {message message' : List (FReg L)} {metric' : List Fl} (hlast : ¬ Frozen frozen (2 ^ level - 1)) (res : FSclResult L (sclF F L level s (Frozen frozen) cost) symbols K rank message rank' message' metric')
    {k : Fin L} (hk : k.val = 0) {q : ℚ} (b4 : metric'.getD k .nan = .fin q) : ∀ (k' : Fin L) (q' : ℚ), metric'.getD k' .nan = .fin q' → q ≤ q' := by
  intro k' q' hq'
  have hs := scl_sorted (L := L) (M := level) (A := minSum F.rnd) (s := s) (fr := Frozen frozen) (z := (0 : WithTop ℚ)) (ph := 1000000) (pay := fun μ s => fadd F μ (penaltyQ s 1)) (cost := cost) hlast
  change (sclF F L level s (Frozen frozen) cost).Pairwise _ at hs
  rw [res.metrics, metric_lane res.paths] at b4 hq'
  rcases Nat.eq_zero_or_pos k'.val with h0 | h0
  · have : k = k' := Fin.ext (by omega)
    subst this
    rw [b4] at hq'
    exact (Fl.fin.inj hq').le
  · have hl : k'.val < (sclF F L level s (Frozen frozen) cost).length := by rw [res.paths]; exact k'.isLt
    have := List.pairwise_iff_getElem.1 hs k.val k'.val (by omega) hl (by omega)
    rw [getElem_eq_getD _ ([], 0), getElem_eq_getD _ ([], 0)] at this
    have l := metFl_lt ((sclF F L level s (Frozen frozen) cost).getD k' ([], 0)).2 ((sclF F L level s (Frozen frozen) cost).getD k ([], 0)).2
    rw [b4, hq', decide_eq_false (not_lt.2 this)] at l
    simpa [Fl.lt] using l

/-! ### Theorems -/

/-- On such soft values all metrics are finite, and the metric of a lane, if it is less than 1000000, is exactly what the codeword of the lane's message disagrees with the
received values: the sum of the magnitudes of those values whose signs differ. -/
theorem C63_metric (F : Rounding) (U MAX_M : Nat) (soft hard : List (FReg L)) (maps : List (LMap L)) (metric : List Fl) (rank : Option (List Nat)) (message : List (FReg L))
    (codeword : List Fl) (frozen : List Nat) (level : Nat) (s : Nat → ℚ) (B : ℚ) (h : FListCall F U L MAX_M soft hard maps metric rank codeword frozen level s B)
    (hmsg : freeBelow frozen (2 ^ level) ≤ message.length) {Gr : ℚ → Prop} {C : ℚ} (g : ExactSoft F Gr C level s) :
    ∃ rank' message' metric', FlList.listDecode F U MAX_M soft hard maps metric rank message codeword frozen level = some (rank', message', metric') ∧
      ∀ k : Fin L, ∃ (m : List Int) (q : ℚ), m.length = freeBelow frozen (2 ^ level) ∧ (∀ x ∈ m, x = 1 ∨ x = -1) ∧ LaneHolds message' k m ∧ metric'.getD k .nan = .fin q ∧
        (q < 1000000 → q = disagreeQ (2 ^ level) s (codewordOf frozen level m)) := by
  obtain ⟨rank', message', metric', e, res⟩ := C62_list F U MAX_M soft hard maps metric rank message codeword frozen level s B h hmsg
  refine ⟨rank', message', metric', e, fun k => ?_⟩
  obtain ⟨q, hq⟩ := fit_steps (L := L) (fr := Frozen frozen) g.grid g.million g.values g.sum (charges_add F) _ (lane_mem res.paths k ([], 0))
  have hl : (freeSymbols (Frozen frozen) ((sclF F L level s (Frozen frozen) (addF F)).getD k ([], 0)).1).length = freeBelow frozen (2 ^ level) := by rw [freeSymbols_length]; congr 1; exact hq.len
  refine ⟨_, q, hl, freeSymbols_sym _ hq.sym, ?_, ?_, fun hlt => (hq.low hlt).1.trans (fit_disagree hq)⟩
  · unfold LaneHolds
    rw [hl]; exact res.messages k
  · rw [res.metrics, metric_lane res.paths]
    exact congrArg metFl hq.met

/-- If there is a lane for every message, then every message whose codeword disagrees with the received values by less than 1000000 is in the list,
with its disagreement as metric. -/
theorem C63_complete (F : Rounding) (U MAX_M : Nat) (soft hard : List (FReg L)) (maps : List (LMap L)) (metric : List Fl) (rank : Option (List Nat)) (message : List (FReg L))
    (codeword : List Fl) (frozen : List Nat) (level : Nat) (s : Nat → ℚ) (B : ℚ) (h : FListCall F U L MAX_M soft hard maps metric rank codeword frozen level s B)
    (hmsg : freeBelow frozen (2 ^ level) ≤ message.length) {Gr : ℚ → Prop} {C : ℚ} (g : ExactSoft F Gr C level s) (hfull : 2 ^ freeBelow frozen (2 ^ level) ≤ L) :
    ∃ rank' message' metric', FlList.listDecode F U MAX_M soft hard maps metric rank message codeword frozen level = some (rank', message', metric') ∧
      ∀ m : List Int, m.length = freeBelow frozen (2 ^ level) → (∀ x ∈ m, x = 1 ∨ x = -1) → disagreeQ (2 ^ level) s (codewordOf frozen level m) < 1000000 →
        ∃ k : Fin L, LaneHolds message' k m ∧ metric'.getD k .nan = .fin (disagreeQ (2 ^ level) s (codewordOf frozen level m)) := by
  obtain ⟨rank', message', metric', e, res⟩ := C62_list F U MAX_M soft hard maps metric rank message codeword frozen level s B h hmsg
  refine ⟨rank', message', metric', e, fun m hm hs hD => ?_⟩
  have hv := symbolAt_sym (frozen := frozen) hs
  have hp : pathQ level s (symbolAt frozen m) (2 ^ level) = disagreeQ (2 ^ level) s (codewordOf frozen level m) := pathQ_all hv
  rw [← hp] at hD
  have hmem := full_steps (L := L) g.grid g.million g.values g.sum (charges_add F) (fr := Frozen frozen) (fun p => 2 ^ freeBelow frozen p) Nat.one_le_two_pow
    (fun p => Nat.pow_le_pow_right (by omega) (freeBelow_mono frozen (Nat.le_succ p))) (fun w _ hf _ _ => by rw [freeBelow_succ, if_neg hf, pow_succ]; omega) hfull hv
    (fun i _ hf => by unfold symbolAt; exact if_pos hf) (fun _ _ _ => trivial) hD
  obtain ⟨k, hk⟩ := mem_lane res.paths hmem ([], 0)
  refine ⟨k, ?_, ?_⟩
  · unfold LaneHolds
    rw [hm, res.messages k]
    have := congrArg Prod.fst hk
    rw [this]
    dsimp only
    rw [free_pre, range_getD _ (by omega), List.take_of_length_le (by omega)]
  · rw [res.metrics, metric_lane res.paths, ← hp]
    exact congrArg metFl (congrArg Prod.snd hk)

/-- If there is a lane for every message, the last position is not frozen, and some codeword disagrees with the received values by less than 1000000, then lane 0 holds a
maximum likelihood decision: no codeword has a greater correlation with the received values. -/
theorem C63_max_likelihood (F : Rounding) (U MAX_M : Nat) (soft hard : List (FReg L)) (maps : List (LMap L)) (metric : List Fl) (rank : Option (List Nat)) (message : List (FReg L))
    (codeword : List Fl) (frozen : List Nat) (level : Nat) (s : Nat → ℚ) (B : ℚ) (h : FListCall F U L MAX_M soft hard maps metric rank codeword frozen level s B)
    (hmsg : freeBelow frozen (2 ^ level) ≤ message.length) {Gr : ℚ → Prop} {C : ℚ} (g : ExactSoft F Gr C level s) (hfull : 2 ^ freeBelow frozen (2 ^ level) ≤ L)
    (hlast : ¬ Frozen frozen (2 ^ level - 1)) (near : List Int) (hn : near.length = freeBelow frozen (2 ^ level)) (hns : ∀ x ∈ near, x = 1 ∨ x = -1)
    (hnear : disagreeQ (2 ^ level) s (codewordOf frozen level near) < 1000000) :
    ∃ rank' message' metric', FlList.listDecode F U MAX_M soft hard maps metric rank message codeword frozen level = some (rank', message', metric') ∧
      ∀ k : Fin L, k.val = 0 → ∃ best : List Int, best.length = freeBelow frozen (2 ^ level) ∧ (∀ x ∈ best, x = 1 ∨ x = -1) ∧ LaneHolds message' k best ∧
        ∀ m : List Int, m.length = freeBelow frozen (2 ^ level) → (∀ x ∈ m, x = 1 ∨ x = -1) →
          correlationQ (2 ^ level) s (codewordOf frozen level m) ≤ correlationQ (2 ^ level) s (codewordOf frozen level best) := by
  obtain ⟨rank', message', metric', e, res⟩ := C62_list F U MAX_M soft hard maps metric rank message codeword frozen level s B h hmsg
  obtain ⟨_, _, _, e', hb⟩ := C63_metric F U MAX_M soft hard maps metric rank message codeword frozen level s B h hmsg g
  rw [e] at e'; cases e'
  obtain ⟨_, _, _, e', hc⟩ := C63_complete F U MAX_M soft hard maps metric rank message codeword frozen level s B h hmsg g hfull
  rw [e] at e'; cases e'
  refine ⟨rank', message', metric', e, fun k hk => ?_⟩
  obtain ⟨best, q, b1, b2, b3, b4, b5⟩ := hb k
  have hsort := first_least hlast res hk b4
  refine ⟨best, b1, b2, b3, fun m hm hs => ?_⟩
  rw [correlationQ_eq (x := codewordOf frozen level m) fun j hj => polar_sym (symbolAt_sym hs) hj,
    correlationQ_eq (x := codewordOf frozen level best) fun j hj => polar_sym (symbolAt_sym b2) hj]
  obtain ⟨k1, -, q1⟩ := hc near hn hns hnear
  have s1 := hsort k1 _ q1
  have b6 := b5 (by linarith)
  by_cases hD : disagreeQ (2 ^ level) s (codewordOf frozen level m) < 1000000
  · obtain ⟨k2, -, q2⟩ := hc m hm hs hD
    have s2 := hsort k2 _ q2
    linarith
  · linarith

/-! ### The parity-aided decoder -/

/-- The same for the parity-aided decoder, with the codewords of `PolarParityEncoder` (C39): the message symbols with the parity symbols inserted. -/
theorem C63_parity_metric (F : Rounding) (U MAX_M : Nat) (soft hard : List (FReg L)) (maps : List (LMap L)) (metric : List Fl) (rank : Option (List Nat)) (message : List (FReg L))
    (codeword : List Fl) (frozen : List Nat) (level stride first : Nat) (s : Nat → ℚ) (B : ℚ) (h : FListCall F U L MAX_M soft hard maps metric rank codeword frozen level s B)
    (hfirst : 1 ≤ first) (hmsg : dataBelow first stride (freeBelow frozen (2 ^ level)) ≤ message.length) {Gr : ℚ → Prop} {C : ℚ} (g : ExactSoft F Gr C level s) :
    ∃ rank' message' metric', FlList.parDecode F U MAX_M soft hard maps metric rank message codeword frozen level stride first = some (rank', message', metric') ∧
      ∀ k : Fin L, ∃ (m : List Int) (q : ℚ), m.length = dataBelow first stride (freeBelow frozen (2 ^ level)) ∧ (∀ x ∈ m, x = 1 ∨ x = -1) ∧ LaneHolds message' k m ∧ metric'.getD k .nan = .fin q ∧
        (q < 1000000 → q = disagreeQ (2 ^ level) s (codewordOf frozen level (withParity first stride m (freeBelow frozen (2 ^ level))))) := by
  obtain ⟨rank', message', metric', e, res⟩ := C62_parity F U MAX_M soft hard maps metric rank message codeword frozen level stride first s B h hfirst hmsg
  refine ⟨rank', message', metric', e, fun k => ?_⟩
  obtain ⟨q, hq⟩ := fit_steps (L := L) (fr := Frozen frozen) g.grid g.million g.values g.sum (charges_parity F first stride (Frozen frozen)) _ (lane_mem res.paths k ([], 0))
  set a := (sclF F L level s (Frozen frozen) (parityF F first stride (Frozen frozen))).getD k ([], 0) with ha
  change Fit _ _ _ _ _ _ a q at hq
  have hl : (freeSymbols (Frozen frozen) a.1).length = freeBelow frozen (2 ^ level) := by rw [freeSymbols_length, hq.len]
  have hl2 : (dataSymbols first stride (freeSymbols (Frozen frozen) a.1)).length = dataBelow first stride (freeBelow frozen (2 ^ level)) := by rw [dataSymbols_length, hl]
  refine ⟨dataSymbols first stride (freeSymbols (Frozen frozen) a.1), q, hl2, ?_, ?_, ?_, fun hlt => ?_⟩
  · intro x hx
    obtain ⟨i, -, rfl⟩ := List.mem_map.1 hx
    exact getD_Sym (freeSymbols_sym _ hq.sym) i
  · unfold LaneHolds
    rw [hl2]; exact res.messages k
  · rw [res.metrics, metric_lane res.paths, ← ha, hq.met]; rfl
  · obtain ⟨l1, l2⟩ := hq.low hlt
    rw [l1, fit_disagree hq]
    have := path_parity (fr := Frozen frozen) (first := first) (stride := stride) (w := a.1) (by rw [hq.len]; exact l2)
    rw [hl] at this
    unfold withParity
    rw [← this]

theorem C63_parity_complete (F : Rounding) (U MAX_M : Nat) (soft hard : List (FReg L)) (maps : List (LMap L)) (metric : List Fl) (rank : Option (List Nat)) (message : List (FReg L))
    (codeword : List Fl) (frozen : List Nat) (level stride first : Nat) (s : Nat → ℚ) (B : ℚ) (h : FListCall F U L MAX_M soft hard maps metric rank codeword frozen level s B)
    (hfirst : 1 ≤ first) (hmsg : dataBelow first stride (freeBelow frozen (2 ^ level)) ≤ message.length) {Gr : ℚ → Prop} {C : ℚ} (g : ExactSoft F Gr C level s)
    (hfull : 2 ^ dataBelow first stride (freeBelow frozen (2 ^ level)) ≤ L) :
    ∃ rank' message' metric', FlList.parDecode F U MAX_M soft hard maps metric rank message codeword frozen level stride first = some (rank', message', metric') ∧
      ∀ m : List Int, m.length = dataBelow first stride (freeBelow frozen (2 ^ level)) → (∀ x ∈ m, x = 1 ∨ x = -1) →
        disagreeQ (2 ^ level) s (codewordOf frozen level (withParity first stride m (freeBelow frozen (2 ^ level)))) < 1000000 →
        ∃ k : Fin L, LaneHolds message' k m ∧ metric'.getD k .nan = .fin (disagreeQ (2 ^ level) s (codewordOf frozen level (withParity first stride m (freeBelow frozen (2 ^ level))))) := by
  obtain ⟨rank', message', metric', e, res⟩ := C62_parity F U MAX_M soft hard maps metric rank message codeword frozen level stride first s B h hfirst hmsg
  refine ⟨rank', message', metric', e, fun m hm hs hD => ?_⟩
  set W := withParity first stride m (freeBelow frozen (2 ^ level)) with hW
  have hWs : ∀ x ∈ W, x = 1 ∨ x = -1 := withParity_sym _ _ hs _
  have hv := symbolAt_sym (frozen := frozen) hWs
  have hp : pathQ level s (symbolAt frozen W) (2 ^ level) = disagreeQ (2 ^ level) s (codewordOf frozen level W) := pathQ_all hv
  rw [← hp] at hD
  have hfree : ∀ n, n ≤ 2 ^ level → freeSymbols (Frozen frozen) (pre (symbolAt frozen W) n) = (List.range (freeBelow frozen n)).map (coded first stride m) := by
    intro n hn
    rw [free_pre]
    refine List.map_congr_left fun i hi => ?_
    have hi : i < freeBelow frozen n := by simpa using hi
    exact withParity_getD _ _ _ (hi.trans_le (freeBelow_mono frozen hn))
  have hmem := full_steps (L := L) g.grid g.million g.values g.sum (charges_parity F first stride (Frozen frozen)) (fr := Frozen frozen) (fun p => 2 ^ dataBelow first stride (freeBelow frozen p)) Nat.one_le_two_pow
    (fun p => Nat.pow_le_pow_right (by omega) (dataBelow_mono _ _ (freeBelow_mono frozen (Nat.le_succ p)))) (fun w _ hf a1 a2 => by
      rw [freeSymbols_length] at a1 a2
      have hc : cAt first stride (freeBelow frozen w.length) ≠ 0 := by
        rcases a1 with a1 | a1
        · exact a1
        · rcases a2 with a2 | a2
          · exact a2
          · rw [← a1] at a2; omega
      rw [freeBelow_succ, if_neg hf, dataBelow_succ, if_pos hc, pow_succ]; omega) hfull hv
    (fun i _ hf => by unfold symbolAt; exact if_pos hf) (fun n hn hf => by
      rw [hfree n hn.le, since_coded, List.length_map, List.length_range]
      by_cases hc : cAt first stride (freeBelow frozen n) = 0
      · refine Or.inr ?_
        have hlt : freeBelow frozen n < freeBelow frozen (2 ^ level) := by
          have := freeBelow_mono frozen (show n + 1 ≤ 2 ^ level from hn)
          rw [freeBelow_succ, if_neg hf] at this
          omega
        have : symbolAt frozen W n = coded first stride m (freeBelow frozen n) := by
          unfold symbolAt
          rw [if_neg hf]; exact withParity_getD _ _ _ hlt
        rw [this, coded_eq, if_neg (by simp [hc])]
      · exact Or.inl hc) hD
  obtain ⟨k, hk⟩ := mem_lane res.paths hmem ([], 0)
  refine ⟨k, ?_, ?_⟩
  · unfold LaneHolds
    rw [hm, res.messages k]
    have := congrArg Prod.fst hk
    rw [this]
    dsimp only
    rw [hfree _ le_rfl, data_coded, range_getD _ (by omega), List.take_of_length_le (by omega)]
  · rw [res.metrics, metric_lane res.paths, ← hp]
    exact congrArg metFl (congrArg Prod.snd hk)

theorem C63_parity_max_likelihood (F : Rounding) (U MAX_M : Nat) (soft hard : List (FReg L)) (maps : List (LMap L)) (metric : List Fl) (rank : Option (List Nat)) (message : List (FReg L))
    (codeword : List Fl) (frozen : List Nat) (level stride first : Nat) (s : Nat → ℚ) (B : ℚ) (h : FListCall F U L MAX_M soft hard maps metric rank codeword frozen level s B)
    (hfirst : 1 ≤ first) (hmsg : dataBelow first stride (freeBelow frozen (2 ^ level)) ≤ message.length) {Gr : ℚ → Prop} {C : ℚ} (g : ExactSoft F Gr C level s)
    (hfull : 2 ^ dataBelow first stride (freeBelow frozen (2 ^ level)) ≤ L) (hlast : ¬ Frozen frozen (2 ^ level - 1))
    (near : List Int) (hn : near.length = dataBelow first stride (freeBelow frozen (2 ^ level))) (hns : ∀ x ∈ near, x = 1 ∨ x = -1)
    (hnear : disagreeQ (2 ^ level) s (codewordOf frozen level (withParity first stride near (freeBelow frozen (2 ^ level)))) < 1000000) :
    ∃ rank' message' metric', FlList.parDecode F U MAX_M soft hard maps metric rank message codeword frozen level stride first = some (rank', message', metric') ∧
      ∀ k : Fin L, k.val = 0 → ∃ best : List Int, best.length = dataBelow first stride (freeBelow frozen (2 ^ level)) ∧ (∀ x ∈ best, x = 1 ∨ x = -1) ∧ LaneHolds message' k best ∧
        ∀ m : List Int, m.length = dataBelow first stride (freeBelow frozen (2 ^ level)) → (∀ x ∈ m, x = 1 ∨ x = -1) →
          correlationQ (2 ^ level) s (codewordOf frozen level (withParity first stride m (freeBelow frozen (2 ^ level)))) ≤
            correlationQ (2 ^ level) s (codewordOf frozen level (withParity first stride best (freeBelow frozen (2 ^ level)))) := by
  obtain ⟨rank', message', metric', e, res⟩ := C62_parity F U MAX_M soft hard maps metric rank message codeword frozen level stride first s B h hfirst hmsg
  obtain ⟨_, _, _, e', hb⟩ := C63_parity_metric F U MAX_M soft hard maps metric rank message codeword frozen level stride first s B h hfirst hmsg g
  rw [e] at e'; cases e'
  obtain ⟨_, _, _, e', hc⟩ := C63_parity_complete F U MAX_M soft hard maps metric rank message codeword frozen level stride first s B h hfirst hmsg g hfull
  rw [e] at e'; cases e'
  refine ⟨rank', message', metric', e, fun k hk => ?_⟩
  obtain ⟨best, q, b1, b2, b3, b4, b5⟩ := hb k
  have hsort := first_least hlast res hk b4
  refine ⟨best, b1, b2, b3, fun m hm hs => ?_⟩
  rw [correlationQ_eq (x := codewordOf frozen level (withParity first stride m (freeBelow frozen (2 ^ level)))) fun j hj => polar_sym (symbolAt_sym (withParity_sym _ _ hs _)) hj,
    correlationQ_eq (x := codewordOf frozen level (withParity first stride best (freeBelow frozen (2 ^ level)))) fun j hj => polar_sym (symbolAt_sym (withParity_sym _ _ b2 _)) hj]
  obtain ⟨k1, -, q1⟩ := hc near hn hns hnear
  have s1 := hsort k1 _ q1
  have b6 := b5 (by linarith)
  by_cases hD : disagreeQ (2 ^ level) s (codewordOf frozen level (withParity first stride m (freeBelow frozen (2 ^ level)))) < 1000000
  · obtain ⟨k2, -, q2⟩ := hc m hm hs hD
    have s2 := hsort k2 _ q2
    linarith
  · linarith

/-! ### Formats -/

/-- A format with `p` bits adds multiples of `2^e` exactly up to `2^(p + e)`. -/
theorem ieee_grid (p : Nat) (emin : ℤ) (emax : Nat) (hp : 1 ≤ p) (he : emin ≤ 0) (hm : 1 ≤ emax) (e : ℤ) (h1 : emin ≤ e) (h2 : p + e < emax) :
    Grid (ieee p emin emax hp he hm) (Multiple e) ((2 : ℚ) ^ ((p : ℤ) + e)) where
  zero := ⟨0, by simp⟩
  neg := by rintro q ⟨k, rfl⟩; exact ⟨-k, by push_cast; ring⟩
  add := by rintro q r ⟨k, rfl⟩ ⟨l, rfl⟩; exact ⟨k + l, by push_cast; ring⟩
  rep := by
    rintro q ⟨k, rfl⟩ hq
    have h0 : (0 : ℚ) < 2 ^ e := zpow_pos (by norm_num) e
    rw [abs_mul, abs_of_pos h0, zpow_add₀ (by norm_num), mul_le_mul_iff_left₀ h0, zpow_natCast] at hq
    have hk : |k| ≤ 2 ^ p := by exact_mod_cast hq
    rcases lt_or_eq_of_le hk with hk | hk
    · exact ⟨k, e, hk, h1, rfl⟩
    · have e2 : (2 : ℤ) ^ p = 2 ^ (p - 1) * 2 := by rw [← pow_succ, Nat.sub_add_cancel hp]
      have hlt : (2 : ℤ) ^ (p - 1) < 2 ^ p := by rw [e2]; have : (0 : ℤ) < 2 ^ (p - 1) := by positivity
                                                 omega
      have hz : ((2 : ℚ) ^ (e + 1)) = 2 ^ e * 2 := by rw [zpow_add₀ (by norm_num)]; norm_num
      rcases abs_choice k with c | c <;> rw [c] at hk
      · exact ⟨2 ^ (p - 1), e + 1, by rwa [abs_of_nonneg (by positivity)], by omega, by rw [hk, hz, e2]; push_cast; ring⟩
      · refine ⟨-2 ^ (p - 1), e + 1, by rwa [abs_neg, abs_of_nonneg (by positivity)], by omega, ?_⟩
        rw [show k = -2 ^ p by omega, hz, e2]; push_cast; ring
  cap := by
    show (2 : ℚ) ^ ((p : ℤ) + e) < 2 ^ emax
    rw [← zpow_natCast (2 : ℚ) emax]
    exact zpow_lt_zpow_right₀ (by norm_num) h2

/-- `float` -/
theorem grid32 (e : ℤ) (h1 : -149 ≤ e) (h2 : e < 104) : Grid binary32 (Multiple e) ((2 : ℚ) ^ (24 + e)) := ieee_grid 24 (-149) 128 _ _ _ e h1 (by norm_num; omega)
/-- `double` -/
theorem grid64 (e : ℤ) (h1 : -1074 ≤ e) (h2 : e < 971) : Grid binary64 (Multiple e) ((2 : ℚ) ^ (53 + e)) := ieee_grid 53 (-1074) 1024 _ _ _ e h1 (by norm_num; omega)

/-! ### Cases -/

/-- The call of `quarters_call`: quarters up to 32. -/
theorem quarters_exact : ExactSoft binary32 (Multiple (-2)) ((2 : ℚ) ^ (24 + (-2) : ℤ)) 5 (quarters.getD · 0) where
  grid := grid32 (-2) (by norm_num) (by norm_num)
  million := ⟨4000000, by norm_num⟩
  values j hj := ⟨received.getD j 0, (quarters_ok j hj).2.1⟩
  sum := by
    have : ∑ j ∈ Finset.range (2 ^ 5), (|quarters.getD j 0| : ℚ) ≤ ∑ j ∈ Finset.range (2 ^ 5), (32 : ℚ) := by
      refine Finset.sum_le_sum fun j hj => ?_
      obtain ⟨-, -, c⟩ := quarters_call.values j (Finset.mem_range.1 hj)
      exact c
    rw [Finset.sum_const, Finset.card_range] at this
    norm_num at this ⊢
    linarith

/-- The message 1, 1, 1, 1, 1, 1 in lane 0 has the metric 11/2 (see PropsFloatList.lean): its codeword, all ones, disagrees with four of the values, by that much. -/
example : disagreeQ (2 ^ 5) (quarters.getD · 0) (codewordOf [0x177f7fff] 5 [1, 1, 1, 1, 1, 1]) = 11 / 2 := by decide +kernel

/-- Four lanes and two positions that are not frozen, 30 and 31: room for all four messages.  The soft values are those of the codeword of (1, 1), in halves, one of them with the wrong sign. -/
def nearHalves : List ℚ := nearOnes.map fun x => (x : ℚ) / 2

theorem nearHalves_ok : ∀ j, j < 2 ^ 5 → (nearHalves.map Fl.fin).getD j .nan = .fin (nearHalves.getD j 0) ∧ nearHalves.getD j 0 = ((nearOnes.getD j 0 : Int) : ℚ) * (2 : ℚ) ^ (-1 : ℤ) ∧ |nearOnes.getD j 0| ≤ 8 := by
  decide +kernel

theorem nearHalves_abs : ∀ j, j < 2 ^ 5 → |nearHalves.getD j 0| ≤ 4 := by
  intro j hj
  obtain ⟨-, b, c⟩ := nearHalves_ok j hj
  have h2 : (2 : ℚ) ^ (-1 : ℤ) = 1 / 2 := by norm_num
  have : (|((nearOnes.getD j 0 : Int) : ℚ)|) ≤ 8 := by exact_mod_cast c
  rw [b, abs_mul, h2, abs_of_pos (by norm_num : (0 : ℚ) < 1 / 2)]
  linarith

theorem nearHalves_call (frozen : Nat) (h : frozen < 2 ^ 32) (hf : 1 ≤ freeBelow [frozen] (2 ^ 5)) :
    FListCall binary32 (2 ^ 32) 4 5 (List.replicate 64 fun _ => .nan) (List.replicate 32 fun _ => .nan) (List.replicate 32 fun _ => 200) (List.replicate 4 .nan)
    (some (List.replicate 4 9)) (nearHalves.map .fin) [frozen] 5 (nearHalves.getD · 0) 4 where
  lanes := by norm_num
  million := million32
  max_le := by norm_num
  level_ge := by norm_num
  level_le := by norm_num
  soft_len := by simp
  hard_len := by simp
  maps_len := by simp
  metric_len := by simp
  rank_len := by rintro r ⟨⟩; simp
  codeword_len := by simp [nearHalves, nearOnes]
  values j hj := by
    obtain ⟨a, b, c⟩ := nearHalves_ok j hj
    exact ⟨a, ⟨nearOnes.getD j 0, -1, by omega, by norm_num, b⟩, nearHalves_abs j hj⟩
  bound := ⟨⟨4, 0, by norm_num, by norm_num, by norm_num⟩, by show (4 : ℚ) * 2 ^ 5 < 2 ^ 128; norm_num⟩
  frozen_len := by norm_num
  frozen_words := by simpa using h
  free := hf

theorem nearHalves_exact : ExactSoft binary32 (Multiple (-1)) ((2 : ℚ) ^ (24 + (-1) : ℤ)) 5 (nearHalves.getD · 0) where
  grid := grid32 (-1) (by norm_num) (by norm_num)
  million := ⟨2000000, by norm_num⟩
  values j hj := ⟨nearOnes.getD j 0, (nearHalves_ok j hj).2.1⟩
  sum := by
    have : ∑ j ∈ Finset.range (2 ^ 5), (|nearHalves.getD j 0| : ℚ) ≤ ∑ j ∈ Finset.range (2 ^ 5), (4 : ℚ) :=
      Finset.sum_le_sum fun j hj => nearHalves_abs j (Finset.mem_range.1 hj)
    rw [Finset.sum_const, Finset.card_range] at this
    norm_num at this ⊢
    linarith

/-- All hypotheses of `C63_max_likelihood` hold. -/
example : ∃ rank' message' metric', FlList.listDecode binary32 (2 ^ 32) 5 (List.replicate 64 fun _ => .nan) (List.replicate 32 fun _ => .nan) (List.replicate 32 fun _ => 200) (List.replicate 4 .nan)
    (some (List.replicate 4 9)) (List.replicate 2 fun (_ : Fin 4) => Fl.fin 5) (nearHalves.map .fin) [0x3fffffff] 5 = some (rank', message', metric') ∧
    ∀ k : Fin 4, k.val = 0 → ∃ best : List Int, best.length = freeBelow [0x3fffffff] (2 ^ 5) ∧ (∀ x ∈ best, x = 1 ∨ x = -1) ∧ LaneHolds message' k best ∧
      ∀ m : List Int, m.length = freeBelow [0x3fffffff] (2 ^ 5) → (∀ x ∈ m, x = 1 ∨ x = -1) →
        correlationQ (2 ^ 5) (nearHalves.getD · 0) (codewordOf [0x3fffffff] 5 m) ≤ correlationQ (2 ^ 5) (nearHalves.getD · 0) (codewordOf [0x3fffffff] 5 best) :=
  C63_max_likelihood binary32 (2 ^ 32) 5 _ _ _ _ _ _ _ [0x3fffffff] 5 _ 4 (nearHalves_call _ (by norm_num) (by decide +kernel)) (by decide +kernel) nearHalves_exact (by decide +kernel) (by decide +kernel)
    [1, 1] (by decide +kernel) (by simp) (by decide +kernel)

/-- The call itself: all four messages with their disagreements as metrics. -/
example : fListRun 4 0x3fffffff 2 (nearHalves.map .fin) = some (some [0, 1, 2, 3], [[1, -1, -1, 1], [1, -1, 1, -1]].map (fun l => l.map fun x => Fl.fin x),
    [.fin (5 / 2), .fin (45 / 2), .fin (53 / 2), .fin (93 / 2)]) := by decide +kernel
example : [[1, 1], [-1, -1], [-1, 1], [1, -1]].map (fun m => disagreeQ (2 ^ 5) (nearHalves.getD · 0) (codewordOf [0x3fffffff] 5 m)) = [5 / 2, 45 / 2, 53 / 2, 93 / 2] := by decide +kernel

/-- And of `C63_parity_max_likelihood`: of the positions 29, 30 and 31 that are not frozen the last is the parity of the other two. -/
example : ∃ rank' message' metric', FlList.parDecode binary32 (2 ^ 32) 5 (List.replicate 64 fun _ => .nan) (List.replicate 32 fun _ => .nan) (List.replicate 32 fun _ => 200) (List.replicate 4 .nan)
    (some (List.replicate 4 9)) (List.replicate 2 fun (_ : Fin 4) => Fl.fin 5) (nearHalves.map .fin) [0x1fffffff] 5 1 2 = some (rank', message', metric') ∧
    ∀ k : Fin 4, k.val = 0 → ∃ best : List Int, best.length = dataBelow 2 1 (freeBelow [0x1fffffff] (2 ^ 5)) ∧ (∀ x ∈ best, x = 1 ∨ x = -1) ∧ LaneHolds message' k best ∧
      ∀ m : List Int, m.length = dataBelow 2 1 (freeBelow [0x1fffffff] (2 ^ 5)) → (∀ x ∈ m, x = 1 ∨ x = -1) →
        correlationQ (2 ^ 5) (nearHalves.getD · 0) (codewordOf [0x1fffffff] 5 (withParity 2 1 m (freeBelow [0x1fffffff] (2 ^ 5)))) ≤
          correlationQ (2 ^ 5) (nearHalves.getD · 0) (codewordOf [0x1fffffff] 5 (withParity 2 1 best (freeBelow [0x1fffffff] (2 ^ 5)))) :=
  C63_parity_max_likelihood binary32 (2 ^ 32) 5 _ _ _ _ _ _ _ [0x1fffffff] 5 1 2 _ 4 (nearHalves_call _ (by norm_num) (by decide +kernel)) (by norm_num) (by decide +kernel) nearHalves_exact (by decide +kernel)
    (by decide +kernel) [1, 1] (by decide +kernel) (by simp) (by decide +kernel)

end Verif.Polar
