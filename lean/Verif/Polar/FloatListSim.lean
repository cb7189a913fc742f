import Verif.Polar.FloatNodes
import Verif.Polar.PropsMl
/- The lanes of the list decoder on floating point numbers are the textbook's list of paths. -/
namespace Verif.Polar
open Verif.RS (sb)
open FlList (FReg LXF PXF)
variable {L : Nat}

/-! ### Free symbols -/

theorem freeSymbols_snoc (fr : Nat → Prop) (w : List Int) (b : Int) : (fr w.length → freeSymbols fr (w ++ [b]) = freeSymbols fr w) ∧
    (¬ fr w.length → freeSymbols fr (w ++ [b]) = freeSymbols fr w ++ [b]) := by
  classical
  have key : freeSymbols fr (w ++ [b]) = freeSymbols fr w ++ if fr w.length then [] else [b] := by
    unfold freeSymbols
    rw [List.length_append, List.length_singleton, List.range_succ, List.filter_append, List.map_append]
    congr 1
    · refine List.map_congr_left fun i hi => ?_
      have : i < w.length := by simpa using (List.mem_filter.1 hi).1
      rw [← getElem_eq_getD (by simp; omega), ← getElem_eq_getD this, List.getElem_append_left this]
    · by_cases h : fr w.length
      · simp [h]
      · simp [h]
  exact ⟨fun h => by rw [key, if_pos h, List.append_nil], fun h => by rw [key, if_neg h]⟩

theorem freeSymbols_ones (fr : Nat → Prop) (w : List Int) : ∀ n, (∀ i, i < n → fr (w.length + i)) → freeSymbols fr (w ++ List.replicate n 1) = freeSymbols fr w := by
  intro n
  induction n with
  | zero => intro _; simp
  | succ n ih =>
    intro h
    rw [List.replicate_succ', ← List.append_assoc, (freeSymbols_snoc fr _ _).1 (by simpa using h n (by omega)), ih fun i hi => h i (by omega)]

theorem freeSymbols_length (frozen : List Nat) (w : List Int) : (freeSymbols (Frozen frozen) w).length = freeBelow frozen w.length := by
  induction w using List.reverseRecOn with
  | nil => simp [freeSymbols, freeBelow]
  | append_singleton w b ih =>
    rw [List.length_append, List.length_singleton, freeBelow_succ, ← ih]
    by_cases h : Frozen frozen w.length
    · rw [(freeSymbols_snoc _ w b).1 h, if_pos h]; rfl
    · rw [(freeSymbols_snoc _ w b).2 h, if_neg h]; simp

theorem freeSymbols_sym (fr : Nat → Prop) {w : List Int} (hw : ∀ x ∈ w, Sym x) : ∀ x ∈ freeSymbols fr w, Sym x := by
  intro x hx
  obtain ⟨i, -, rfl⟩ := List.mem_map.1 hx
  exact getD_Sym hw i

theorem freeBelow_frozen (frozen : List Nat) (p : Nat) : ∀ n, (∀ i, i < n → Frozen frozen (p + i)) → freeBelow frozen (p + n) = freeBelow frozen p := by
  intro n
  induction n with
  | zero => intro _; rfl
  | succ n ih =>
    intro h
    rw [← Nat.add_assoc, freeBelow_succ, if_pos (h n (by omega)), ih fun i hi => h i (by omega)]; rfl

/-! ### Metrics and rows -/

/-- The metrics of the paths. -/
def MetsP (F : Rounding) (m : List Fl) (ps : List (List Int × WithTop ℚ)) : Prop := m = ps.map (fun a => metFl a.2) ∧ ∀ a ∈ ps, MOk F a.2

theorem MetsP.mets {F : Rounding} {m : List Fl} {ps : List (List Int × WithTop ℚ)} (h : MetsP F m ps) (hl : ps.length = L) : Mets F L m fun k => (ps.getD k ([], 0)).2 := by
  refine ⟨by rw [h.1, List.length_map, hl], fun k => ?_⟩
  have hk : k.val < ps.length := by rw [hl]; exact k.isLt
  rw [h.1, getD_map' _ _ ([], 0) Fl.nan hk]
  refine ⟨rfl, ?_⟩
  dsimp only
  rw [← getElem_eq_getD hk]
  exact h.2 _ (List.getElem_mem _)

theorem Mets.list {F : Rounding} {m : List Fl} {ps : List (List Int × WithTop ℚ)} {μ : Fin L → WithTop ℚ} (h : Mets F L m μ) (hl : ps.length = L) (hμ : ∀ k : Fin L, (ps.getD k ([], 0)).2 = μ k) :
    MetsP F m ps := by
  refine ⟨ext_getD .nan (by rw [List.length_map, hl, h.1]) fun i hi => ?_, fun a ha => ?_⟩
  · have hi : i < L := by rw [h.1] at hi; exact hi
    have hk : i < ps.length := by omega
    have := h.2 ⟨i, hi⟩
    rw [this.1, getD_map' _ _ ([], 0) Fl.nan hk, ← hμ ⟨i, hi⟩]
  · obtain ⟨i, hi, rfl⟩ := List.mem_iff_getElem.1 ha
    have := h.2 ⟨i, by omega⟩
    rw [← hμ, ← getElem_eq_getD hi] at this
    exact this.2

/-- The first `n` rows of the message hold what the lanes have collected; the others are as before. -/
def Rows [NeZero L] (msg0 : List (FReg L)) (cap n : Nat) (target : Fin L → List Fl) (message : List (FReg L)) (maps : List (LMap L)) : Prop :=
  message.length = msg0.length ∧ (∀ i, n ≤ i → message.getD i (oneF L) = msg0.getD i (oneF L)) ∧ maps.length = cap ∧ (∀ i, i < n → ∀ k, maps.getD i (fun _ => 0) k < L) ∧
    ∀ k, trF message maps n k = target k

theorem Rows.snoc [NeZero L] {msg0 : List (FReg L)} {cap n : Nat} {target : Fin L → List Fl} {message : List (FReg L)} {maps : List (LMap L)} (h : Rows msg0 cap n target message maps)
    (h1 : n < msg0.length) (h2 : n < cap) {hrd : FReg L} {map : LMap L} (hm : ∀ k, map k < L) :
    Rows msg0 cap (n + 1) (fun k => target ⟨map k, hm k⟩ ++ [hrd k]) (message.set n hrd) (maps.set n map) := by
  obtain ⟨i1, i2, i3, i4, i5⟩ := h
  refine ⟨by rw [List.length_set, i1], fun i hi => by rw [getD_set, if_neg (by omega), i2 i (by omega)], by rw [List.length_set, i3], fun i hi k => ?_, fun k => ?_⟩
  · rw [getD_set]
    by_cases h : n = i
    · rw [if_pos ⟨h, by omega⟩]; exact hm k
    · rw [if_neg (by tauto)]; exact i4 i (by omega) k
  · rw [trF_snoc (by omega) (by omega), src_of hm, i5]

theorem Rows.shuf [NeZero L] {msg0 : List (FReg L)} {cap n : Nat} {target : Fin L → List Fl} {message : List (FReg L)} {maps : List (LMap L)} (h : Rows msg0 cap (n + 1) target message maps)
    (h1 : n < msg0.length) (h2 : n < cap) {map : LMap L} (hm : ∀ k, map k < L) :
    Rows msg0 cap (n + 1) (fun k => target ⟨map k, hm k⟩) (message.set n (Verif.Polar.shuf (.fin 0) (message.getD n (oneF L)) map)) (maps.set n (Verif.Polar.shuf 0 (maps.getD n fun _ => 0) map)) := by
  obtain ⟨i1, i2, i3, i4, i5⟩ := h
  refine ⟨by rw [List.length_set, i1], fun i hi => by rw [getD_set, if_neg (by omega), i2 i (by omega)], by rw [List.length_set, i3], fun i hi k => ?_, fun k => ?_⟩
  · rw [getD_set]
    by_cases h : n = i
    · rw [if_pos ⟨h, by omega⟩]
      simp only [Verif.Polar.shuf, hm k, dite_true]
      exact i4 _ (by omega) _
    · rw [if_neg (by tauto)]; exact i4 i (by omega) k
  · rw [trF_shuf hm (by omega) (by omega), i5]

/-! ### Nodes -/

/-- A block of frozen positions. -/
theorem chargeNode {F : Rounding} {d p : Nat} {s : List (FReg L)} {m : List Fl} {ps : List (List Int × WithTop ℚ)} {sf : List Int → Nat → ℚ} (hs : s.length = 2 ^ d) (hps : Paths L p ps)
    (hv : ∀ (k : Fin L) i, i < 2 ^ d → s.getD i (oneF L) k = .fin (sf (word ps k) i)) (hm : MetsP F m ps) :
    ∃ m', chargeAllF F (2 ^ d) s m = some m' ∧
      MetsP F m' (ps.map fun a => (a.1 ++ List.replicate (2 ^ d) 1, ((List.range (2 ^ d)).map (sf a.1)).foldl (fun μ s => fadd F μ (penaltyQ s 1)) a.2)) := by
  obtain ⟨m', e, h⟩ := chargeAllF_ok (σ := fun k i => sf (word ps k) i) hs (oneF L) hv (hm.mets hps.count)
  refine ⟨m', e, h.list (by simp [hps.count]) fun k => ?_⟩
  have hk : k.val < ps.length := by rw [hps.count]; exact k.isLt
  rw [getD_map' _ _ ([], 0) _ hk, word_eq hk, ← getElem_eq_getD hk]

/-- The continuations as the decoder lays them out. -/
theorem forkNode {F : Rounding} {p : Nat} {v : FReg L} {m : List Fl} {ps : List (List Int × WithTop ℚ)} {sf : List Int → ℚ} (hps : Paths L p ps)
    (hv : ∀ k : Fin L, v k = .fin (sf (word ps k))) (hm : MetsP F m ps) :
    ∃ f, FlList.fork F v m = some f ∧ f = (forks (fun _ μ s b => fadd F μ (penaltyQ s b)) sf ps).map fun a => metFl a.2 := by
  obtain ⟨f, e, f1, f2⟩ := forkF_ok hv (hm.mets hps.count)
  refine ⟨f, e, ext_getD .nan (by rw [f1, List.length_map, forks_length, hps.count]) fun i hi => ?_⟩
  have hi' : i / 2 < ps.length := by rw [hps.count]; omega
  have hk : i / 2 < L := by omega
  obtain ⟨g1, g2⟩ := f2 ⟨i / 2, hk⟩
  have hw : word ps (i / 2) = (ps[i / 2]).1 := word_eq hi'
  rw [List.getD_eq_getElem?_getD (l := List.map _ _), List.getElem?_map, forks_get _ _ _ _ hi', Option.map_some, Option.getD_some]
  dsimp only at g1 g2 ⊢
  rw [hw, ← getElem_eq_getD hi'] at g1 g2
  rcases Nat.mod_two_eq_zero_or_one i with h | h
  · rw [h]; rw [show 2 * (i / 2) = i by omega] at g1; exact g1
  · rw [h]; rw [show 2 * (i / 2) + 1 = i by omega] at g2; exact g2

/-- The best continuations. -/
theorem pruneNode {F : Rounding} {U p : Nat} {f m : List Fl} {ps : List (List Int × WithTop ℚ)} {sf : List Int → ℚ} {cost : List Int → WithTop ℚ → ℚ → Int → WithTop ℚ} (hL : 0 < L) (hU : L ≤ U)
    (hps : Paths L p ps) (hm : m.length = L) (hf : f = (forks cost sf ps).map fun a => metFl a.2) (hok : ∀ a ∈ forks cost sf ps, MOk F a.2) :
    ∃ m' map hrd, FlList.prune (L := L) F U f m = some (m', map, hrd) ∧ MetsP F m' (bestOf L (forks cost sf ps)) ∧
      ∀ k : Fin L, map k < L ∧ ∃ b, Sym b ∧ hrd k = flSym b ∧ word (bestOf L (forks cost sf ps)) k = word ps (map k) ++ [b] := by
  have hG : (forks cost sf ps).length = 2 * L := by rw [forks_length, hps.count]
  have hB := bestOf_length L (forks cost sf ps) (by omega)
  obtain ⟨m', map, hrd, e, m1, h⟩ := pruneF_ok (F := F) hL hU hG hm hf
  have hbest : ∀ k : Fin L, (bestOf L (forks cost sf ps)).getD k ([], 0) ∈ forks cost sf ps ∧ (m'.getD k .nan = metFl ((bestOf L (forks cost sf ps)).getD k ([], 0)).2) := by
    intro k
    obtain ⟨_, b, _, _, q, hq, _, _, h5, h6⟩ := h k
    have hq' : q < (forks cost sf ps).length := by omega
    have : (bestOf L (forks cost sf ps)).getD k ([], 0) = (forks cost sf ps).getD q ([], 0) := by rw [List.getD_eq_getElem?_getD, h5, ← List.getD_eq_getElem?_getD]
    rw [this]
    refine ⟨?_, h6⟩
    rw [← getElem_eq_getD hq']; exact List.getElem_mem _
  refine ⟨m', map, hrd, e, Mets.list (μ := fun k => ((bestOf L (forks cost sf ps)).getD k ([], 0)).2) ⟨m1, fun k => ⟨(hbest k).2, hok _ (hbest k).1⟩⟩ hB fun k => rfl, fun k => ?_⟩
  obtain ⟨h1, b, h2, h3, q, hq, h4, h4', h5, h6⟩ := h k
  refine ⟨h1, b, h2, h3, ?_⟩
  have hq' : q / 2 < ps.length := by rw [hps.count]; omega
  have hkB : k.val < (bestOf L (forks cost sf ps)).length := by rw [hB]; exact k.isLt
  rw [word_eq hkB, h4, word_eq hq']
  rw [forks_get _ _ _ _ hq', List.getElem?_eq_getElem hkB] at h5
  injection h5 with h5
  rw [h5, ← h4']

/-! ### The list decoder -/

/-- The state stands for these paths of `p` decisions. -/
def ListRelF [NeZero L] (F : Rounding) (frozen : List Nat) (msg0 : List (FReg L)) (cap p : Nat) (x : LXF L) (ps : List (List Int × WithTop ℚ)) : Prop :=
  MetsP F x.metric ps ∧ x.count = freeBelow frozen p ∧ Rows msg0 cap x.count (fun k => (freeSymbols (Frozen frozen) (word ps k)).map flSym) x.message x.maps

/-- The penalties of the decisions add up. -/
def addF (F : Rounding) (_ : List Int) (μ : WithTop ℚ) (s : ℚ) (b : Int) : WithTop ℚ := fadd F μ (penaltyQ s b)

theorem idMapF_eq {U : Nat} (h : L ≤ U) : FlList.idMap U L = fun k => k.val := by
  funext k
  unfold FlList.idMap
  exact Nat.mod_eq_of_lt (by omega)

theorem map_word {P : Type} [LinearOrder P] {ps : List (List Int × P)} {g : List Int × P → List Int × P} {n : Nat} (hg : ∀ a, (g a).1 = a.1 ++ List.replicate n 1) {k : Nat} (hk : k < ps.length) :
    word (ps.map g) k = word ps k ++ List.replicate n 1 := by
  rw [word_eq (by simpa using hk), word_eq hk, List.getElem_map, hg]

theorem forks_mem {V P : Type} {cost : List Int → P → V → Int → P} {sf : List Int → V} {ps : List (List Int × P)} {a : List Int × P} (h : a ∈ forks cost sf ps) :
    ∃ c ∈ ps, ∃ b, Sym b ∧ a.2 = cost c.1 c.2 (sf c.1) b := by
  obtain ⟨c, hc, h⟩ := List.mem_flatMap.1 h
  rcases List.mem_cons.1 h with rfl | h
  · exact ⟨c, hc, 1, Or.inl rfl, rfl⟩
  · rw [List.mem_singleton.1 h]; exact ⟨c, hc, -1, Or.inr rfl, rfl⟩

theorem listSimF [NeZero L] {F : Rounding} {U : Nat} (hU : L ≤ U) {B : ℚ} (hB : F.rep B) {M : Nat} (hh : B * 2 ^ M < F.huge) {frozen : List Nat} {msg0 : List (FReg L)} {cap : Nat}
    (h1 : freeBelow frozen (2 ^ M) ≤ msg0.length) (h2 : freeBelow frozen (2 ^ M) ≤ cap) :
    Sim (phFV F L) (minSum F.rnd) M (RF F B) (fun a v => a = .fin v) (fun a x => a = flSym x) (Frozen frozen) (fun μ s => fadd F μ (penaltyQ s 1)) (addF F)
      (ListRelF F frozen msg0 cap) (.fin 0) (FlList.listWalk F U L) (listNF F U L) where
  prod := rfl
  madd := rfl
  qmul := rfl
  vshuf := rfl
  comp := rfl
  sc1 := rfl
  lane k := laneF F hB hh (fun r : FReg L => r k) rfl (fun _ _ => rfl) (fun _ => rfl) (fun _ _ => rfl) (fun _ _ _ => rfl)
  r0 := by
    rintro d p x ps s sf hd hp hfr hs ⟨r1, r2, r3⟩ hps hv
    obtain ⟨m', e, hm'⟩ := chargeNode hs hps (fun k i hi => (hv k i hi).1) r1
    refine ⟨{ x with metric := m' }, ?_, hm', ?_, ?_⟩
    · show (chargeAllF F (2 ^ d) s x.metric >>= fun m => _) = _
      rw [e, sb, idMapF_eq hU]
      rfl
    · rw [freeBelow_frozen frozen p (2 ^ d) hfr]; exact r2
    · obtain ⟨i1, i2, i3, i4, i5⟩ := r3
      refine ⟨i1, i2, i3, i4, fun k => ?_⟩
      dsimp only
      rw [i5 k, map_word (g := fun a => (a.1 ++ List.replicate (2 ^ d) 1, _)) (fun a => rfl) (by rw [hps.count]; exact k.isLt),
        freeSymbols_ones _ _ _ fun i hi => by rw [hps.word_len k]; exact hfr i hi]
  r1 := by
    rintro p x ps v sf hp hfr ⟨r1, r2, r3⟩ hps hv
    have hL0 : 0 < L := Nat.pos_of_ne_zero (NeZero.ne L)
    obtain ⟨f, ef, hf⟩ := forkNode hps (fun k => (hv k).1) r1
    obtain ⟨m', map, hrd, ep, hm', hk⟩ := pruneNode (F := F) (cost := addF F) hL0 hU hps (r1.mets hps.count).1 hf (fun a ha => by
      obtain ⟨c, hc, b, -, e⟩ := forks_mem ha
      rw [e]; exact (fadd_ok (r1.2 c hc) (penaltyQ_nonneg _ _)).1)
    have hlt := free_lt hp hfr
    rw [← r2] at hlt
    refine ⟨⟨m', x.message.set x.count hrd, x.maps.set x.count map, x.count + 1⟩, hrd, map, ?_, ⟨hm', ?_, ?_⟩, fun k => ?_⟩
    · show (FlList.listFork F U x v >>= fun r => _) = _
      unfold FlList.listFork
      rw [ef, sb, ep, sb]
      dsimp only
      rw [wr_of_lt (by have := r3.1; omega), sb, wr_of_lt (by have := r3.2.2.1; omega), sb]
      rfl
    · dsimp only
      rw [freeBelow_succ, if_neg hfr, r2]
    · have := r3.snoc (hrd := hrd) (by omega) (by omega) (fun k => (hk k).1)
      convert this using 1
      funext k
      obtain ⟨hmk, b, _, hb, hw⟩ := hk k
      have hl := hps.word_len ⟨map k, hmk⟩
      dsimp only at hl
      show _ = (freeSymbols (Frozen frozen) (word ps (map k))).map flSym ++ [hrd k]
      rw [hw, (freeSymbols_snoc _ _ _).2 (by rw [hl]; exact hfr), List.map_append, hb]
      rfl
    · exact hk k

end Verif.Polar
