import Verif.Polar.Exact
import Verif.Polar.PropsPar
/- C56: the list decoders are the list decoder of the textbook (SpecScl.lean). -/
namespace Verif.Polar
open PolarHelper (I8 prodV maddV qmulV)
open Verif.RS (sb)
variable {L : Nat}

/-! ### Message symbols -/

theorem info_free {frozen : List Nat} {fr : Nat → Prop} (hfr : ∀ i, fr i ↔ Frozen frozen i) {N : Nat} (w : List Int) (hw : w.length ≤ N) :
    info ((fbits frozen 0 N).take w.length) w = freeSymbols fr w := by
  have e1 : (fbits frozen 0 N).take w.length = (List.range w.length).map (fbit frozen) := by
    rw [fbits_zero, ← List.map_take, List.take_range, Nat.min_eq_left hw]
  have e2 : w = (List.range w.length).map fun i => w.getD i 1 :=
    ext_getD 1 (by simp) fun i hi => by rw [getD_range_map _ _ hi]
  rw [e1]
  conv_lhs => rw [e2]
  rw [List.length_map, List.length_range, info_range]
  unfold freeSymbols
  congr 1
  refine List.filter_congr fun i _ => ?_
  have : fr i ↔ fbit frozen i = true := hfr i
  by_cases h : fbit frozen i = true
  · simp [this, h]
  · simp [this, h]

theorem pathI_append {X C Q : Type} (A : Lf L X C Q) : ∀ (m m' : List Int) (c : C) (q : Q), A.pathI c q (m ++ m') = A.pathI (A.step^[m.length] c) (A.pathI c q m) m' := by
  intro m
  induction m with
  | nil => intro m' c q; rfl
  | cons a m ih => intro m' c q; rw [List.cons_append, Lf.pathI, ih, List.length_cons, Function.iterate_succ_apply, Lf.pathI]

theorem since_le' (first stride r : Nat) : since first stride r ≤ r := (since_le first stride r).trans (dataBelow_le first stride r)

theorem dataSymbols_append (first stride : Nat) (m : List Int) (b : Int) : dataSymbols first stride (m ++ [b]) =
    dataSymbols first stride m ++ if isParity first stride m.length then [] else [b] := by
  unfold dataSymbols
  rw [List.length_append, List.length_singleton, List.range_succ, List.filter_append, List.map_append]
  congr 1
  · refine List.map_congr_left fun i hi => ?_
    have : i < m.length := by simpa using (List.mem_filter.1 hi).1
    rw [← getElem_eq_getD (by simp; omega), ← getElem_eq_getD this, List.getElem_append_left this]
  · by_cases h : isParity first stride m.length
    · simp [h]
    · simp [h]

theorem prod_sym {m : List Int} (h : ∀ x ∈ m, Sym x) : Sym m.prod := by
  induction m with
  | nil => exact Or.inl rfl
  | cons a m ih => rw [List.prod_cons]; exact (h a (by simp)).mul (ih fun x hx => h x (by simp [hx]))

theorem parI [NeZero L] (first stride : Nat) (msg0 : List (Reg L)) (cap : Nat) (m : List Int) (hm : ∀ x ∈ m, Sym x) :
    (parLf L stride msg0 cap).pathI (0, first) ([], 1) m = (dataSymbols first stride m, (m.drop (m.length - since first stride m.length)).prod) := by
  have hc0 : ((0, first) : Nat × Nat) = (dataBelow first stride 0, cAt first stride 0) := by rw [cAt, if_pos (by omega)]; rfl
  induction m using List.reverseRecOn with
  | nil => rfl
  | append_singleton m b ih =>
    have ih := ih fun x hx => hm x (by simp [hx])
    have hsm : ∀ x ∈ m.drop (m.length - since first stride m.length), Sym x := fun x hx => hm x (by simp [List.mem_of_mem_drop hx])
    rw [pathI_append, ih, hc0, step_iter, Lf.pathI, Lf.pathI, dataSymbols_append, List.length_append, List.length_singleton, Nat.zero_add]
    have hp := isParity_iff first stride m.length
    have hs := since_succ first stride m.length
    have hle := since_le' first stride m.length
    simp only [parLf]
    by_cases hc : cAt first stride m.length ≠ 0
    · rw [if_pos hc, if_neg (fun h => hc (hp.1 h)), hs, if_pos hc, show m.length + 1 - (since first stride m.length + 1) = m.length - since first stride m.length by omega,
        List.drop_append_of_le_length (by omega), List.prod_append, List.prod_singleton, qmulV_sym (prod_sym hsm) (hm b (by simp))]
    · rw [if_neg hc, if_pos (hp.2 (by omega)), hs, if_neg hc, Nat.sub_zero, List.append_nil, List.drop_of_length_le (by simp)]
      rfl

/-! ### The decoders -/

/-- The textbook's list of paths as the result of a call: the metrics of the paths, their message symbols in the lanes, nothing else
written; the rank counts how often the metric has changed. -/
structure SclResult (L : Nat) (ps : List Path) (symbols : List Int → List Int) (K : Nat) (rank : Option (List Nat)) (message : List (Reg L))
    (rank' : Option (List Nat)) (message' : List (Reg L)) (metric : List Int) : Prop where
  paths : ps.length = L
  metrics : metric = ps.map Prod.snd
  messages : ∀ k : Fin L, (ln k message').take K = symbols (ps.getD k ([], 0)).1
  frame : message'.length = message.length ∧ ∀ i, K ≤ i → message'.getD i 0 = message.getD i 0
  ranks : (rank = none → rank' = none) ∧ ∀ r, rank = some r → ∃ r', rank' = some r' ∧ r'.length = r.length ∧
    (∀ i, i < L → r'.getD i 0 = changes (fun j => metric.getD j 0) i) ∧ ∀ i, L ≤ i → r'.getD i 0 = r.getD i 0

theorem init_paths {Q : Type} (q0 : Q) (hL : 1 ≤ L) : ((List.ofFn fun k : Fin L => (([] : List Int), q0, if k.val = 0 then (0 : Int) else 1000000)).map fun a => (a.1, a.2.2)) =
    ([], 0) :: List.replicate (L - 1) ([], 1000000) := by
  obtain ⟨n, rfl⟩ : ∃ n, L = n + 1 := ⟨L - 1, by omega⟩
  rw [List.map_ofFn, List.ofFn_succ]
  congr 1
  rw [show n + 1 - 1 = n by omega, ← List.ofFn_const]
  rfl

theorem scl_of_node {X C Q : Type} (A : Lf L X C Q) (M : Nat) (codeword : List Int) (frozen : List Nat) (cost : List Int → Int → Int → Int → Int) (c0 : C) (q0 : Q)
    (hL : 1 ≤ L) (hc : 2 ^ M ≤ codeword.length) (hr : ∀ i, i < 2 ^ M → I8 (codeword.getD i 0))
    (hnew : ∀ (w : List Int) μ s b, w.length < 2 ^ M → ¬ Frozen frozen w.length → (∀ x ∈ w, Sym x) → Sym b →
      A.new (A.cOf (fbits frozen 0 (2 ^ M)) c0 w.length) (A.qOf (fbits frozen 0 (2 ^ M)) c0 q0 w) μ s b = cost w μ s b)
    (V : Fin L → List Int) (q : Fin L → Q) (metric : List Int) (hm : metric.length = L)
    (hn : A.node M (fbits frozen 0 (2 ^ M)) c0 0 (fun _ => codeword.take (2 ^ M)) (List.ofFn fun k : Fin L => ([], q0, if k.val = 0 then 0 else 1000000)) =
      List.ofFn fun k => (V k, q k, metric.getD k 0)) :
    (scl L M (codeword.getD · 0) (Frozen frozen) cost).length = L ∧
    metric = (scl L M (codeword.getD · 0) (Frozen frozen) cost).map Prod.snd ∧
    (∀ k : Fin L, V k = ((scl L M (codeword.getD · 0) (Frozen frozen) cost).getD k ([], 0)).1) ∧ ∀ k, ∀ x ∈ V k, Sym x := by
  have hfl : (fbits frozen 0 (2 ^ M)).length = 2 ^ M := by simp [fbits]
  have := node_flat A M (codeword.getD · 0) (Frozen frozen) cost (fbits frozen 0 (2 ^ M)) c0 q0 hfl (fun i hi => by rw [fbits_zero, getD_range_map _ _ hi]; rfl)
    hnew M 0 0 (by omega) (by simp) (fun _ => codeword.take (2 ^ M)) (fun w _ _ => ⟨by simp [hc], fun i hi => by rw [getD_take_lt hi]; exact ⟨hr i hi, rfl⟩⟩)
    (List.ofFn fun k : Fin L => ([], q0, if k.val = 0 then 0 else 1000000)) (by
      intro a ha
      obtain ⟨k, rfl⟩ := (List.mem_ofFn' _ _).1 ha
      exact ⟨by simp, by simp, rfl⟩)
  rw [Nat.zero_mul, List.drop_zero, List.take_of_length_le (by omega), init_paths q0 hL, show A.cOf (fbits frozen 0 (2 ^ M)) c0 0 = c0 from rfl, hn, List.map_ofFn] at this
  obtain ⟨h1, h2⟩ := this
  change _ = scl L M (codeword.getD · 0) (Frozen frozen) cost at h1
  have hlen : (scl L M (codeword.getD · 0) (Frozen frozen) cost).length = L := by rw [← h1, List.length_ofFn]
  refine ⟨hlen, ?_, fun k => ?_, fun k => ?_⟩
  · rw [← h1, List.map_ofFn]
    refine ext_getD 0 (by simp [hm]) fun i hi => ?_
    have hi' : i < L := by omega
    symm
    rw [← getElem_eq_getD (by simpa using hi'), List.getElem_ofFn]
    rfl
  · rw [← h1, ← getElem_eq_getD (by simp), List.getElem_ofFn]
    rfl
  · exact (h2 _ ((List.mem_ofFn' _ _).2 ⟨k, rfl⟩)).sym

/-- On any soft values the list decoder computes exactly the textbook's list: the same paths in the same order with the same
metrics.  Together with the frame this determines every output of the call. -/
theorem C56_list (MAX_M : Nat) (soft hard : List (Reg L)) (maps : List (LMap L)) (metric : List Int) (rank : Option (List Nat))
    (message : List (Reg L)) (codeword : List Int) (frozen : List Nat) (level : Nat)
    (h : ListCall L MAX_M soft hard maps metric rank message codeword frozen level) :
    ∃ rank' message' metric', listDecode MAX_M soft hard maps metric rank message codeword frozen level = some (rank', message', metric') ∧
      SclResult L (scl L level (codeword.getD · 0) (Frozen frozen) addPenalty) (freeSymbols (Frozen frozen)) (freeBelow frozen (2 ^ level))
        rank message rank' message' metric' := by
  obtain ⟨rank', message', metric', origin, e, hres, -, hex⟩ := list_run MAX_M soft hard maps metric rank message codeword frozen level h
  haveI : NeZero L := ⟨by have := h.lanes; omega⟩
  obtain ⟨V, q, hV, hmsg, hn⟩ := hex
  obtain ⟨h1, h2, h3, -⟩ := scl_of_node (listLf L message (2 ^ MAX_M)) level codeword frozen addPenalty 0 [] h.lanes.1 h.codeword_len h.codeword_range
    (fun _ _ _ _ _ _ _ _ => rfl) V q metric' hres.metrics.1 hn
  refine ⟨rank', message', metric', e, h1, h2, fun k => ?_, hres.frame, hres.ranks⟩
  rw [hmsg k, ← h3 k, ← info_free (fun _ => Iff.rfl) (N := 2 ^ level) (V k) (by rw [hV]), hV, List.take_of_length_le (by simp [fbits])]

/-- The same for the parity-aided list decoder. -/
theorem C56_parity (MAX_M : Nat) (soft hard : List (Reg L)) (maps : List (LMap L)) (metric : List Int) (rank : Option (List Nat))
    (message : List (Reg L)) (codeword : List Int) (frozen : List Nat) (level stride first : Nat)
    (h : ParCall L MAX_M soft hard maps metric rank message codeword frozen level stride first) :
    ∃ rank' message' metric', parDecode MAX_M soft hard maps metric rank message codeword frozen level stride first = some (rank', message', metric') ∧
      SclResult L (scl L level (codeword.getD · 0) (Frozen frozen) (parityCost first stride (Frozen frozen)))
        (fun w => dataSymbols first stride (freeSymbols (Frozen frozen) w)) (dataBelow first stride (freeBelow frozen (2 ^ level)))
        rank message rank' message' metric' := by
  obtain ⟨rank', message', metric', e, hres, -, hex⟩ := par_run MAX_M soft hard maps metric rank message codeword frozen level stride first h
  haveI : NeZero L := ⟨by have := h.lanes; omega⟩
  obtain ⟨V, q, hV, hmsg, hn⟩ := hex
  have hfl : (fbits frozen 0 (2 ^ level)).length = 2 ^ level := by simp [fbits]
  have hc0 : ((0, first) : Nat × Nat) = (dataBelow first stride 0, cAt first stride 0) := by rw [cAt, if_pos (by omega)]; rfl
  have hsymF : ∀ w : List Int, (∀ x ∈ w, Sym x) → ∀ x ∈ freeSymbols (Frozen frozen) w, Sym x := by
    intro w hw x hx
    obtain ⟨i, -, rfl⟩ := List.mem_map.1 hx
    exact getD_Sym hw i
  have hfree : ∀ w : List Int, w.length ≤ 2 ^ level → cnt ((fbits frozen 0 (2 ^ level)).take w.length) = (freeSymbols (Frozen frozen) w).length := by
    intro w hw
    rw [← info_free (fun _ => Iff.rfl) (N := 2 ^ level) w hw, info_length (by simp [hfl, hw])]
    rfl
  obtain ⟨h1, h2, h3, h4⟩ := scl_of_node (parLf L stride message (2 ^ MAX_M)) level codeword frozen (parityCost first stride (Frozen frozen)) (0, first) ([], 1)
    h.lanes.1 h.codeword_len h.codeword_range
    (fun w μ s b hw _ hs hb => by
      have hq : (parLf L stride message (2 ^ MAX_M)).qOf (fbits frozen 0 (2 ^ level)) (0, first) ([], 1) w =
          (parLf L stride message (2 ^ MAX_M)).pathI (0, first) ([], 1) (freeSymbols (Frozen frozen) w) := by
        unfold Lf.qOf
        rw [path_info _ _ _ _ _ (by simp [hfl]; omega), info_free (fun _ => Iff.rfl) w (by omega)]
      have hcc : (parLf L stride message (2 ^ MAX_M)).cOf (fbits frozen 0 (2 ^ level)) (0, first) w.length =
          (dataBelow first stride (freeSymbols (Frozen frozen) w).length, cAt first stride (freeSymbols (Frozen frozen) w).length) := by
        unfold Lf.cOf
        rw [hc0, step_iter, hfree w (by omega), Nat.zero_add]
      rw [hq, hcc, parI first stride _ _ _ (hsymF w hs)]
      unfold parityCost
      simp only [parLf]
      set m := freeSymbols (Frozen frozen) w with hm
      have hsm : ∀ x ∈ m.drop (m.length - since first stride m.length), Sym x := fun x hx => hsymF w hs x (List.mem_of_mem_drop hx)
      have hp := isParity_iff first stride m.length
      rw [sg_sym (prod_sym hsm)]
      by_cases hc : cAt first stride m.length = 0
      · rw [since_span first stride hc]
        by_cases hb' : b = (m.drop (m.length - span first stride m.length)).prod
        · rw [if_pos (Or.inr hb'), if_neg (by simp [hb'])]; rfl
        · rw [if_neg (by simp [hc, hb']), if_pos ⟨hp.2 hc, hb'⟩]
      · rw [if_pos (Or.inl hc), if_neg (fun h => hc (hp.1 h.1))]; rfl)
    V q metric' hres.metrics.1 hn
  refine ⟨rank', message', metric', e, h1, h2, fun k => ?_, hres.frame, hres.ranks⟩
  show (ln k message').take (parK frozen level stride first) = _
  have e1 : info (fbits frozen 0 (2 ^ level)) (V k) = freeSymbols (Frozen frozen) (V k) := by
    rw [← info_free (fun _ => Iff.rfl) (N := 2 ^ level) (V k) (by rw [hV]), hV, List.take_of_length_le (by simp [fbits])]
  rw [hmsg k, ← h3 k, e1, parI first stride _ _ _ (hsymF _ (h4 k))]

end Verif.Polar
