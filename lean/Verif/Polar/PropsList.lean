import Verif.Polar.ListTop
/- C38 (polar_list_decoder.hh). -/
namespace Verif.Polar
open PolarHelper (I8 prodV maddV qmulV)
open Verif.RS (sb)
variable {L : Nat}

/-! ### Specification -/

/-- The soft value of the sum of two symbols: the signs multiply, the smaller magnitude counts. -/
def softF (a b : Int) : Int := a.sign * b.sign * min (min |a| 127) (min |b| 127)

/-- The soft value of the second symbol once the first is known to be `h`: they add up, saturating. -/
def softG (h a b : Int) : Int := max (-127) (min 127 (h * max a (-127) + b))

/-- Deciding for the symbol `b` costs the magnitude of the soft value if it points to the other symbol. -/
def penalty (s b : Int) : Int := max 0 (-(b * s))

open Classical in
/-- The penalty of the decisions `u` for a block of `2^M` soft values `s`, by successive cancellation.  Blocks of up to 32
symbols all of which are frozen are charged as a whole, without going down to the leaves. -/
noncomputable def pathMetric : Nat → (Nat → Prop) → (Nat → Int) → (Nat → Int) → Int
  | 0, _, s, u => penalty (s 0) (u 0)
  | M + 1, fr, s, u => if M + 1 ≤ 5 ∧ ∀ i, i < 2 ^ (M + 1) → fr i then ∑ i ∈ Finset.range (2 ^ (M + 1)), penalty (s i) 1 else
    pathMetric M fr (fun i => softF (s i) (s (2 ^ M + i))) u +
      pathMetric M (fun i => fr (2 ^ M + i)) (fun i => softG (polar M u i) (s i) (s (2 ^ M + i))) (fun i => u (2 ^ M + i))

/-! ### The metric of a path -/

theorem prodV_softF {a b : Int} (ha : I8 a) (hb : I8 b) : prodV a b = softF a b := by
  rw [PolarHelper.prodV_eq ha hb, PolarHelper.prod_eq ha hb, (PolarHelper.qabs_eq ha).1, (PolarHelper.qabs_eq hb).1]
  have e : ∀ v : Int, PolarHelper.sgn v = v.sign := by
    intro v
    rcases PolarHelper.sgn_cases v with ⟨h, e⟩ | ⟨h, e⟩ | ⟨h, e⟩ <;> rw [e]
    · rw [Int.sign_eq_one_of_pos h]
    · rw [h]; rfl
    · rw [Int.sign_eq_neg_one_of_neg h]
  rw [e, e]; rfl

theorem maddV_softG {h a b : Int} (hh : Sym h) (ha : I8 a) : maddV h a b = softG h a b := by
  unfold maddV PolarHelper.vmax PolarHelper.vqadd PolarHelper.vsign softG
  unfold I8 at ha
  have e : PolarHelper.t8 (PolarHelper.sgn h * max a (-127)) = h * max a (-127) := by
    rcases hh with rfl | rfl
    · rw [show PolarHelper.sgn 1 = 1 from rfl, PolarHelper.t8_id (by omega) (by omega)]
    · rw [show PolarHelper.sgn (-1) = -1 from rfl, PolarHelper.t8_id (by omega) (by omega)]
  rw [e, PolarHelper.t8_id (by omega) (by omega)]
  omega

theorem PV_sym (s : Nat) (u : Nat → Int) : ∀ (_ : ∀ i, Sym (u i)) (j : Nat), P qmulV s u j = P (· * ·) s u j := by
  intro hu
  induction s with
  | zero => intro j; rfl
  | succ s ih =>
    intro j
    show (if _ then _ else _ : Int) = if _ then _ else _
    split
    · rw [ih, ih, qmulV_sym (P_sym _ _ hu _) (P_sym _ _ hu _)]
    · exact ih j

theorem T_polar {M : Nat} {l : List Int} (hl : l.length = 2 ^ M) (hs : ∀ a ∈ l, Sym a) {u : Nat → Int} (hu : ∀ i, i < 2 ^ M → l.getD i 1 = u i) {j : Nat}
    (hj : j < 2 ^ M) : (T qmulV M l).getD j 1 = polar M u j := by
  have hg : ∀ i, Sym (l.getD i 1) := fun i => getD_Sym (fun x hx => hs x hx) i
  rw [T_getD _ 1 _ _ hl j hj, PV_sym _ _ hg, P_congr' (v := u) (fun i hi => hu i hi) hj]
  exact P_prod M u j hj

theorem sum_range_list (g : Nat → Int) : ∀ n, ((List.range n).map g).sum = ∑ i ∈ Finset.range n, g i := by
  intro n
  induction n with
  | zero => rfl
  | succ n ih => rw [List.range_succ, List.map_append, List.sum_append, ih, Finset.sum_range_succ]; simp

theorem negs_sum {l : List Int} {n : Nat} {s : Nat → Int} (hl : l.length = n) (hs : ∀ i, i < n → l.getD i 0 = s i) :
    negs l = ∑ i ∈ Finset.range n, penalty (s i) 1 := by
  have : l = (List.range n).map s := ext_getD 0 (by simp [hl]) fun i hi => by rw [hs i (by omega), getD_range_map _ _ (by omega)]
  unfold negs
  rw [this, List.map_map, sum_range_list]
  refine Finset.sum_congr rfl fun i _ => ?_
  simp [neg, penalty]

theorem cost_eq {X C Q : Type} (A : Lf L X C Q) (hnew : ∀ c p μ s b, A.good c p b → A.new c p μ s b = μ + pen s b) :
    ∀ (M : Nat) (f : List Bool) (c : C) (p : Q) (μ : Int) (ls lu : List Int)
    (fr : Nat → Prop) (s u : Nat → Int), f.length = 2 ^ M → ls.length = 2 ^ M → lu.length = 2 ^ M →
    (∀ i, i < 2 ^ M → (f.getD i false = true ↔ fr i)) → (∀ i, i < 2 ^ M → ls.getD i 0 = s i) → (∀ i, i < 2 ^ M → lu.getD i 1 = u i) →
    (∀ i, i < 2 ^ M → I8 (s i)) → (∀ a ∈ lu, Sym a) → (∀ i, i < 2 ^ M → fr i → u i = 1) → A.goods f c p lu →
    A.cost M f c p μ ls lu = μ + pathMetric M fr s u := by
  intro M
  induction M with
  | zero =>
    intro f c p μ ls lu fr s u h1 h2 h3 h4 h5 h6 h7 h8 h9 hg
    obtain ⟨b, rfl⟩ := List.length_eq_one_iff.1 h1
    obtain ⟨a, rfl⟩ := List.length_eq_one_iff.1 h2
    obtain ⟨v, rfl⟩ := List.length_eq_one_iff.1 h3
    have h4 := h4 0 (by norm_num)
    have h5 : a = s 0 := h5 0 (by norm_num)
    have h6 : v = u 0 := h6 0 (by norm_num)
    rw [Lf.cost, pathMetric]
    cases b with
    | true =>
      have := h9 0 (by norm_num) (h4.1 rfl)
      rw [if_pos (by rfl), this, h5]
      simp [negs, neg, penalty]
    | false =>
      rw [if_neg (by simp), ← h5, ← h6]
      exact hnew _ _ _ _ _ hg.1
  | succ M ih =>
    intro f c p μ ls lu fr s u h1 h2 h3 h4 h5 h6 h7 h8 h9 hg
    have e := two_pow_succ' M
    rw [Lf.cost, pathMetric]
    have hc : (M + 1 ≤ 5 ∧ f.all (fun b => b) = true) ↔ (M + 1 ≤ 5 ∧ ∀ i, i < 2 ^ (M + 1) → fr i) := by
      refine and_congr_right fun _ => ?_
      rw [List.all_eq_true]
      constructor
      · intro h i hi
        rw [← h4 i hi, ← getElem_eq_getD (by omega)]
        exact h _ (List.getElem_mem _)
      · intro h b hb
        obtain ⟨i, hi, rfl⟩ := List.mem_iff_getElem.1 hb
        rw [getElem_eq_getD _ false]
        exact (h4 i (by omega)).2 (h i (by omega))
    by_cases hcond : M + 1 ≤ 5 ∧ f.all (fun b => b) = true
    · rw [if_pos hcond, if_pos (hc.1 hcond), negs_sum h2 h5]
    · rw [if_neg hcond, if_neg (fun h => hcond (hc.2 h))]
      have l1 : (ls.take (2 ^ M)).length = 2 ^ M := by simp [h2, e]
      have l2 : (ls.drop (2 ^ M)).length = 2 ^ M := by simp [h2, e]
      have u1 : (lu.take (2 ^ M)).length = 2 ^ M := by simp [h3, e]
      have u2 : (lu.drop (2 ^ M)).length = 2 ^ M := by simp [h3, e]
      have su1 : ∀ a ∈ lu.take (2 ^ M), Sym a := fun a ha => h8 a (List.mem_of_mem_take ha)
      have tl := T_length qmulV M _ u1
      have hT : ∀ i, i < 2 ^ M → (T qmulV M (lu.take (2 ^ M))).getD i 1 = polar M u i := fun i hi =>
        T_polar u1 su1 (fun i hi => by rw [getD_take_lt hi]; exact h6 i (by omega)) hi
      have hTs : ∀ i, i < 2 ^ M → Sym (polar M u i) := fun i hi => by
        rw [← hT i hi, ← getElem_eq_getD (by omega)]
        exact T_sym M _ su1 _ (List.getElem_mem _)
      rw [← List.take_append_drop (2 ^ M) f, ← List.take_append_drop (2 ^ M) lu, goods_append _ _ _ _ _ _ _ (by simp [h1, h3])] at hg
      rw [ih (f.drop (2 ^ M)) _ _ _ _ (lu.drop (2 ^ M)) (fun i => fr (2 ^ M + i)) (fun i => softG (polar M u i) (s i) (s (2 ^ M + i))) (fun i => u (2 ^ M + i)) ?_ ?_ u2 ?_ ?_ ?_ ?_ ?_ ?_ hg.2,
        ih (f.take (2 ^ M)) _ _ _ _ (lu.take (2 ^ M)) fr (fun i => softF (s i) (s (2 ^ M + i))) u ?_ ?_ u1 ?_ ?_ ?_ ?_ su1 ?_ hg.1, add_assoc]
      · simp [h1, e]
      · simp [l1, l2]
      · intro i hi; rw [getD_take_lt hi]; exact h4 i (by omega)
      · intro i hi
        rw [getD_zipWith' (da := 0) (db := 0) (by omega) (by omega), getD_take_lt hi, getD_drop', h5 i (by omega), h5 _ (by omega)]
        exact prodV_softF (h7 i (by omega)) (h7 _ (by omega))
      · intro i hi; rw [getD_take_lt hi]; exact h6 i (by omega)
      · intro i hi
        rw [← prodV_softF (h7 i (by omega)) (h7 _ (by omega))]; exact vprod_range _ _
      · intro i hi hf; exact h9 i (by omega) hf
      · simp [h1, e]
      · simp [zip3_length, tl, l1, l2]
      · intro i hi; rw [getD_drop']; exact h4 _ (by omega)
      · intro i hi
        unfold zip3
        rw [getD_zipWith' (da := ((1 : Int), (0 : Int))) (db := 0) (by simp [tl, l1]; omega) (by omega)]
        have : ((T qmulV M (lu.take (2 ^ M))).zip (ls.take (2 ^ M))).getD i (1, 0) = (polar M u i, s i) := by
          rw [← getElem_eq_getD (by simp [tl, l1]; omega), List.getElem_zip, getElem_eq_getD _ 1, getElem_eq_getD _ 0, getD_take_lt hi, hT i hi, h5 i (by omega)]
        rw [this, getD_drop', h5 _ (by omega)]
        exact maddV_softG (hTs i hi) (h7 i (by omega))
      · intro i hi; rw [getD_drop']; exact h6 _ (by omega)
      · intro i hi
        rw [← maddV_softG (hTs i hi) (h7 i (by omega))]; exact vmadd_range _ _ _
      · exact fun a ha => h8 a (List.mem_of_mem_drop ha)
      · intro i hi hf; exact h9 _ (by omega) hf

theorem listPath [NeZero L] (msg0 : List (Reg L)) (cap : Nat) : ∀ (f : List Bool) (c : Nat) (p u : List Int), f.length = u.length →
    (listLf L msg0 cap).path f c p u = p ++ info f u := by
  intro f
  induction f with
  | nil => intro c p u h; simp [Lf.path, info]
  | cons b f ih =>
    intro c p u h
    cases u with
    | nil => simp at h
    | cons a u =>
      have h' : f.length = u.length := by simpa using h
      cases b with
      | true => rw [Lf.path, ih _ _ _ h']; simp [info]
      | false =>
        rw [Lf.path, ih _ _ _ h']
        show p ++ [a] ++ info f u = _
        simp [info]

theorem listGoods [NeZero L] (msg0 : List (Reg L)) (cap : Nat) : ∀ (f : List Bool) (c : Nat) (p u : List Int), (listLf L msg0 cap).goods f c p u := by
  intro f
  induction f with
  | nil => intro c p u; trivial
  | cons b f ih =>
    intro c p u
    cases u with
    | nil => trivial
    | cons a u => cases b with
      | true => exact ih _ _ _
      | false => exact ⟨trivial, ih _ _ _⟩

/-! ### Ranks -/

theorem changes_mono (m : Nat → Int) {i j : Nat} (h : i ≤ j) : changes m i ≤ changes m j := by
  induction j with
  | zero => rw [Nat.le_zero.1 h]
  | succ j ih =>
    rcases Nat.eq_or_lt_of_le h with rfl | h
    · exact le_rfl
    · rw [changes]; have := ih (by omega); omega

theorem changes_eq {m : Nat → Int} {L : Nat} (hm : ∀ i j, i ≤ j → j < L → m i ≤ m j) : ∀ j i, i ≤ j → j < L → (changes m i = changes m j ↔ m i = m j) := by
  intro j
  induction j with
  | zero => intro i hi _; rw [Nat.le_zero.1 hi]; simp
  | succ j ih =>
    intro i hi hj
    rcases Nat.eq_or_lt_of_le hi with rfl | hlt
    · simp
    · have h1 := hm i j (by omega) (by omega)
      have h2 := hm j (j + 1) (by omega) hj
      have h3 := changes_mono m (show i ≤ j by omega)
      have h4 := ih i (by omega) (by omega)
      rw [changes]
      split
      · constructor
        · intro h; omega
        · intro h; omega
      · rename_i h
        push Not at h
        rw [add_zero, h4, h]

/-! ### C38 -/

/-- A call `PolarListDecoder<SIMD<int8_t, L>, MAX_M>()(rank, message, codeword, frozen, level)` that the decoder accepts; its members
`soft`, `hard` and `maps` and its uninitialised array `metric` are in any state, `rank` may be null. -/
structure ListCall (L MAX_M : Nat) (soft hard : List (Reg L)) (maps : List (LMap L)) (metric : List Int) (rank : Option (List Nat))
    (message : List (Reg L)) (codeword : List Int) (frozen : List Nat) (level : Nat) : Prop where
  lanes : 1 ≤ L ∧ L ≤ 256
  max_le : MAX_M ≤ 16
  level_ge : 5 ≤ level
  level_le : level ≤ MAX_M
  soft_len : soft.length = 2 * 2 ^ MAX_M
  hard_len : hard.length = 2 ^ MAX_M
  maps_len : maps.length = 2 ^ MAX_M
  metric_len : metric.length = L
  rank_len : ∀ r, rank = some r → L ≤ r.length
  codeword_len : 2 ^ level ≤ codeword.length
  codeword_range : ∀ i, i < 2 ^ level → I8 (codeword.getD i 0)
  frozen_len : 2 ^ level ≤ 32 * frozen.length
  frozen_words : ∀ w ∈ frozen, w < 2 ^ 32
  free : 1 ≤ freeBelow frozen (2 ^ level)
  message_len : freeBelow frozen (2 ^ level) ≤ message.length

/-- What a call of the list decoder leaves behind; `metric` are the final path metrics and `origin` tells from which of the
initial lanes a lane has come. -/
structure ListResult (L : Nat) (rank : Option (List Nat)) (message : List (Reg L)) (codeword : List Int) (frozen : List Nat) (level : Nat)
    (rank' : Option (List Nat)) (message' : List (Reg L)) (metric : List Int) (origin : Fin L → Fin L) : Prop where
  /-- only the first `K` registers of the message array are written -/
  frame : message'.length = message.length ∧ ∀ i, freeBelow frozen (2 ^ level) ≤ i → message'.getD i 0 = message.getD i 0
  /-- every lane holds a message of ±1 symbols -/
  symbols : ∀ k, ∀ x ∈ (ln k message').take (freeBelow frozen (2 ^ level)), x = 1 ∨ x = -1
  /-- the metric of a lane is the penalty of its message, plus 1000000 if it has not come from lane 0 -/
  metrics : metric.length = L ∧ ∀ k : Fin L, metric.getD k 0 = (if (origin k).val = 0 then 0 else 1000000) +
    pathMetric level (Frozen frozen) (codeword.getD · 0) (symbolAt frozen ((ln k message').take (freeBelow frozen (2 ^ level))))
  /-- two lanes of the same origin have different messages -/
  distinct : ∀ k k', origin k = origin k' → (ln k message').take (freeBelow frozen (2 ^ level)) = (ln k' message').take (freeBelow frozen (2 ^ level)) → k = k'
  /-- if the last position is not frozen the metrics do not decrease -/
  sorted : ¬ Frozen frozen (2 ^ level - 1) → ∀ k k' : Fin L, k ≤ k' → metric.getD k 0 ≤ metric.getD k' 0
  /-- the rank counts how often the metric has changed -/
  ranks : (rank = none → rank' = none) ∧ ∀ r, rank = some r → ∃ r', rank' = some r' ∧ r'.length = r.length ∧
    (∀ i, i < L → r'.getD i 0 = changes (fun j => metric.getD j 0) i) ∧ ∀ i, L ≤ i → r'.getD i 0 = r.getD i 0

theorem list_run (MAX_M : Nat) (soft hard : List (Reg L)) (maps : List (LMap L)) (metric : List Int) (rank : Option (List Nat))
    (message : List (Reg L)) (codeword : List Int) (frozen : List Nat) (level : Nat)
    (h : ListCall L MAX_M soft hard maps metric rank message codeword frozen level) :
    ∃ rank' message' metric' origin, listDecode MAX_M soft hard maps metric rank message codeword frozen level = some (rank', message', metric') ∧
      ListResult L rank message codeword frozen level rank' message' metric' origin ∧
      (∀ u : List Int, (∀ a ∈ u, Sym a) → Obeys 1 (fbits frozen 0 (2 ^ level)) u →
        (∀ j, j < 2 ^ level → SignOf (codeword.getD j 0) ((T qmulV level u).getD j 1)) →
        (∀ k : Fin L, k.val = 0 → (ln k message').take (freeBelow frozen (2 ^ level)) = info (fbits frozen 0 (2 ^ level)) u ∧ metric'.getD k 0 = 0) ∧
        ∀ k, 0 < k → k < L → 1 ≤ metric'.getD k 0) ∧
      ∀ [NeZero L], ∃ (V : Fin L → List Int) (q : Fin L → List Int), (∀ k, (V k).length = 2 ^ level) ∧
        (∀ k, (ln k message').take (freeBelow frozen (2 ^ level)) = info (fbits frozen 0 (2 ^ level)) (V k)) ∧
        (listLf L message (2 ^ MAX_M)).node level (fbits frozen 0 (2 ^ level)) 0 0 (fun _ => codeword.take (2 ^ level))
          (List.ofFn fun k : Fin L => ([], [], if k.val = 0 then 0 else 1000000)) = List.ofFn fun k => (V k, q k, metric'.getD k 0) := by
  obtain ⟨⟨hL, hL'⟩, g1, g2, g3, g4, g5, g6, g7, g8, g9, g10, g11, g12, g13, g14⟩ := h
  haveI : NeZero L := ⟨by omega⟩
  have hp : (2 : Nat) ^ level ≤ 2 ^ MAX_M := Nat.pow_le_pow_right (by omega) g3
  set K := freeBelow frozen (2 ^ level) with hK
  have hKle : K ≤ 2 ^ level := by
    rw [hK, ← cnt_fbits]
    exact (List.length_filter_le _ _).trans (by simp [fbits])
  obtain ⟨m0, em0, m1, m2, m3⟩ := metric0_ok (by omega) g7
  obtain ⟨a, ea, a1, a2⟩ := dupLoop_ok (L := L) (level := level) (soft := soft) (by omega) g9
  obtain ⟨t, r, U, et, t1, ⟨B, i1, i2, i3, i4, i5, i6, i7⟩, run⟩ := top_run (A := listLf L message (2 ^ MAX_M)) (listLfOk hL' message (2 ^ MAX_M)) (listAgree 0) g12 g2 (by omega)
    g11 g13 g9 g10 (m := ⟨⟨m0, message, maps, 0⟩, hard, a⟩) a2 (by dsimp only; omega) (by
      refine ⟨⟨m1, fun k hk => ?_⟩, rfl, fun _ _ => rfl, g6, ?_, ?_, fun i hi => ?_⟩
      · rcases Nat.eq_zero_or_pos k with rfl | hk0
        · rw [m2]; omega
        · rw [m3 k hk0 hk]; omega
      · show 0 + K ≤ message.length
        omega
      · show 0 + K ≤ 2 ^ MAX_M
        omega
      · exact absurd hi (Nat.not_lt_zero i))
  have hcnt : r.1.count = K := by
    have := run.ctl
    have he : ∀ n c, (listLf L message (2 ^ MAX_M)).step^[n] c = c + n := by
      intro n
      induction n with
      | zero => intro c; rfl
      | succ n ih => intro c; rw [Function.iterate_succ_apply, ih]; show c + 1 + n = _; omega
    rw [he, cnt_fbits] at this
    show (listLf L message (2 ^ MAX_M)).ctl r.1 = K
    rw [this]
    show 0 + K = K
    omega
  rw [hcnt] at i3 i5 i6 i7
  obtain ⟨out, eo, o1, o2, o3⟩ := backLoop_ok (L := L) (message := r.1.message) (maps := r.1.maps) (n := K) g13 (by omega) (by omega) i7
  obtain ⟨hv, htr, hmet⟩ := run.lanes
  have hob : ∀ k, Obeys 1 (fbits frozen 0 (2 ^ level)) (ln k U) := by
    intro k
    refine ⟨by rw [ln_length, run.obeys.1], fun i hi => ?_⟩
    by_cases hi' : i < U.length
    · rw [ln_getD k U (phV L).one 1 hi', run.obeys.2 i hi]; rfl
    · rw [List.getD_eq_default _ _ (by rw [ln_length]; omega)]
  have hfl : (fbits frozen 0 (2 ^ level)).length = 2 ^ level := by simp [fbits]
  have hlen : ∀ k, (ln k U).length = 2 ^ level := fun k => by rw [← (hob k).1, hfl]
  have hmsg : ∀ k, (ln k out).take K = info (fbits frozen 0 (2 ^ level)) (ln k U) := by
    intro k
    rw [o3 k]
    have := htr k
    rw [listPath _ _ _ _ _ _ (hob k).1] at this
    have h0 : (listLf L message (2 ^ MAX_M)).tr (⟨⟨m0, message, maps, 0⟩, hard, a⟩ : Mem (Reg L) (LX L)).x ⟨r.2.2 k, hv k⟩ = [] := rfl
    rw [h0, List.nil_append] at this
    rw [← this]
    show tr r.1.message r.1.maps K k = tr r.1.message r.1.maps r.1.count k
    rw [hcnt]
  have hsymU : ∀ k, ∀ x ∈ ln k U, Sym x := by
    intro k x hx
    obtain ⟨b, hb, rfl⟩ := List.mem_map.1 hx
    exact run.sym b hb k
  have hcw : ∀ k, ln k ((codeword.take (2 ^ level)).map fun v (_ : Fin L) => v) = codeword.take (2 ^ level) := by
    intro k; unfold ln; rw [List.map_map]; exact List.map_id _
  obtain ⟨rank', er, hr1, hr2⟩ := rankOpt_ok (L := L) (m := r.1.metric) (rank := rank) i1.1 g8
  refine ⟨rank', out, r.1.metric, fun k => ⟨r.2.2 k, hv k⟩, ?_, ?_, ?_, fun {_} => ⟨fun k => ln k U, (listLf L message (2 ^ MAX_M)).tr r.1, hlen, hmsg, ?_⟩⟩
  · unfold listDecode
    rw [show assertUB (level ≤ MAX_M) = some () from if_pos g3, sb, em0, sb, ea, sb, et, sb, t1, er, sb, hcnt, eo, sb]
    rfl
  · refine ⟨⟨by rw [o1, i2], fun i hi => by rw [o2 i hi, i3 i hi]⟩, fun k x hx => ?_, ⟨i1.1, fun k => ?_⟩, fun k k' h1 h2 => ?_, fun hlast k k' hk => ?_, hr1, hr2⟩
    · rw [hmsg k] at hx
      unfold info at hx
      obtain ⟨⟨b, y⟩, hy, rfl⟩ := List.mem_map.1 hx
      exact hsymU k _ (List.of_mem_zip (List.mem_of_mem_filter hy)).2
    · have := hmet k
      have hpath := obeys_eq (hob k)
      rw [← hmsg k] at hpath
      rw [hcw, cost_eq (listLf L message (2 ^ MAX_M)) (fun _ _ _ _ _ _ => rfl) level _ _ _ _ _ _ (Frozen frozen) (codeword.getD · 0)
        (symbolAt frozen ((ln k out).take K)) hfl (by simp [g9]) (hlen k) (fun i hi => by rw [fbits_zero, getD_range_map _ _ hi]; rfl)
        (fun i hi => by rw [getD_take_lt hi]) (fun i hi => by rw [hpath, getD_range_map _ _ hi, ← complete_eq]; rfl) g10 (hsymU k)
        (fun i _ hf => by unfold symbolAt; rw [if_pos hf]) (listGoods _ _ _ _ _ _)] at this
      show (listLf L message (2 ^ MAX_M)).met r.1 k = _
      rw [this]
      congr 1
      show m0.getD (r.2.2 k) 0 = _
      dsimp only
      by_cases h0 : r.2.2 k = 0
      · rw [if_pos h0, h0]; exact m2
      · rw [if_neg h0, m3 _ (by omega) (hv k)]
    · rw [hmsg, hmsg] at h2
      exact run.inj k k' (congrArg Fin.val h1) (info_inj (hob k) (hob k') h2)
    · refine run.sorted ?_ k k' hk
      rw [fbits_last (by positivity)]
      congr 1
      simpa [Frozen, fbit] using hlast
  · intro u hu ho hs
    obtain ⟨q1, q2, q3, q4⟩ := run.truth u hu ho (listGoods _ _ _ _ _ _) ⟨by rw [hcw, T_length _ _ _ (by rw [← ho.1, hfl])]; simp [g9], fun i hi => by
      rw [hcw] at hi ⊢
      have hi : i < 2 ^ level := by simp at hi; omega
      rw [getD_take_lt hi, ← getElem_eq_getD (by omega), getElem_eq_getD _ 0]
      exact hs i hi⟩ m2 (fun k hk => by
        show 1 ≤ m0.getD k 0
        have : k.val ≠ 0 := fun h => hk (Fin.ext h)
        rw [m3 k (by omega) k.isLt]; omega)
    refine ⟨fun k hk => ?_, fun k hk hk' => q4 ⟨k, hk'⟩ (fun h => by have := congrArg Fin.val h; simp at this; omega)⟩
    have : k = 0 := Fin.ext hk
    subst this
    exact ⟨by rw [hmsg, q2], q3⟩
  · have := run.exact 0 (fun _ => []) (fun _ => codeword.take (2 ^ level)) (fun _ => rfl) (fun k w => (hcw k).symm)
    dsimp only [List.nil_append] at this
    have e0 : (fun k : Fin L => (([] : List Int), (listLf L message (2 ^ MAX_M)).tr (⟨m0, message, maps, 0⟩ : LX L) k, (listLf L message (2 ^ MAX_M)).met (⟨m0, message, maps, 0⟩ : LX L) k)) =
        fun k : Fin L => ([], [], if k.val = 0 then 0 else 1000000) := by
      funext k
      have : m0.getD k 0 = if k.val = 0 then 0 else 1000000 := by
        by_cases h0 : k.val = 0
        · rw [if_pos h0, h0]; exact m2
        · rw [if_neg h0, m3 _ (by omega) k.isLt]
      exact Prod.ext rfl (Prod.ext rfl this)
    rw [e0] at this
    exact this

/-- On any soft values the decoder stays inside its arrays, no metric overflows, and the result is as described by
`ListResult`: every lane holds a ±1 message, its metric is the penalty of that message, lanes of the same origin are different,
metrics are sorted (if the last position is not frozen) and the ranks tell where they change. -/
theorem C38_decode (MAX_M : Nat) (soft hard : List (Reg L)) (maps : List (LMap L)) (metric : List Int) (rank : Option (List Nat))
    (message : List (Reg L)) (codeword : List Int) (frozen : List Nat) (level : Nat)
    (h : ListCall L MAX_M soft hard maps metric rank message codeword frozen level) :
    ∃ rank' message' metric' origin, listDecode MAX_M soft hard maps metric rank message codeword frozen level = some (rank', message', metric') ∧
      ListResult L rank message codeword frozen level rank' message' metric' origin := by
  obtain ⟨rank', message', metric', origin, e, h, -, -⟩ := list_run MAX_M soft hard maps metric rank message codeword frozen level h
  exact ⟨rank', message', metric', origin, e, h⟩

/-- If the last position is not frozen, two lanes get the same rank exactly if they have the same metric; ranks do not decrease. -/
theorem C38_rank (rank' : Option (List Nat)) (message message' : List (Reg L)) (metric : List Int) (origin : Fin L → Fin L) (codeword : List Int)
    (frozen : List Nat) (level : Nat) (r : List Nat) (h : ListResult L (some r) message codeword frozen level rank' message' metric origin)
    (hlast : ¬ Frozen frozen (2 ^ level - 1)) :
    ∃ r', rank' = some r' ∧ (∀ i j, i ≤ j → j < L → r'.getD i 0 ≤ r'.getD j 0) ∧
      (∀ i j, i < L → j < L → (r'.getD i 0 = r'.getD j 0 ↔ metric.getD i 0 = metric.getD j 0)) ∧ (0 < L → r'.getD 0 0 = 0) := by
  obtain ⟨r', e, -, h2, -⟩ := h.ranks.2 r rfl
  have hm : ∀ i j, i ≤ j → j < L → metric.getD i 0 ≤ metric.getD j 0 := fun i j hij hj => h.sorted hlast ⟨i, by omega⟩ ⟨j, hj⟩ hij
  refine ⟨r', e, fun i j hij hj => ?_, fun i j hi hj => ?_, fun h0 => by rw [h2 0 h0]; rfl⟩
  · rw [h2 i (by omega), h2 j hj]; exact changes_mono _ hij
  · rw [h2 i hi, h2 j hj]
    rcases Nat.le_total i j with hij | hij
    · exact changes_eq (L := L) hm j i hij hj
    · rw [eq_comm, changes_eq (L := L) hm i j hij hi, eq_comm]

/-- If the soft values have the signs of the codeword that `PolarEncoder` makes of `data` — any non-zero `int8_t` amplitudes —
then lane 0 of the result is the message, its metric is 0 and its rank is 0; every other lane has a metric of at least 1 and
a rank of at least 1. -/
theorem C38_sign_correct (MAX_M : Nat) (soft hard : List (Reg L)) (maps : List (LMap L)) (metric : List Int) (rank : Option (List Nat))
    (message : List (Reg L)) (codeword : List Int) (frozen : List Nat) (level : Nat)
    (h : ListCall L MAX_M soft hard maps metric rank message codeword frozen level)
    (data cw0 cw : List Int) (hm : freeBelow frozen (2 ^ level) ≤ data.length) (hi : ∀ x ∈ data, x = 1 ∨ x = -1)
    (hc : 2 ^ level ≤ cw0.length) (henc : encode ph8 cw0 data frozen level = some cw)
    (hsign : ∀ j, j < 2 ^ level → 0 < codeword.getD j 0 * cw.getD j 0) :
    ∃ rank' message' metric', listDecode MAX_M soft hard maps metric rank message codeword frozen level = some (rank', message', metric') ∧
      (∀ k : Fin L, k.val = 0 → (ln k message').take (freeBelow frozen (2 ^ level)) = data.take (freeBelow frozen (2 ^ level))) ∧
      metric'.getD 0 0 = 0 ∧ (∀ k, 0 < k → k < L → 1 ≤ metric'.getD k 0) ∧
      ∀ r, rank = some r → ∃ r', rank' = some r' ∧ r'.getD 0 0 = 0 ∧ ∀ k, 0 < k → k < L → 1 ≤ r'.getD k 0 := by
  obtain ⟨rank', message', metric', origin, e, hres, htruth, -⟩ := list_run MAX_M soft hard maps metric rank message codeword frozen level h
  have hL := h.lanes.1
  have hf := h.frozen_len
  have hsy := symbolAt_sym (frozen := frozen) hi
  set u := (List.range (2 ^ level)).map (complete 1 (fbit frozen) data) with hu
  have hul : u.length = 2 ^ level := by simp [hu]
  have hus : ∀ a ∈ u, Sym a := by
    intro a ha
    obtain ⟨i, _, rfl⟩ := List.mem_map.1 ha
    have := hsy i
    rwa [← complete_eq] at this
  have hpol : ∀ j, j < 2 ^ level → (T qmulV level u).getD j 1 = polar level (symbolAt frozen data) j := fun j hj =>
    T_polar hul hus (fun i hi => by rw [hu, getD_range_map _ _ hi, ← complete_eq]; rfl) hj
  obtain ⟨cw', e', ⟨-, hcw⟩, hpm⟩ := C35_hard cw0 data frozen level (by have := h.level_ge; omega) hf hm hc hi
  rw [henc] at e'
  cases e'
  obtain ⟨q1, q2⟩ := htruth u hus (obeys_complete _ _ _ _) (fun j hj => by
    have h1 := hcw j
    rw [if_pos hj] at h1
    have h2 := hsign j hj
    rw [h1] at h2
    rw [hpol j hj]
    refine ⟨h.codeword_range j hj, ?_⟩
    have hs : Sym (polar level (symbolAt frozen data) j) := by
      unfold polar; rw [← P_prod level _ j hj]; exact P_sym _ _ hsy j
    rcases hs with h3 | h3
    · rw [h3, mul_one] at h2; exact Or.inl ⟨h3, h2⟩
    · rw [h3] at h2; exact Or.inr ⟨h3, by omega⟩)
  have hm0 : metric'.getD 0 0 = 0 := (q1 ⟨0, hL⟩ rfl).2
  refine ⟨rank', message', metric', e, fun k hk => ?_, hm0, q2, fun r hr => ?_⟩
  · rw [(q1 k hk).1, fbits_zero, hu, info_range, filter_range_map _ _ _ _ (by rw [rank_eq]; exact hm), rank_eq]
  · obtain ⟨r', er, -, h2, -⟩ := hres.ranks.2 r hr
    refine ⟨r', er, by rw [h2 0 hL]; rfl, fun k hk hk' => ?_⟩
    rw [h2 k hk']
    have h1 : changes (fun j => metric'.getD j 0) 1 = 1 := by
      have := q2 1 (by omega) (by omega)
      rw [changes, changes, if_pos (by show metric'.getD 0 0 ≠ metric'.getD 1 0; omega)]
    exact le_trans (le_of_eq h1.symm) (changes_mono _ (by omega))

/-- A call of a decoder for one codeword of 32 symbols, with `L` lanes, and its result as plain lists. -/
def listRun (L frozen K : Nat) (codeword : List Int) : Option (Option (List Nat) × List (List Int) × List Int) := do
  let r ← listDecode (L := L) 5 (List.replicate 64 fun _ => 99) (List.replicate 32 fun _ => 77) (List.replicate 32 fun _ => 200) (List.replicate L 5)
    (some (List.replicate L 9)) (List.replicate K fun _ => 5) codeword [frozen] 5
  return (r.1, r.2.1.map List.ofFn, r.2.2)

/-- Four lanes, information set {15, 23, 27, 29, 30, 31}, the codeword of (-1, 1, 1, -1, -1, 1) with amplitudes from 1 to 128. -/
example : (encode ph8 (List.replicate 32 0) [-1, 1, 1, -1, -1, 1] [0x177f7fff] 5 >>= fun cw =>
    listRun 4 0x177f7fff 7 (List.zipWith (fun (i : Nat) (x : Int) => if x < 0 then -((i : Int) * 4 + 4) else (i : Int) * 3 + 1) (List.range 32) cw)) =
    some (some [0, 1, 1, 1],
      [[-1, -1, -1, -1], [1, 1, 1, 1], [1, 1, 1, 1], [-1, -1, -1, -1], [-1, -1, 1, 1], [1, -1, 1, -1], [5, 5, 5, 5]],
      [0, 127, 127, 127]) := by decide +kernel

example : ListCall 4 5 (List.replicate 64 fun _ => 99) (List.replicate 32 fun _ => 77) (List.replicate 32 fun _ => 200) (List.replicate 4 5)
    (some (List.replicate 4 9)) (List.replicate 7 fun _ => 5) (List.replicate 32 1) [0x177f7fff] 5 where
  lanes := by omega
  max_le := by omega
  level_ge := by omega
  level_le := by omega
  soft_len := by simp
  hard_len := by simp
  maps_len := by simp
  metric_len := by simp
  rank_len := by rintro r ⟨⟩; simp
  codeword_len := by simp
  codeword_range := by
    intro i hi
    rw [getD_replicate' _ _ _ (by simpa using hi)]; exact ⟨by omega, by omega⟩
  frozen_len := by simp
  frozen_words := by simp
  free := by rw [← rank_eq]; decide +kernel
  message_len := by rw [← rank_eq]; decide +kernel

/-- The condition on the last position is needed: with 30 as the only position that is not frozen the lane of metric 127 comes
before the lane of metric 80 (and has rank 0): the penalties of the frozen positions after the last decision are not sorted in. -/
theorem C38_last_frozen : listRun 2 0xbfffffff 1 ((List.range 32).map fun i => if i % 2 = 0 then 3 else -5) = some (some [0, 1], [[-1, 1]], [127, 80]) := by
  decide +kernel

/-- At least one position must not be frozen: otherwise the decoder reads `maps[-1]` (polar_list_decoder.hh:318). -/
theorem C38_all_frozen : listRun 2 0xffffffff 1 (List.replicate 32 1) = none := by decide +kernel

end Verif.Polar
