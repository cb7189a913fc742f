import Verif.Polar.FloatFork
/- Keeping the best continuations. -/
namespace Verif.Polar
open Verif.RS (sb)
variable {L : Nat} {P : Type} [LinearOrder P]

theorem ltP_weak : Verif.Sort.StrictWeak (fun a b : P => decide (a < b)) where
  asymm x y h := by simp at h ⊢; exact h.le
  negtrans x y z h := by
    simp at h ⊢
    rcases lt_or_ge x y with h' | h'
    · exact Or.inl h'
    · exact Or.inr (h'.trans_lt h)

theorem zipLEs {a b : List Int × P} {i j : Nat} (h1 : a.2 ≤ b.2) (h2 : b.2 ≤ a.2 → i ≤ j) :
    List.zipIdxLE (fun a b : List Int × P => decide (a.2 ≤ b.2)) (a, i) (b, j) = true := by
  by_cases h : b.2 ≤ a.2
  · simp [List.zipIdxLE, h1, h, h2 h]
  · simp [List.zipIdxLE, h1, h]

/-- What the sort with indices puts in front are the best paths. -/
theorem bestOf_idx {G : List (List Int × P)} {N : Nat} (hG : G.length = N) {q : List Nat} (d : List Int × P) (ql : q.length = N) (hq : q.Perm (List.range N))
    (sorted : ∀ i j (hj : j < q.length) (hij : i < j), (G.getD q[i] d).2 ≤ (G.getD q[j] d).2)
    (stab : ∀ i j (hj : j < q.length) (hij : i < j), (G.getD q[j] d).2 ≤ (G.getD q[i] d).2 → q[i] < q[j]) (n : Nat) :
    bestOf n G = (q.take n).map fun i => G.getD i d := by
  have key : q.map (fun i => G.getD i d) = G.mergeSort fun a b => decide (a.2 ≤ b.2) := by
    rw [← List.mergeSort_zipIdx]
    have hz : G.zipIdx = (List.range N).map fun i => (G.getD i d, i) := by
      refine List.ext_getElem (by simp [hG]) fun i h1 h2 => ?_
      have : i < G.length := by simpa using h1
      simp [this]
    rw [hz]
    have : q.map (fun i => (G.getD i d, i)) = ((List.range N).map fun i => (G.getD i d, i)).mergeSort (List.zipIdxLE fun a b => decide (a.2 ≤ b.2)) := by
      refine List.Perm.eq_of_pairwise (le := fun a b => List.zipIdxLE (fun a b : List Int × P => decide (a.2 ≤ b.2)) a b = true) ?_ ?_ ?_ ((hq.map _).trans (List.mergeSort_perm _ _).symm)
      · rintro ⟨a, i⟩ ⟨c, j⟩ ha hc h1 h2
        obtain ⟨i', _, hi⟩ := List.mem_map.1 ha
        have hc := (List.mergeSort_perm _ _).mem_iff.1 hc
        obtain ⟨j', _, hj⟩ := List.mem_map.1 hc
        injection hi with hi hi'
        injection hj with hj hj'
        subst hi' hj'
        have : i' = j' := by
          simp only [List.zipIdxLE] at h1 h2
          by_cases hac : a.2 ≤ c.2 <;> by_cases hca : c.2 ≤ a.2 <;> simp [hac, hca] at h1 h2 <;> omega
        subst this
        rw [← hi, ← hj]
      · rw [List.pairwise_map, List.pairwise_iff_getElem]
        intro i j hi hj hij
        exact zipLEs (sorted i j hj hij) fun h2 => (stab i j hj hij h2).le
      · have h := List.pairwise_mergeSort (le := List.zipIdxLE fun a b : List Int × P => decide (a.2 ≤ b.2))
          (List.zipIdxLE_trans fun a b c h1 h2 => by simp at *; exact h1.trans h2) (List.zipIdxLE_total fun a b => by simp; exact le_total _ _)
          ((List.range N).map fun i => (G.getD i d, i))
        exact h
    rw [← this, List.map_map]
    rfl
  unfold bestOf
  rw [← key, List.map_take]

/-- The sort with indices of the metrics of `G`. -/
theorem sort_best {G : List (List Int × P)} {N : Nat} (hG : G.length = N) (h0 : 0 < N) (d : List Int × P) :
    ∃ (q : List Nat) (b : List P), Verif.Sort.insertionSortIdx (fun a b : P => decide (a < b)) (id : Nat → Nat) (List.replicate N 0) (G.map Prod.snd) N = some (q, b) ∧ q.length = N ∧ b.length = N ∧
      (∀ i (h : i < q.length), q[i] < N) ∧ (∀ i, i < N → b.getD i d.2 = (G.getD (q.getD i 0) d).2) ∧ ∀ n, bestOf n G = (q.take n).map fun i => G.getD i d := by
  obtain ⟨q, b, e, hsort, hq, hb, hstab⟩ := Verif.Sort.C16_indices (fun a b : P => decide (a < b)) ltP_weak (id : Nat → Nat) (List.replicate N 0) (G.map Prod.snd)
    (by simp [hG]) (by simpa [hG] using h0)
  rw [List.length_map, hG] at e hq
  have ql : q.length = N := by rw [hq.length_eq]; simp
  have bl : b.length = N := by rw [hsort.perm.length_eq, List.length_map, hG]
  have qlt : ∀ i (h : i < q.length), q[i] < N := fun i h => List.mem_range.1 (hq.mem_iff.1 (List.getElem_mem h))
  have hbf : ∀ i (h : i < q.length), b.getD i d.2 = (G.getD q[i] d).2 := by
    intro i h
    have := hb i h
    rw [List.getD_eq_getElem?_getD, this, List.getElem?_map, List.getD_eq_getElem?_getD, List.getElem?_eq_getElem (by have := qlt i h; omega)]
    rfl
  refine ⟨q, b, by simpa using e, ql, bl, qlt, fun i hi => by rw [← getElem_eq_getD (by omega) 0]; exact hbf i (by omega), fun n => bestOf_idx hG d ql hq (fun i j hj hij => ?_) (fun i j hj hij h => ?_) n⟩
  · rw [← hbf i (by omega), ← hbf j hj, ← getElem_eq_getD (by omega), ← getElem_eq_getD (by omega)]
    simpa using List.pairwise_iff_getElem.1 hsort.sorted i j (by omega) (by omega) hij
  · refine hstab i j hj hij fun x y hx hy => ?_
    have ex : x = b.getD i d.2 := by rw [List.getD_eq_getElem?_getD, hx]; rfl
    have ey : y = b.getD j d.2 := by rw [List.getD_eq_getElem?_getD, hy]; rfl
    rw [ex, ey, hbf i (by omega), hbf j hj, decide_eq_false_iff_not, not_lt]
    exact h

theorem ofInt_sym (F : Rounding) {x : Int} (h : Sym x) : FlList.ofInt F x = flSym x := by
  obtain ⟨h1, h2⟩ := sym_small (F := F) (x := x) (by rcases h with h | h <;> simp [h])
  exact Fl.ofQ_rep h1 h2

theorem bit_sym (p : Nat) : Sym (1 - 2 * ((p % 2 : Nat) : Int)) := by
  rcases Nat.mod_two_eq_zero_or_one p with h | h <;> rw [h]
  · exact Or.inl rfl
  · exact Or.inr rfl

/-- What `prune` keeps of the continuations `G`. -/
theorem pruneF_ok {F : Rounding} {U : Nat} {f m : List Fl} {G : List (List Int × WithTop ℚ)} (hL : 0 < L) (hU : L ≤ U) (hG : G.length = 2 * L) (hm : m.length = L)
    (hf : f = G.map fun a => metFl a.2) :
    ∃ m' map hrd, FlList.prune (L := L) F U f m = some (m', map, hrd) ∧ m'.length = L ∧ ∀ k : Fin L, map k < L ∧ ∃ b, Sym b ∧ hrd k = flSym b ∧
      ∃ p, p < 2 * L ∧ map k = p / 2 ∧ b = 1 - 2 * ((p % 2 : Nat) : Int) ∧ (bestOf L G)[k.val]? = G[p]? ∧ m'.getD k .nan = metFl (G.getD p ([], 0)).2 := by
  obtain ⟨q, b, e, ql, bl, qlt, hb, best⟩ := sort_best hG (by omega) ([], 0)
  have es : Verif.Sort.insertionSortIdx Fl.lt (id : Nat → Nat) (List.replicate (2 * L) 0) f (2 * L) = some (q, b.map metFl) := by
    have := insertionSortIdx_map (lt := Fl.lt) (lt' := fun a b : WithTop ℚ => decide (a < b)) metFl_lt (id : Nat → Nat) (List.replicate (2 * L) 0) (G.map Prod.snd) (2 * L)
    rw [e, List.map_map] at this
    rw [hf]; exact this
  have mlen : ∃ m', (forUp 0 L m fun k metric => do
      let m ← rd (b.map metFl) k
      wr metric k m) = some m' ∧ m'.length = L ∧ ∀ k, k < L → m'.getD k .nan = (b.map metFl).getD k .nan := by
    obtain ⟨m', h1, h2, h3⟩ : Ok _ (fun m' : List Fl => m'.length = L ∧ ∀ k, k < L → m'.getD k .nan = (b.map metFl).getD k .nan) := by
      refine forUp_inv (f := fun k metric => do
        let m ← rd (b.map metFl) k
        wr metric k m) (s := m) (fun j (a : List Fl) => a.length = L ∧ ∀ k, k < j → a.getD k .nan = (b.map metFl).getD k .nan) (Nat.zero_le L) ⟨hm, fun k hk => by omega⟩ ?_
      rintro j a _ hj ⟨a1, a2⟩
      rw [rd_of_lt (by rw [List.length_map]; omega), sb, wr_of_lt (by omega)]
      refine Ok.some ⟨by rw [List.length_set, a1], fun k hk => ?_⟩
      rw [getD_set]
      by_cases h : j = k
      · subst h; rw [if_pos ⟨rfl, by omega⟩, getElem_eq_getD _ .nan]
      · rw [if_neg (by tauto)]; exact a2 k (by omega)
    exact ⟨m', h1, h2, h3⟩
  obtain ⟨m', em, m1, m2⟩ := mlen
  have hodd : ∀ p : Nat, p &&& 1 = p % 2 := fun p => Nat.and_one_is_mod p
  have hp : ∀ k : Fin L, q.getD k 0 < 2 * L := fun k => by
    have h : k.val < q.length := by omega
    rw [← getElem_eq_getD h]; exact qlt _ h
  refine ⟨m', fun k => q.getD k 0 / 2, fun k => flSym (1 - 2 * ((q.getD k 0 % 2 : Nat) : Int)), ?_, m1, fun k => ?_⟩
  · unfold FlList.prune
    rw [es, sb, em, sb]
    rw [tab_of (g := fun k : Fin L => q.getD k 0 / 2) fun k => by
      have h : k.val < q.length := by omega
      dsimp only
      rw [rd_of_lt h, sb, getElem_eq_getD _ 0, Nat.shiftRight_one]
      have := hp k
      show some _ = some _
      rw [Nat.mod_eq_of_lt (by omega)], sb]
    rw [tab_of (g := fun k : Fin L => flSym (1 - 2 * ((q.getD k 0 % 2 : Nat) : Int))) fun k => by
      have h : k.val < q.length := by omega
      dsimp only
      rw [rd_of_lt h, sb, getElem_eq_getD _ 0, hodd, ofInt_sym F (bit_sym _)]
      rfl, sb]
    rfl
  · have hk := hp k
    refine ⟨by dsimp only; omega, _, bit_sym _, rfl, q.getD k 0, hk, rfl, rfl, ?_, ?_⟩
    · rw [best L, List.getElem?_map, List.getElem?_take_of_lt k.isLt, List.getElem?_eq_getElem (by omega), Option.map_some, getElem_eq_getD _ 0, List.getElem?_eq_getElem (by omega), getElem_eq_getD]
    · rw [m2 k k.isLt, getD_map' _ _ (0 : WithTop ℚ) Fl.nan (by omega), hb k (by omega)]

/-- The continuations and their places. -/
theorem forks_get {V : Type} (cost : List Int → P → V → Int → P) (sf : List Int → V) : ∀ (ps : List (List Int × P)) (p : Nat) (h : p / 2 < ps.length),
    (forks cost sf ps)[p]? = some ((ps[p / 2]).1 ++ [1 - 2 * ((p % 2 : Nat) : Int)], cost (ps[p / 2]).1 (ps[p / 2]).2 (sf (ps[p / 2]).1) (1 - 2 * ((p % 2 : Nat) : Int))) := by
  intro ps
  induction ps with
  | nil => intro p h; simp at h
  | cons a ps ih =>
    intro p h
    unfold forks at *
    rw [List.flatMap_cons]
    match p, h with
    | 0, _ => rfl
    | 1, _ => rfl
    | p + 2, h =>
      have h' : p / 2 < ps.length := by simp at h; omega
      have := ih p h'
      simp only [List.cons_append, List.nil_append, List.getElem?_cons_succ]
      rw [this]
      have e1 : (p + 2) / 2 = p / 2 + 1 := by omega
      have e2 : (p + 2) % 2 = p % 2 := by omega
      simp only [e1, e2, List.getElem_cons_succ]

end Verif.Polar
