import Verif.LDPC.Spec
import Verif.RS.Search
import Mathlib.Tactic.Ring
import Mathlib.Data.List.GetD
/- The first loop nest of both constructors. -/
namespace Verif.LDPC
open Verif.RS (sb)

/-- The body of the innermost loop for the address `x`, `bp` being `bit_pos`. -/
def place (T : Table) (s : List Nat × List Nat) (bp x : Nat) : Option (List Nat × List Nat) := do
  let n := x % T.q
  let m := x / T.q
  let c ← rd s.2 n
  let v := ((bp : Int) + ((T.M : Int) - (m : Int)).tmod T.M) % 65536
  let pos ← wr s.1 (T.CNC * n + c) v.toNat
  let cnc ← wr s.2 n ((c + 1) % 256)
  return (pos, cnc)

theorem forN_fold {σ : Type} (l : List Nat) (f : σ → Nat → Option σ) : ∀ (n i : Nat) (s : σ), i + n ≤ l.length →
    forN n i s (fun d s => do let x ← rd l d; f s x) = ((l.drop i).take n).foldlM f s := by
  intro n
  induction n with
  | zero => intro i s _; simp [forN]
  | succ n ih =>
    intro i s h
    rw [List.drop_eq_getElem_cons (by omega), List.take_succ_cons, List.foldlM_cons]
    unfold forN
    beta_reduce
    rw [rd_of_lt (show i < l.length by omega), sb]
    show (f s l[i]).bind _ = (f s l[i]).bind _
    congr 1
    funext s'
    exact ih (i + 1) s' (by omega)

theorem forN_shift {σ : Type} (g : Nat → σ → Option σ) (o : Nat) : ∀ (n i : Nat) (s : σ),
    forN n i s (fun d s => g (o + d) s) = forN n (o + i) s g := by
  intro n
  induction n with
  | zero => intro i s; rfl
  | succ n ih => intro i s; unfold forN; congr 1; funext s'; rw [ih]; rfl

theorem walkRow_eq (T : Table) (deg : Nat) (w : Walk) (h : w.row + deg ≤ T.POS.length) :
    walkRow T deg w = ((T.POS.drop w.row).take deg).foldlM (fun s x => place T s w.bit_pos x) (w.pos, w.cnc) := by
  have := forN_fold T.POS (fun (s : List Nat × List Nat) x => place T s w.bit_pos x) deg w.row (w.pos, w.cnc) h
  rw [← this, ← Nat.add_zero w.row, ← forN_shift]
  rfl

/-- The entries of rows `r, r+1, ...`, each with its row. -/
def run (T : Table) (s : List Nat × List Nat) (es : List (Nat × Nat)) : Option (List Nat × List Nat) :=
  es.foldlM (fun s e => place T s (T.M * e.1) e.2) s

theorem run_map (T : Table) (s : List Nat × List Nat) (r : Nat) (xs : List Nat) :
    run T s (xs.map fun x => (r, x)) = xs.foldlM (fun s x => place T s (T.M * r) x) s := by
  unfold run
  induction xs generalizing s with
  | nil => rfl
  | cons x xs ih =>
    rw [List.map_cons, List.foldlM_cons, List.foldlM_cons]
    congr 1
    funext s'
    exact ih s'

theorem run_append (T : Table) (s : List Nat × List Nat) (a b : List (Nat × Nat)) :
    run T s (a ++ b) = (run T s a).bind fun s => run T s b := by
  unfold run
  rw [List.foldlM_append]; rfl

theorem cut_append (ds es : List Nat) : ∀ (r : Nat) (pos : List Nat),
    cut r (ds ++ es) pos = cut r ds pos ++ cut (r + ds.length) es (pos.drop ds.sum) := by
  induction ds with
  | nil => intro r pos; simp [cut]
  | cons d ds ih =>
    intro r pos
    rw [List.cons_append, cut, cut, ih, List.append_assoc, List.sum_cons, List.length_cons, List.drop_drop,
      show r + 1 + ds.length = r + (ds.length + 1) by omega]

theorem walkGroup_eq (T : Table) (deg : Nat) : ∀ (len i : Nat) (w : Walk) (r : Nat), w.bit_pos = T.M * r →
    w.row + len * deg ≤ T.POS.length →
    (forN len i w fun _ w => do
      let s ← walkRow T deg w
      return (⟨s.1, s.2, w.bit_pos + T.M, w.row + deg⟩ : Walk)) =
    (run T (w.pos, w.cnc) (cut r (List.replicate len deg) (T.POS.drop w.row))).map fun s =>
      ⟨s.1, s.2, T.M * (r + len), w.row + len * deg⟩ := by
  intro len
  induction len with
  | zero => intro i w r h _; simp [forN, cut, run, ← h]
  | succ len ih =>
    intro i w r hb hr
    have hr' : w.row + deg + len * deg ≤ T.POS.length := by
      have : (len + 1) * deg = len * deg + deg := by ring
      omega
    unfold forN
    beta_reduce
    rw [List.replicate_succ, cut, run_append, run_map, walkRow_eq T deg w (by omega), hb]
    cases h : ((T.POS.drop w.row).take deg).foldlM (fun s x => place T s (T.M * r) x) (w.pos, w.cnc) with
    | none => rfl
    | some s =>
      simp only [sb, Option.bind_some]
      show (forN len (i + 1) (⟨s.1, s.2, T.M * r + T.M, w.row + deg⟩ : Walk) _) = _
      rw [ih (i + 1) _ (r + 1) (by show _ = _; ring) (by exact hr'), List.drop_drop]
      congr 1
      funext t
      rw [show r + 1 + len = r + (len + 1) by omega, show w.row + deg + len * deg = w.row + (len + 1) * deg by ring]

theorem walkGroups_eq (T : Table) : ∀ (f g : Nat) (w : Walk) (r : Nat), w.bit_pos = T.M * r →
    T.LEN.length < f + g → g ≤ T.LEN.length →
    ((T.LEN.drop g).takeWhile (· != 0)).length < (T.LEN.drop g).length →
    ((T.LEN.drop g).takeWhile (· != 0)).length ≤ (T.DEG.drop g).length →
    w.row + (degsOf (T.LEN.drop g) (T.DEG.drop g)).sum ≤ T.POS.length →
    (walkGroups T f g w).map (fun w => (w.pos, w.cnc)) =
      run T (w.pos, w.cnc) (cut r (degsOf (T.LEN.drop g) (T.DEG.drop g)) (T.POS.drop w.row)) := by
  intro f
  induction f with
  | zero => intro g w r _ h1 h2; omega
  | succ f ih =>
    intro g w r hb h1 h2 ht hd hp
    have hg : g < T.LEN.length := by
      by_contra hc
      rw [List.drop_eq_nil_of_le (by omega)] at ht
      simp at ht
    unfold walkGroups
    rw [rd_of_lt hg, sb]
    rw [List.drop_eq_getElem_cons hg] at ht hd hp ⊢
    by_cases hz : T.LEN[g] = 0
    · rw [if_pos hz, hz]
      simp [degsOf, cut, run]
    · rw [if_neg hz]
      rw [List.takeWhile_cons_of_pos (by simpa using hz)] at ht hd
      simp only [List.length_cons] at ht hd
      have hg2 : g < T.DEG.length := by
        by_contra hc
        rw [List.length_drop] at hd
        omega
      rw [rd_of_lt hg2, sb]
      rw [List.drop_eq_getElem_cons hg2] at hd hp ⊢
      obtain ⟨l, hl⟩ : ∃ l, T.LEN[g] = l + 1 := ⟨T.LEN[g] - 1, by omega⟩
      have hdeg : degsOf (T.LEN[g] :: T.LEN.drop (g + 1)) (T.DEG[g] :: T.DEG.drop (g + 1)) =
          List.replicate T.LEN[g] T.DEG[g] ++ degsOf (T.LEN.drop (g + 1)) (T.DEG.drop (g + 1)) := by
        rw [hl]; rfl
      rw [hdeg] at hp ⊢
      rw [List.sum_append, List.sum_replicate, smul_eq_mul] at hp
      rw [cut_append, List.length_replicate, List.sum_replicate, smul_eq_mul, List.drop_drop, run_append]
      have hG : walkGroup T T.DEG[g] T.LEN[g] w = _ := walkGroup_eq T T.DEG[g] T.LEN[g] 0 w r hb (by omega)
      rw [hG]
      cases h : run T (w.pos, w.cnc) (cut r (List.replicate T.LEN[g] T.DEG[g]) (T.POS.drop w.row)) with
      | none => rfl
      | some s =>
        simp only [Option.map_some, sb, Option.bind_some]
        simp only [List.length_cons] at ht hd
        rw [ih (g + 1) _ (r + T.LEN[g]) rfl (by omega) (by omega) (by omega) (by omega)
          (by dsimp only; omega)]

/-- The value stored in `pos` for an entry. -/
def val (T : Table) (e : Nat × Nat) : Nat := T.M * e.1 + (T.M - e.2 / T.q) % T.M

/-- The entries in residue class `n`. -/
def cls (T : Table) (n : Nat) (es : List (Nat × Nat)) : List (Nat × Nat) := es.filter fun e => e.2 % T.q == n

/-- The arrays after the entries `es`. -/
structure Placed (T : Table) (len : Nat) (es : List (Nat × Nat)) (s : List Nat × List Nat) : Prop where
  hl1 : s.1.length = len
  hl2 : s.2.length = T.q
  hc : ∀ n < T.q, s.2.getD n 0 = (cls T n es).length
  hv : ∀ n < T.q, ∀ c, c < (cls T n es).length → s.1.getD (T.CNC * n + c) 0 = val T ((cls T n es).getD c (0, 0))

theorem idx_inj {C n c n' c' : Nat} (h1 : c < C) (h2 : c' < C) (h : C * n + c = C * n' + c') : n = n' ∧ c = c' := by
  have e1 : (C * n + c) / C = n := by rw [Nat.mul_add_div (by omega), Nat.div_eq_of_lt h1, Nat.add_zero]
  have e2 : (C * n' + c') / C = n' := by rw [Nat.mul_add_div (by omega), Nat.div_eq_of_lt h2, Nat.add_zero]
  have : n = n' := by rw [← e1, ← e2, h]
  subst this
  exact ⟨rfl, by omega⟩

theorem place_ok (T : Table) (len : Nat) (es : List (Nat × Nat)) (s : List Nat × List Nat) (e : Nat × Nat)
    (hM : 0 < T.M) (hq : 0 < T.q) (hlen : T.CNC * T.q ≤ len) (h : Placed T len es s)
    (hb : ∀ n < T.q, (cls T n (es ++ [e])).length ≤ T.CNC) (hC : T.CNC ≤ 255)
    (he : e.2 / T.q < T.M) (hv : val T e < 65536) :
    Ok (place T s (T.M * e.1) e.2) (Placed T len (es ++ [e])) := by
  obtain ⟨hl1, hl2, hc, hvs⟩ := h
  have hn : e.2 % T.q < T.q := Nat.mod_lt _ hq
  have hcl : ∀ n, cls T n (es ++ [e]) = if e.2 % T.q = n then cls T n es ++ [e] else cls T n es := by
    intro n
    unfold cls
    rw [List.filter_append]
    by_cases h : e.2 % T.q = n <;> simp [h]
  have hb' := hb _ hn
  rw [hcl, if_pos rfl, List.length_append, List.length_singleton] at hb'
  have hcn := hc _ hn
  unfold place
  dsimp only
  rw [rd_of_lt (by omega), sb, getElem_eq_getD _ 0, hcn]
  have hidx : T.CNC * (e.2 % T.q) + (cls T (e.2 % T.q) es).length < len := by
    have : T.CNC * (e.2 % T.q) + T.CNC ≤ T.CNC * T.q := by
      rw [← Nat.mul_succ]; exact Nat.mul_le_mul_left _ hn
    omega
  rw [wr_of_lt (by omega), sb, wr_of_lt (by omega), sb]
  have hval : ((((T.M * e.1 : Nat) : Int) + ((T.M : Int) - ((e.2 / T.q : Nat) : Int)).tmod T.M) % 65536).toNat = val T e := by
    have h1 : ((T.M : Int) - ((e.2 / T.q : Nat) : Int)).tmod T.M = (((T.M - e.2 / T.q) % T.M : Nat) : Int) := by
      rw [← Int.ofNat_sub (by omega), ← Int.ofNat_tmod]
    rw [h1]
    have h2 : ((T.M * e.1 : Nat) : Int) + (((T.M - e.2 / T.q) % T.M : Nat) : Int) = ((val T e : Nat) : Int) := by
      unfold val; rw [Nat.cast_add]
    rw [h2]
    omega
  rw [hval]
  refine Ok.some ⟨by simp [hl1], by simp [hl2], fun n hn' => ?_, fun n hn' c hc' => ?_⟩
  · dsimp only
    rw [getD_set, hcl, hc n hn']
    by_cases h : e.2 % T.q = n
    · rw [if_pos ⟨h, by omega⟩, if_pos h, List.length_append, List.length_singleton, ← h]
      exact Nat.mod_eq_of_lt (by omega)
    · rw [if_neg (fun h' => h h'.1), if_neg h]
  · dsimp only
    rw [getD_set]
    have hcb : c < T.CNC := by have := hb n hn'; omega
    rw [hcl] at hc' ⊢
    by_cases h : e.2 % T.q = n
    · rw [if_pos h] at hc' ⊢
      rw [List.length_append, List.length_singleton] at hc'
      by_cases h3 : c = (cls T n es).length
      · rw [if_pos ⟨by rw [h, h3], by rw [hl1]; exact hidx⟩, h3, List.getD_append_right _ _ _ _ (by omega)]
        simp
      · rw [if_neg (by rintro ⟨h4, _⟩; rw [h] at h4; omega), List.getD_append _ _ _ _ (by omega)]
        exact hvs n hn' c (by omega)
    · rw [if_neg h] at hc' ⊢
      rw [if_neg (by
        rintro ⟨h4, _⟩
        exact h (idx_inj (by omega) hcb h4).1)]
      exact hvs n hn' c hc'

theorem run_ok (T : Table) (len : Nat) (hM : 0 < T.M) (hq : 0 < T.q) (hlen : T.CNC * T.q ≤ len) (hC : T.CNC ≤ 255) :
    ∀ (fs es : List (Nat × Nat)) (s : List Nat × List Nat), Placed T len es s →
    (∀ n < T.q, (cls T n (es ++ fs)).length ≤ T.CNC) → (∀ e ∈ fs, e.2 / T.q < T.M ∧ val T e < 65536) →
    Ok (run T s fs) (Placed T len (es ++ fs)) := by
  intro fs
  induction fs with
  | nil => intro es s h _ _; rw [List.append_nil]; exact Ok.some h
  | cons e fs ih =>
    intro es s h hb hv
    show Ok ((place T s (T.M * e.1) e.2).bind fun s => run T s fs) _
    refine Ok.bind (place_ok T len es s e hM hq hlen h (fun n hn => ?_) hC (hv e (by simp)).1 (hv e (by simp)).2) fun s' hs' => ?_
    · refine le_trans ?_ (hb n hn)
      unfold cls
      simp only [List.filter_append, List.filter_cons, List.filter_nil, List.length_append]
      split <;> simp
    · have := ih (es ++ [e]) s' hs' (by simpa using hb) (fun e' he' => hv e' (by simp [he']))
      simpa using this

theorem cut_snd (ds : List Nat) : ∀ (r : Nat) (pos : List Nat), (cut r ds pos).map Prod.snd = pos.take ds.sum := by
  induction ds with
  | nil => intro r pos; simp [cut]
  | cons d ds ih =>
    intro r pos
    rw [cut, List.map_append, ih, List.map_map, List.sum_cons, List.take_add]
    congr 1
    simp

theorem cut_fst (ds : List Nat) : ∀ (r : Nat) (pos : List Nat), ∀ e ∈ cut r ds pos, r ≤ e.1 ∧ e.1 < r + ds.length := by
  induction ds with
  | nil => intro r pos e he; simp [cut] at he
  | cons d ds ih =>
    intro r pos e he
    rw [cut, List.mem_append] at he
    rcases he with he | he
    · obtain ⟨x, _, rfl⟩ := List.mem_map.1 he
      simp
    · have := ih _ _ e he
      simp only [List.length_cons]
      omega

theorem cls_length (T : Table) (n : Nat) : (cls T n T.entries).length = (T.POS.take T.degs.sum).countP (· % T.q == n) := by
  unfold cls Table.entries
  rw [← cut_snd T.degs 0 T.POS, List.countP_map, List.countP_eq_length_filter]
  rfl

theorem entry_bounds {T : Table} (h : T.WF) {e : Nat × Nat} (he : e ∈ T.entries) :
    e.1 < T.K / T.M ∧ e.2 < T.R ∧ e.2 / T.q < T.M ∧ val T e < T.K := by
  have h1 := (cut_fst _ _ _ e he).2
  have h2 : e.2 < T.R := by
    apply h.hx
    rw [← cut_snd T.degs 0 T.POS]
    exact List.mem_map_of_mem he
  have h3 : e.2 / T.q < T.M := by
    rw [Nat.div_lt_iff_lt_mul h.hq, Nat.mul_comm, ← h.hR]; exact h2
  rw [h.hrows, Nat.zero_add] at h1
  refine ⟨h1, h2, h3, ?_⟩
  unfold val
  have h4 := Nat.mod_lt (T.M - e.2 / T.q) h.hM
  have h5 : T.M * e.1 + T.M ≤ T.M * (T.K / T.M) := by rw [← Nat.mul_succ]; exact Nat.mul_le_mul_left _ h1
  rw [← h.hK] at h5
  omega

theorem walk_ok {T : Table} (h : T.WF) (pos0 cnc0 : List Nat) (hp : T.CNC * T.q ≤ pos0.length) (hc : cnc0.length = T.q) :
    Ok (walk T pos0 cnc0) fun w => Placed T pos0.length T.entries (w.pos, w.cnc) := by
  unfold walk
  rw [forUp_fill (g := fun _ => 0) (by omega) (fun j l hj hl => by rw [wr_of_lt (by omega)]), sb,
    List.drop_eq_nil_of_le (by omega), List.append_nil]
  have hr := run_ok T pos0.length h.hM h.hq hp (by have := h.hCNC; omega) T.entries [] (pos0, (List.range T.q).map fun _ => 0)
    ⟨rfl, by simp, fun n hn => by simp [cls, hn], fun n hn c hc => by simp [cls] at hc⟩
    (fun n hn => by
      rw [List.nil_append, cls_length]
      exact (h.hcnt n hn).2)
    (fun e he => ⟨(entry_bounds h he).2.2.1, lt_of_lt_of_le (entry_bounds h he).2.2.2 h.hK16⟩)
  rw [List.nil_append] at hr
  have hw := walkGroups_eq T (T.LEN.length + 1) 0 ⟨pos0, (List.range T.q).map fun _ => 0, 0, 0⟩ 0 (by simp) (by omega) (by omega)
    (by simpa using h.hterm) (by simpa using h.hdeg) (by simpa [Table.degs] using h.hpos)
  simp only [List.drop_zero] at hw
  obtain ⟨s, hs1, hs2⟩ := hr
  rw [show run T (pos0, (List.range T.q).map fun _ => 0) (cut 0 (degsOf T.LEN T.DEG) T.POS) = some s from hs1] at hw
  obtain ⟨w, hw1, hw2⟩ := Option.map_eq_some_iff.1 hw
  exact ⟨w, hw1, by dsimp only at hw2 ⊢; rw [hw2]; exact hs2⟩

end Verif.LDPC
