import Verif.Polar.Lanes
/- The induction over the code tree for list decoders. -/
namespace Verif.Polar
open PolarHelper (I8 prodV maddV qmulV)
open Verif.RS (sb)
variable {L : Nat} {X C Q : Type}

theorem T_map {α β : Type} {q : α → α → α} {q' : β → β → β} {g : α → β} (hg : ∀ a b, g (q a b) = q' (g a) (g b)) :
    ∀ (M : Nat) (l : List α), T q' M (l.map g) = (T q M l).map g := by
  intro M
  induction M with
  | zero => intro l; rfl
  | succ M ih =>
    intro l
    rw [T, T, ← List.map_take, ← List.map_drop, ih, ih, List.map_append]
    congr 1
    rw [List.map_zipWith, List.zipWith_map]
    simp only [hg]

theorem ln_T (k : Fin L) (M : Nat) (U : List (Reg L)) : ln k (T (phV L).qmul M U) = T qmulV M (ln k U) :=
  (T_map (g := fun r : Reg L => r k) (fun _ _ => rfl) M U).symm

theorem ln_length (k : Fin L) (l : List (Reg L)) : (ln k l).length = l.length := by simp [ln]

theorem ln_take (k : Fin L) (l : List (Reg L)) (n : Nat) : ln k (l.take n) = (ln k l).take n := by simp [ln, List.map_take]
theorem ln_drop (k : Fin L) (l : List (Reg L)) (n : Nat) : ln k (l.drop n) = (ln k l).drop n := by simp [ln, List.map_drop]
theorem ln_append (k : Fin L) (a b : List (Reg L)) : ln k (a ++ b) = ln k a ++ ln k b := by simp [ln]

theorem ln_prod (k : Fin L) (a b : List (Reg L)) : ln k (List.zipWith (phV L).prod a b) = List.zipWith prodV (ln k a) (ln k b) := by
  unfold ln
  rw [List.map_zipWith, List.zipWith_map]
  rfl

theorem ln_zip3 (k : Fin L) (a b c : List (Reg L)) : ln k (zip3 (phV L).madd a b c) = zip3 maddV (ln k a) (ln k b) (ln k c) := by
  unfold ln zip3
  refine List.ext_getElem (by simp) fun i h1 h2 => ?_
  simp [phV]

theorem ln_shuf {m : LMap L} (hv : ∀ k, m k < L) (k : Fin L) (l : List (Reg L)) : ln k (l.map (shuf 0 · m)) = ln ⟨m k, hv k⟩ l := by
  unfold ln
  rw [List.map_map]
  refine List.map_congr_left fun a _ => ?_
  simp [shuf, hv k]

theorem T_shuf {m : LMap L} (hv : ∀ k, m k < L) (M : Nat) (U : List (Reg L)) :
    T (phV L).qmul M (U.map (shuf 0 · m)) = (T (phV L).qmul M U).map (shuf 0 · m) :=
  T_map (fun a b => by funext k; simp [shuf, hv k, phV]) M U

theorem ln_getD (k : Fin L) (l : List (Reg L)) {i : Nat} (d : Reg L) (d' : Int) (h : i < l.length) : (ln k l).getD i d' = l.getD i d k := by
  unfold ln
  rw [getD_map' _ _ d d' h]

theorem vprod_range (a b : Int) : I8 (prodV a b) := by
  unfold prodV PolarHelper.vsign; exact PolarHelper.t8_range _

theorem vmadd_range (a b c : Int) : I8 (maddV a b c) := by
  unfold maddV PolarHelper.vmax PolarHelper.vqadd
  have := PolarHelper.t8_range (min (max (PolarHelper.vsign (max b (-127)) a + c) (-128)) 127)
  generalize PolarHelper.t8 (min (max (PolarHelper.vsign (max b (-127)) a + c) (-128)) 127) = z at *
  unfold I8 at *
  omega

theorem negs_zero {s : List Int} (h : ∀ a ∈ s, 0 ≤ a) : negs s = 0 := by
  unfold negs
  refine List.sum_eq_zero fun x hx => ?_
  obtain ⟨a, ha, rfl⟩ := List.mem_map.1 hx
  have := h a ha
  unfold neg; omega

theorem negs_nonneg (s : List Int) : 0 ≤ negs s := by
  unfold negs
  refine List.sum_nonneg fun x hx => ?_
  obtain ⟨a, _, rfl⟩ := List.mem_map.1 hx
  unfold neg; omega

theorem src_of [NeZero L] {m : LMap L} (h : ∀ k, m k < L) (k : Fin L) : src m k = ⟨m k, h k⟩ := by unfold src; rw [dif_pos (h k)]

theorem src_id [NeZero L] (k : Fin L) : src (fun k : Fin L => k.val) k = k := src_of (fun k => k.isLt) k

/-- Renaming the paths does not change which are kept. -/
theorem keep_map {α β α' β' : Type} (n : Nat) (g : α × β × Int → α' × β' × Int) (hg : ∀ a, (g a).2.2 = a.2.2) (l : List (α × β × Int)) :
    keep n (l.map g) = (keep n l).map g := by
  unfold keep
  rw [List.map_take, List.map_mergeSort]
  intro a _ b _
  rw [hg, hg]

/-- A node whose positions are all frozen. -/
theorem run_frozen [NeZero L] {A : Lf L X C Q} {W : Walk (Reg L) (LMap L) X} {N : Nodes (Reg L) (LMap L) X} (ok : LfOk A W N) {M : Nat} (hM : M ≤ 5)
    {f : List Bool} {x : X} {s : List (Reg L)} {n : Nat} {B : Int} (hf : f.length = 2 ^ M) (hs : s.length = 2 ^ M) (h8 : ∀ a ∈ s, ∀ k, I8 (a k))
    (hinv : A.Inv (cnt f + n) B x) (hB : B + 128 * 2 ^ M < 2 ^ 31) (hall : f.all (fun b => b) = true) :
    ∃ r, N.r0 M x s = some r ∧ A.Inv n (B + 128 * 2 ^ M) r.1 ∧ ∃ U, Run A M f x s r U := by
  rw [cnt_all hall, zero_add] at hinv
  obtain ⟨x', e, i', c', t', m'⟩ := ok.r0 M x s n B hM hs h8 hinv hB
  refine ⟨_, e, i', List.replicate (2 ^ M) (phV L).one, ?_⟩
  have hcost : ∀ c p μ u (k : Fin L), A.cost M f c p μ (ln k s) u = μ + negs (ln k s) := by
    intro c p μ u k
    cases M with
    | zero => rw [Lf.cost, if_pos hall]
    | succ M => rw [Lf.cost, if_pos ⟨hM, hall⟩]
  exact {
    len := by simp
    sym := by
      intro a ha k
      rw [List.eq_of_mem_replicate ha]; exact Or.inl rfl
    obeys := by
      refine ⟨by simp [hf], fun i _ => ?_⟩
      by_cases hi : i < 2 ^ M
      · rw [getD_replicate' _ _ _ hi]
      · rw [List.getD_eq_default _ _ (by simpa using hi)]
    hard := ((lawsV L).T_one M).symm
    ctl := by rw [cnt_all hall]; exact c'
    inj := fun k k' h _ => Fin.ext h
    lanes := ⟨fun k => k.isLt, fun k => by rw [path_all _ _ _ _ _ hall, t'], fun k => by rw [hcost, m' k]⟩
    sorted := by
      intro h
      exfalso
      have hmem := List.mem_of_getLast? h
      have := List.all_eq_true.1 hall _ hmem
      simp at this
    truth := by
      intro u hu ho _ hsg h0 h1
      have hu1 : u = List.replicate (2 ^ M) 1 := by
        have := ho.all hall
        rwa [← ho.1, hf] at this
      have hn : negs (ln 0 s) = 0 := by
        apply negs_zero
        intro a ha
        obtain ⟨i, hi, rfl⟩ := List.mem_iff_getElem.1 ha
        have := hsg.2 i hi
        have hT : T qmulV M u = List.replicate (2 ^ M) 1 := by
          rw [hu1]
          have := (lawsV 1).T_one M
          have := congrArg (ln 0) this
          rw [ln_T] at this
          simpa [ln, phV] using this
        rw [hT, getD_replicate' _ _ _ (by rw [ln_length, hs] at hi; exact hi), ← getElem_eq_getD hi] at this
        obtain ⟨_, h | h⟩ := this
        · exact h.2.le
        · omega
      refine ⟨rfl, ?_, by rw [m' 0, h0, hn]; rfl, fun k hk => ?_⟩
      · rw [hu1]; simp [ln, phV]
      · have := negs_nonneg (ln k s)
        have := h1 k hk
        have := m' k
        dsimp only
        omega
    exact := by
      intro p W sf hW hsf
      have e2 : ∀ ps : List (List Int × Q × Int), A.node M f (A.ctl x) p sf ps = ps.map fun a => (a.1 ++ List.replicate (2 ^ M) 1, a.2.1, a.2.2 + negs (sf a.1)) := by
        intro ps
        cases M with
        | zero => rw [Lf.node, if_pos hall]; rfl
        | succ M => rw [Lf.node, if_pos ⟨hM, hall⟩]
      rw [e2, List.map_ofFn]
      congr 1
      funext k
      have hk := hsf k []
      rw [List.append_nil] at hk
      dsimp only [Function.comp]
      rw [src_id, t', m' k, hk]
      simp [ln, phV] }

/-- A leaf that is not frozen. -/
theorem run_leaf [NeZero L] {A : Lf L X C Q} {W : Walk (Reg L) (LMap L) X} {N : Nodes (Reg L) (LMap L) X} (ok : LfOk A W N) 
    {x : X} {v : Reg L} {n : Nat} {B : Int} (h8 : ∀ k, I8 (v k)) (hinv : A.Inv (cnt [false] + n) B x) (hB : B + 128 * 2 ^ 0 < 2 ^ 31) :
    ∃ r, N.r1 0 x [v] = some r ∧ A.Inv n (B + 128 * 2 ^ 0) r.1 ∧ ∃ U, Run A 0 [false] x [v] r U := by
  rw [show cnt [false] = 1 from rfl, add_comm] at hinv
  rw [pow_zero, mul_one] at hB ⊢
  obtain ⟨x', h, m, e, i', c', hs, hv, htr, hmet, hinj, hsort, hbest, hkeep⟩ := ok.r1 x v n B h8 hinv hB
  refine ⟨_, e, i', [h], ?_⟩
  exact {
    len := rfl
    sym := by
      intro a ha k
      rw [List.mem_singleton.1 ha]; exact hs k
    obeys := by
      refine ⟨rfl, fun i hi => ?_⟩
      rcases i with _ | i
      · simp at hi
      · simp at hi
    hard := rfl
    ctl := c'
    inj := fun k k' h1 h2 => hinj k k' h1 (by simpa [ln] using h2)
    lanes := ⟨hv, fun k => by rw [htr k]; rfl, fun k => by rw [hmet k]; rfl⟩
    sorted := fun _ => hsort
    truth := by
      intro u hu ho hg hsg h0 h1
      obtain ⟨b, rfl⟩ : ∃ b, u = [b] := List.length_eq_one_iff.1 ho.1.symm
      have hb : Sym b := hu b (by simp)
      have hg : A.good (A.ctl x) (A.tr x 0) b := hg.1
      have hsg : SignOf (v 0) b := hsg.2 0 (by simp [ln])
      -- every continuation other than the right one is at least 1
      have hpos : ∀ (j : Fin L) b', Sym b' → ¬ (j = 0 ∧ b' = b) → 1 ≤ A.new (A.ctl x) (A.tr x j) (A.met x j) (v j) b' := by
        intro j b' hb' hne
        by_cases hj : j = 0
        · subst hj
          rw [h0]
          exact ok.new_bad _ _ _ b b' hb hb' (fun h => hne ⟨rfl, h⟩) hg hsg
        · exact ok.new_pos _ _ _ _ _ (h8 j) hb' (h1 j hj)
      have hgood : A.new (A.ctl x) (A.tr x 0) (A.met x 0) (v 0) b = 0 := by rw [h0]; exact ok.new_good _ _ _ _ hg hsg
      have hkept : ∃ k, m k = (0 : Fin L).val ∧ h k = b := by
        by_contra hno
        push Not at hno
        have := hbest 0 b hb (fun k hk => hno k hk.1 hk.2) 0
        rw [hgood, hmet 0] at this
        have := hpos ⟨m 0, hv 0⟩ (h 0) (hs 0) (fun hk => hno 0 (by have := congrArg Fin.val hk.1; simpa using this) hk.2)
        omega
      obtain ⟨k0, hk0, hk0'⟩ := hkept
      have hk0f : (⟨m k0, hv k0⟩ : Fin L) = 0 := Fin.ext hk0
      have hm0 : A.met x' k0 = 0 := by rw [hmet k0, hk0f, hk0', hgood]
      have hle : A.met x' 0 ≤ 0 := by rw [← hm0]; exact hsort 0 k0 (Fin.zero_le _)
      have h00 : (⟨m 0, hv 0⟩ : Fin L) = 0 ∧ h 0 = b := by
        by_contra hno
        have := hpos ⟨m 0, hv 0⟩ (h 0) (hs 0) hno
        rw [← hmet 0] at this
        omega
      have hz : m 0 = 0 := by simpa using congrArg Fin.val h00.1
      have hk00 : k0 = 0 := hinj k0 0 (by rw [hk0, hz]; rfl) (by rw [hk0', h00.2])
      refine ⟨hz, ?_, ?_, fun k hk => ?_⟩
      · simp [ln, h00.2]
      · rw [← hk00]; exact hm0
      · show 1 ≤ A.met x' k
        rw [hmet k]
        refine hpos _ _ (hs k) fun hno => hk ?_
        refine hinj k 0 ?_ ?_
        · have := congrArg Fin.val hno.1
          rw [hz]; simpa using this
        · rw [hno.2, h00.2]
    exact := by
      intro p W sf hW hsf
      have hk : ∀ k, sf (W k) = [v k] := fun k => by simpa [ln] using hsf k []
      rw [Lf.node, if_neg (by simp)]
      have e1 : ((List.ofFn fun k => (W k, A.tr x k, A.met x k)).flatMap fun a =>
          [(a.1 ++ [1], A.upd (A.ctl x) a.2.1 1, A.new (A.ctl x) a.2.1 a.2.2 ((sf a.1).headD 0) 1), (a.1 ++ [-1], A.upd (A.ctl x) a.2.1 (-1), A.new (A.ctl x) a.2.1 a.2.2 ((sf a.1).headD 0) (-1))]) =
          (A.conts x v).map fun a => (W a.1 ++ [a.2.1], A.upd (A.ctl x) (A.tr x a.1) a.2.1, a.2.2) := by
        unfold Lf.conts
        rw [List.ofFn_eq_map, List.flatMap_map, List.map_flatMap]
        congr 1
        funext k
        simp [hk k]
      rw [e1, keep_map L (fun a : Fin L × Int × Int => (W a.1 ++ [a.2.1], A.upd (A.ctl x) (A.tr x a.1) a.2.1, a.2.2)) (fun _ => rfl), ← hkeep, List.map_ofFn]
      congr 1
      funext k
      dsimp only [Function.comp]
      rw [htr k, src_of hv]
      simp [ln] }

/-- The statement proved by induction. -/
def RunAt [NeZero L] (A : Lf L X C Q) (M : Nat) (F : List Bool → X → List (Reg L) → Option (X × List (Reg L) × LMap L)) : Prop :=
  ∀ (f : List Bool) (x : X) (s : List (Reg L)) (n : Nat) (B : Int), f.length = 2 ^ M → s.length = 2 ^ M → (∀ a ∈ s, ∀ k, I8 (a k)) →
    A.Inv (cnt f + n) B x → B + 128 * 2 ^ M < 2 ^ 31 →
    ∃ r, F f x s = some r ∧ A.Inv n (B + 128 * 2 ^ M) r.1 ∧ ∃ U, Run A M f x s r U

theorem qmulV_one {x : Int} (h : Sym x) : qmulV x 1 = x := by rw [qmulV_sym h (Or.inl rfl), mul_one]

theorem T_sym (M : Nat) (u : List Int) (hu : ∀ a ∈ u, Sym a) : ∀ a ∈ T qmulV M u, Sym a := by
  have h := T_hard (lawsV 1) M (u.map fun a _ => a) (by
    intro x hx k
    obtain ⟨a, ha, rfl⟩ := List.mem_map.1 hx
    exact hu a ha)
  rw [T_map (q := qmulV) (g := fun a (_ : Fin 1) => a) (fun a b => rfl)] at h
  intro a ha
  exact h _ (List.mem_map_of_mem ha) 0

theorem zip3_range (a b c : List (Reg L)) : ∀ r ∈ zip3 (phV L).madd a b c, ∀ k, I8 (r k) := by
  intro r hr k
  unfold zip3 at hr
  obtain ⟨i, hi, rfl⟩ := List.mem_iff_getElem.1 hr
  rw [List.getElem_zipWith]
  exact vmadd_range _ _ _

set_option maxHeartbeats 2000000 in
theorem run_node [NeZero L] {A : Lf L X C Q} {W : Walk (Reg L) (LMap L) X} {N : Nodes (Reg L) (LMap L) X} (ok : LfOk A W N) {M : Nat}
    (ih : RunAt A M (childF W N (fun _ => treeF W N M) M))
    (f : List Bool) (x : X) (s : List (Reg L)) (n : Nat) (B : Int) (hf : f.length = 2 ^ (M + 1)) (hs : s.length = 2 ^ (M + 1)) (h8 : ∀ a ∈ s, ∀ k, I8 (a k))
    (hinv : A.Inv (cnt f + n) B x) (hB : B + 128 * 2 ^ (M + 1) < 2 ^ 31) (hno : ¬ (M + 1 ≤ 5 ∧ f.all (fun b => b) = true)) :
    ∃ r, treeF W N (M + 1) f x s = some r ∧ A.Inv n (B + 128 * 2 ^ (M + 1)) r.1 ∧ ∃ U, Run A (M + 1) f x s r U := by
  have e := two_pow_succ' M
  have eZ : (2 : Int) ^ (M + 1) = 2 ^ M + 2 ^ M := by rw [pow_succ]; ring
  have hZ : (0 : Int) < 2 ^ M := by positivity
  have hf1 : (f.take (2 ^ M)).length = 2 ^ M := by simp [hf, e]
  have hf2 : (f.drop (2 ^ M)).length = 2 ^ M := by simp [hf, e]
  have es1 : (s.take (2 ^ M)).length = 2 ^ M := by simp [hs, e]
  have es2 : (s.drop (2 ^ M)).length = 2 ^ M := by simp [hs, e]
  rw [cnt_split f (2 ^ M), add_assoc] at hinv
  -- the left child
  obtain ⟨l, hl, il, Ul, rl⟩ := ih (f.take (2 ^ M)) x (List.zipWith (phV L).prod (s.take (2 ^ M)) (s.drop (2 ^ M))) _ B hf1
    (by simp [es1, es2]) (by
      intro a ha k
      obtain ⟨i, hi, rfl⟩ := List.mem_iff_getElem.1 ha
      rw [List.getElem_zipWith]
      exact vprod_range _ _) hinv (by omega)
  obtain ⟨hvl, trl, metl⟩ := rl.lanes
  have tl : (T (phV L).qmul M Ul).length = 2 ^ M := T_length _ _ _ rl.len
  -- the right child
  set s2 := zip3 (phV L).madd (T (phV L).qmul M Ul) ((s.take (2 ^ M)).map (shuf 0 · l.2.2)) ((s.drop (2 ^ M)).map (shuf 0 · l.2.2)) with hs2
  obtain ⟨r, hr, ir, Ur, rr⟩ := ih (f.drop (2 ^ M)) l.1 s2 n (B + 128 * 2 ^ M) hf2
    (by rw [hs2, zip3_length, List.length_map, List.length_map, es1, es2, tl]; simp) (zip3_range _ _ _) il (by omega)
  obtain ⟨hvr, trr, metr⟩ := rr.lanes
  have tr' : (T (phV L).qmul M Ur).length = 2 ^ M := T_length _ _ _ rr.len
  refine ⟨(r.1, List.zipWith W.qmul (l.2.1.map (W.vshuf · r.2.2)) r.2.1 ++ r.2.1, W.comp l.2.2 r.2.2), ?_, ?_, Ul.map (shuf 0 · r.2.2) ++ Ur, ?_⟩
  · rw [treeF, ok.prod, hl, sb]
    rw [ok.madd, ok.vshuf, rl.hard, ← hs2, hr]
    rfl
  · dsimp only
    rw [eZ]
    have e3 : B + 128 * (2 ^ M + 2 ^ M) = B + 128 * 2 ^ M + 128 * 2 ^ M := by ring
    rw [e3]; exact ir
  · have hcomp : ∀ k, W.comp l.2.2 r.2.2 k = l.2.2 ⟨r.2.2 k, hvr k⟩ := fun k => by
      rw [ok.comp]; simp [shuf, hvr k]
    have hlnU : ∀ k, ln k (Ul.map (shuf 0 · r.2.2) ++ Ur) = ln ⟨r.2.2 k, hvr k⟩ Ul ++ ln k Ur := fun k => by
      rw [ln_append, ln_shuf hvr]
    have hUl : ∀ k, (ln k Ul).length = 2 ^ M := fun k => by rw [ln_length, rl.len]
    have hln1 : ∀ k, (ln k (Ul.map (shuf 0 · r.2.2) ++ Ur)).take (2 ^ M) = ln ⟨r.2.2 k, hvr k⟩ Ul := fun k => by
      rw [hlnU, List.take_left' (hUl _)]
    have hln2 : ∀ k, (ln k (Ul.map (shuf 0 · r.2.2) ++ Ur)).drop (2 ^ M) = ln k Ur := fun k => by
      rw [hlnU, List.drop_left' (hUl _)]
    have hfa : ∀ k j, A.path f (A.ctl x) (A.tr x j) (ln k (Ul.map (shuf 0 · r.2.2) ++ Ur)) =
        A.path (f.drop (2 ^ M)) (A.step^[cnt (f.take (2 ^ M))] (A.ctl x)) (A.path (f.take (2 ^ M)) (A.ctl x) (A.tr x j) (ln ⟨r.2.2 k, hvr k⟩ Ul)) (ln k Ur) := by
      intro k j
      rw [hlnU]
      conv_lhs => rw [← List.take_append_drop (2 ^ M) f]
      exact path_append A _ _ _ _ _ _ (by rw [hf1, hUl])
    have hs2ln : ∀ j, ln j s2 = zip3 maddV (T qmulV M (ln j Ul)) ((ln ⟨l.2.2 j, hvl j⟩ s).take (2 ^ M)) ((ln ⟨l.2.2 j, hvl j⟩ s).drop (2 ^ M)) := by
      intro j
      rw [hs2, ln_zip3, ln_T, ln_shuf hvl, ln_shuf hvl, ln_take, ln_drop]
    exact {
      len := by rw [List.length_append, List.length_map, rl.len, rr.len, e]
      sym := by
        intro a ha k
        rcases List.mem_append.1 ha with ha | ha
        · obtain ⟨b, hb, rfl⟩ := List.mem_map.1 ha
          simp only [shuf, hvr k, dite_true]
          exact rl.sym b hb _
        · exact rr.sym a ha k
      obeys := by
        refine ⟨by rw [hf, List.length_append, List.length_map, rl.len, rr.len, e], fun i hi => ?_⟩
        by_cases hi' : i < 2 ^ M
        · rw [List.getD_append _ _ _ _ (by rw [List.length_map, rl.len]; exact hi'), getD_map' _ _ (phV L).one _ (by rw [rl.len]; exact hi'),
            rl.obeys.2 i (by rw [getD_take_lt hi']; exact hi)]
          funext k; simp [shuf, hvr k, phV]
        · rw [List.getD_append_right _ _ _ _ (by rw [List.length_map, rl.len]; omega), List.length_map, rl.len]
          apply rr.obeys.2
          rw [getD_drop', Nat.add_sub_cancel' (by omega)]; exact hi
      hard := by
        have t1 : (Ul.map (shuf 0 · r.2.2)).length = 2 ^ M := by rw [List.length_map, rl.len]
        dsimp only
        rw [T, List.take_left' t1, List.drop_left' t1, T_shuf hvr, ok.qmul, ok.vshuf, rl.hard, rr.hard]
      ctl := by
        dsimp only
        rw [rr.ctl, rl.ctl, cnt_split f (2 ^ M), add_comm, Function.iterate_add_apply]
      inj := by
        intro k k' h1 h2
        rw [hlnU, hlnU] at h2
        obtain ⟨h2, h3⟩ := List.append_inj h2 (by rw [hUl, hUl])
        dsimp only at h1
        rw [hcomp, hcomp] at h1
        have := rl.inj _ _ h1 h2
        exact rr.inj k k' (congrArg Fin.val this) h3
      lanes := by
        refine ⟨fun k => by dsimp only; rw [hcomp]; exact hvl _, fun k => ?_, fun k => ?_⟩
        · dsimp only
          rw [hfa, trr k, rl.ctl, trl]
          simp only [hcomp]
        · dsimp only
          rw [Lf.cost, if_neg hno, hln1, hln2, metr k, rl.ctl, trl, metl, hs2ln, ln_prod, ln_take, ln_drop]
          simp only [hcomp]
      sorted := by
        intro h
        refine rr.sorted ?_
        rw [List.getLast?_drop, if_neg (by rw [hf, e]; have := Nat.two_pow_pos M; omega)]; exact h
      truth := by
        intro u hu ho hg hsg h0 h1
        have hul : u.length = 2 ^ (M + 1) := by rw [← ho.1, hf]
        have l1 : (u.take (2 ^ M)).length = 2 ^ M := by simp [hul, e]
        have l2 : (u.drop (2 ^ M)).length = 2 ^ M := by simp [hul, e]
        have hu1 : ∀ a ∈ u.take (2 ^ M), Sym a := fun a ha => hu a (List.mem_of_mem_take ha)
        have hu2 : ∀ a ∈ u.drop (2 ^ M), Sym a := fun a ha => hu a (List.mem_of_mem_drop ha)
        have t1 := T_length qmulV M _ l1
        have t2 := T_length qmulV M _ l2
        have tz : (List.zipWith qmulV (T qmulV M (u.take (2 ^ M))) (T qmulV M (u.drop (2 ^ M)))).length = 2 ^ M := by simp [t1, t2]
        have hd1 : ∀ i, i < 2 ^ M → Sym ((T qmulV M (u.take (2 ^ M))).getD i 1) := fun i hi => by
          rw [← getElem_eq_getD (by omega)]; exact T_sym M _ hu1 _ (List.getElem_mem _)
        have hd2 : ∀ i, i < 2 ^ M → Sym ((T qmulV M (u.drop (2 ^ M))).getD i 1) := fun i hi => by
          rw [← getElem_eq_getD (by omega)]; exact T_sym M _ hu2 _ (List.getElem_mem _)
        have hsl : (ln 0 s).length = 2 ^ (M + 1) := by rw [ln_length, hs]
        have sa : ∀ i, i < 2 ^ M → SignOf ((ln 0 s).getD i 1) ((T qmulV M (u.take (2 ^ M))).getD i 1 * (T qmulV M (u.drop (2 ^ M))).getD i 1) := by
          intro i hi
          have := hsg.2 i (by omega)
          rw [T, List.getD_append _ _ _ _ (by omega), getD_zipWith' (da := 1) (db := 1) (by omega) (by omega)] at this
          rwa [qmulV_sym (hd1 i hi) (hd2 i hi)] at this
        have sb' : ∀ i, i < 2 ^ M → SignOf ((ln 0 s).getD (2 ^ M + i) 1) ((T qmulV M (u.drop (2 ^ M))).getD i 1) := by
          intro i hi
          have := hsg.2 (2 ^ M + i) (by omega)
          rwa [T, List.getD_append_right _ _ _ _ (by omega), tz, Nat.add_sub_cancel_left] at this
        have hg' := hg
        rw [← List.take_append_drop (2 ^ M) f, ← List.take_append_drop (2 ^ M) u, goods_append _ _ _ _ _ _ _ (by rw [hf1, l1])] at hg'
        have es1' : ((ln 0 s).take (2 ^ M)).length = 2 ^ M := by simp [hsl, e]
        have es2' : ((ln 0 s).drop (2 ^ M)).length = 2 ^ M := by simp [hsl, e]
        obtain ⟨a1, a2, a3, a4⟩ := rl.truth (u.take (2 ^ M)) hu1 (ho.take _) hg'.1 ⟨by rw [ln_length, List.length_zipWith, es1, es2, t1]; simp, fun i hi => by
          have hi : i < 2 ^ M := by rw [ln_length, List.length_zipWith, es1, es2] at hi; simpa using hi
          rw [ln_prod, ln_take, ln_drop, getD_zipWith' (da := 1) (db := 1) (by omega) (by omega), getD_take_lt hi, getD_drop']
          rw [PolarHelper.prodV_eq (sa i hi).1 (sb' i hi).1]
          exact prod_sign (hd1 i hi) (hd2 i hi) (sa i hi) (sb' i hi)⟩ h0 h1
        have hl0 : (⟨l.2.2 0, hvl 0⟩ : Fin L) = 0 := Fin.ext a1
        obtain ⟨b1, b2, b3, b4⟩ := rr.truth (u.drop (2 ^ M)) hu2 (ho.drop _) (by
            rw [rl.ctl, trl 0, hl0, a2]; exact hg'.2) ⟨by rw [hs2ln, zip3_length, a2, t1, t2, List.length_take, List.length_drop, ln_length, hs]; omega, fun i hi => by
          rw [hs2ln, hl0, a2] at hi ⊢
          have hi : i < 2 ^ M := by rw [zip3_length, t1, es1', es2'] at hi; simpa using hi
          unfold zip3
          rw [getD_zipWith' (da := ((1 : Int), (1 : Int))) (db := 1) (by simp [t1, es1']; omega) (by omega)]
          have : ((T qmulV M (u.take (2 ^ M))).zip ((ln 0 s).take (2 ^ M))).getD i (1, 1) = ((T qmulV M (u.take (2 ^ M))).getD i 1, (ln 0 s).getD i 1) := by
            rw [← getElem_eq_getD (by simp [t1, es1']; omega), List.getElem_zip, getElem_eq_getD _ 1, getElem_eq_getD _ 1, getD_take_lt hi]
          rw [this, getD_drop']
          exact maddV_sign (hd1 i hi) (hd2 i hi) (sa i hi) (sb' i hi)⟩ a3 a4
        have hr0 : (⟨r.2.2 0, hvr 0⟩ : Fin L) = 0 := Fin.ext b1
        refine ⟨by dsimp only; rw [hcomp, hr0, a1], ?_, b3, b4⟩
        rw [hlnU, hr0, a2, b2, List.take_append_drop]
      exact := by
        intro p V sf hV hsf
        rw [Lf.node, if_neg hno, rl.exact p V _ hV (fun k w => by rw [hsf, ln_prod, ln_take, ln_drop]), ← rl.ctl,
          rr.exact (p + 2 ^ M) (fun k => V (src l.2.2 k) ++ ln k Ul) _ (fun k => by rw [List.length_append, hV, hUl]) (fun k w => by
            rw [List.append_assoc, hsf, List.drop_left' (hV _), List.take_left' (hUl k), hs2ln, src_of hvl])]
        congr 1
        funext k
        dsimp only
        rw [hlnU, List.append_assoc, src_of hvr, src_of hvl, src_of (fun k => by rw [hcomp]; exact hvl _)]
        simp only [hcomp] }

theorem run_child [NeZero L] {A : Lf L X C Q} {W : Walk (Reg L) (LMap L) X} {N : Nodes (Reg L) (LMap L) X} (ok : LfOk A W N) :
    ∀ M, RunAt A M (childF W N (fun M => treeF W N M) M) := by
  intro M
  induction M with
  | zero =>
    intro f x s n B hf hs h8 hinv hB
    unfold childF
    obtain ⟨b, rfl⟩ : ∃ b, f = [b] := List.length_eq_one_iff.1 hf
    cases b with
    | true =>
      rw [if_pos ⟨by omega, rfl⟩]
      exact run_frozen ok (by omega) hf hs h8 hinv hB rfl
    | false =>
      rw [if_neg (by simp), if_pos ⟨Or.inl rfl, rfl⟩]
      obtain ⟨v, rfl⟩ : ∃ v, s = [v] := List.length_eq_one_iff.1 hs
      exact run_leaf ok (fun k => h8 v (by simp) k) hinv hB
  | succ M ih =>
    intro f x s n B hf hs h8 hinv hB
    unfold childF
    by_cases c0 : M + 1 ≤ 5 ∧ f.all (fun b => b) = true
    · rw [if_pos c0]
      exact run_frozen ok c0.1 hf hs h8 hinv hB c0.2
    · rw [if_neg c0, if_neg (by rw [ok.sc1]; simp)]
      exact run_node ok ih f x s n B hf hs h8 hinv hB c0

end Verif.Polar
