import Verif.Targets.Sim
/- The list decoder and the parity-aided decoder on the registers of a target compute what the models on lanes compute. -/
namespace Verif.Targets
open Verif.SIMD Verif.Polar
open Verif.PolarHelper (I8)
open Verif.RS (sb)
variable {R : Type} {T : Target R}

/-! ### Lengths -/

theorem forN_pres {σ : Type} {f : Nat → σ → Option σ} (P : σ → Prop) (hf : ∀ j s r, P s → f j s = some r → P r) :
    ∀ (n i : Nat) (s r : σ), P s → forN n i s f = some r → P r := by
  intro n
  induction n with
  | zero => intro i s r h e; cases e; exact h
  | succ n ih =>
    intro i s r h e
    obtain ⟨t, h1, h2⟩ := Option.bind_eq_some_iff.1 e
    exact ih _ _ _ (hf _ _ _ h h1) h2

theorem forUp_pres {σ : Type} {f : Nat → σ → Option σ} (P : σ → Prop) (hf : ∀ j s r, P s → f j s = some r → P r) {lo hi : Nat} {s r : σ}
    (h : P s) (e : forUp lo hi s f = some r) : P r := forN_pres P hf _ _ _ _ h e

theorem wr_len {α : Type} {a r : List α} {i : Nat} {v : α} (h : wr a i v = some r) : r.length = a.length := by
  unfold wr at h
  split at h
  · cases h; simp
  · cases h

theorem wr_some {α : Type} {a r : List α} {i : Nat} {v : α} (h : wr a i v = some r) : i < a.length ∧ r = a.set i v := by
  unfold wr at h
  split at h
  · cases h; exact ⟨by assumption, rfl⟩
  · cases h

theorem fork_len {L : Nat} {v : Reg L} {m f : List Int} (h : fork v m = some f) : f.length = 2 * L := by
  unfold fork at h
  obtain ⟨f1, h1, h2⟩ := bind_some h
  refine forUp_pres (fun a : List Int => a.length = 2 * L) ?_ (forUp_pres (fun a : List Int => a.length = 2 * L) ?_ (by simp) h1) h2
  · intro j s r hs hr
    obtain ⟨x, _, hr⟩ := bind_some hr
    split at hr
    · obtain ⟨y, _, hr⟩ := bind_some hr
      obtain ⟨z, _, hr⟩ := bind_some hr
      rw [wr_len hr, hs]
    · obtain ⟨y, _, hr⟩ := bind_some hr
      obtain ⟨z, _, hr⟩ := bind_some hr
      rw [wr_len hr, hs]
  · intro j s r hs hr
    obtain ⟨x, _, hr⟩ := bind_some hr
    obtain ⟨y, hy, hr⟩ := bind_some hr
    rw [wr_len hr, wr_len hy, hs]

theorem forbid_len {L : Nat} {v : Reg L} {f g : List Int} (h : forbid v f = some g) : g.length = f.length := by
  unfold forbid at h
  refine forUp_pres (fun a : List Int => a.length = f.length) ?_ rfl h
  intro j s r hs hr
  obtain ⟨x, _, hr⟩ := bind_some hr
  split at hr <;> rw [wr_len hr, hs]

theorem charge_len {L : Nat} {v : Reg L} {m r : List Int} (h : charge v m = some r) : r.length = m.length := by
  unfold charge at h
  refine forUp_pres (fun a : List Int => a.length = m.length) ?_ rfl h
  intro j s r hs hr
  obtain ⟨x, _, hr⟩ := bind_some hr
  split at hr
  · obtain ⟨y, _, hr⟩ := bind_some hr
    obtain ⟨z, _, hr⟩ := bind_some hr
    rw [wr_len hr, hs]
  · cases hr; exact hs

theorem chargeAll_len {L n : Nat} {s : List (Reg L)} {m r : List Int} (h : chargeAll n s m = some r) : r.length = m.length := by
  unfold chargeAll at h
  refine forUp_pres (fun a : List Int => a.length = m.length) ?_ rfl h
  intro j s r hs hr
  obtain ⟨x, _, hr⟩ := bind_some hr
  rw [charge_len hr, hs]

/-- What the fork of the paths yields. -/
theorem prune_facts {L : Nat} (hL : 0 < L) (hL' : L ≤ 256) {f m : List Int} (hf : f.length = 2 * L) (hm : m.length = L) {r : List Int × LMap L × Reg L}
    (h : prune f m = some r) : r.1.length = L ∧ (∀ k, r.2.1 k < L) ∧ ∀ k, Sym (r.2.2 k) := by
  haveI : NeZero L := ⟨by omega⟩
  obtain ⟨m', map, hrd, e, h1, h2, h3, -⟩ := prune_ok hL hL' hf hm
  rw [e] at h
  cases h
  exact ⟨h1, h2, h3⟩

/-! ### The list decoder -/

/-- The node functions on lists. -/
def listNT (T : Target R) : Nodes R R (LXT R) where
  r0 M x s := do
    let m ← chargeAll (2 ^ M) (s.map T.reg) x.metric
    return ({ x with metric := m }, List.replicate (2 ^ M) T.ph.one, T.setU (idMap T.n))
  r1 M x s := match M, s with
    | 0, [v] => do
      let r ← T.listFork x v
      return (r.1, [r.2.1], r.2.2)
    | _, _ => none

theorem chargeLoopT_eq {M : Nat} {soft s : List R} {m : List Int} (d : R) (hs : s.length = 2 ^ M) (hH : Has d soft (2 ^ M) s) :
    (forUp 0 (2 ^ M) m fun i m => do
      let v ← rd soft (i + 2 ^ M)
      charge (T.reg v) m) = chargeAll (2 ^ M) (s.map T.reg) m := by
  obtain ⟨h1, h2⟩ := hH
  refine forUp_congr fun j t _ hj => ?_
  rw [rd_of_lt (by omega), rd_of_lt (by rw [List.length_map]; omega), sb, sb, List.getElem_map, getElem_eq_getD _ d, getElem_eq_getD _ d, add_comm, h2 j (by omega)]

theorem listAgreeT (d : R) : Agree d T.listWalk (listNT T) where
  len0 := by
    intro M x s r hs h
    obtain ⟨m, _, h⟩ := bind_some h
    cases h; simp
  len1 := by
    intro M x s r hs h
    simp only [listNT] at h
    split at h
    · obtain ⟨m, _, h⟩ := bind_some h
      cases h; rfl
    · cases h
  eff0 := by
    intro M off m s r hM hs hH hh h
    obtain ⟨mm, hmm, h⟩ := bind_some h
    cases h
    show Ok (T.listRate0 M off m) _
    unfold Target.listRate0
    refine Ok.bind' (fill_upd (d := d) (l := List.replicate (2 ^ M) T.ph.one) (by simp) hh fun i a' hi _ => ?_) fun a' ha => ?_
    · rw [getD_replicate' _ _ _ hi]
    · rw [chargeLoopT_eq d hs hH, hmm, sb]
      exact Ok.some ⟨rfl, rfl, ha, rfl, fun i _ => rfl⟩
  eff1 := by
    intro M off m s r hM _ hs hH hh h
    cases M with
    | succ M => cases h
    | zero =>
    obtain ⟨v, rfl⟩ : ∃ v, s = [v] := List.length_eq_one_iff.1 hs
    obtain ⟨q, hq, h⟩ := bind_some h
    cases h
    obtain ⟨h1, h2⟩ := hH
    have hv : m.soft.getD 1 d = v := h2 0 (by simp)
    show Ok (T.listRate1 0 off m) _
    unfold Target.listRate1
    simp only [List.length_singleton, pow_zero] at h1
    rw [rd_of_lt (by omega), sb, getElem_eq_getD _ d, hv, hq, sb, wr_of_lt (by simpa using hh), sb]
    refine Ok.some ⟨rfl, rfl, ⟨by simp, fun i => ?_⟩, rfl, fun i _ => rfl⟩
    dsimp only
    rw [getD_set]
    have hh' : off < m.hard.length := by simpa using hh
    by_cases hi : off = i
    · subst hi; rw [if_pos ⟨rfl, hh'⟩, if_pos (by simp)]; simp
    · rw [if_neg (by tauto), if_neg (by simp; omega)]

/-- The first `n` maps are maps of lanes. -/
def ValidMaps {L : Nat} (maps : List (LMap L)) (n : Nat) : Prop := n ≤ maps.length ∧ ∀ i, i < n → ∀ k, (maps.getD i fun _ => 0) k < L

theorem ValidMaps.set {L : Nat} {maps : List (LMap L)} {n i : Nat} {m : LMap L} (h : ValidMaps maps n) (hi : i < n + 1) (hl : i < maps.length) (hn : n = i ∨ i < n) (hm : ∀ k, m k < L) :
    ValidMaps (maps.set i m) (max n (i + 1)) := by
  obtain ⟨h1, h2⟩ := h
  refine ⟨by rw [List.length_set]; omega, fun j hj k => ?_⟩
  rw [getD_set]
  by_cases e : i = j
  · rw [if_pos ⟨e, hl⟩]; exact hm k
  · rw [if_neg (by tauto)]; exact h2 j (by omega) k

def listRels (T : Target R) : Rels R R (LXT R) (Reg T.n) (LMap T.n) (LX T.n) where
  S a a' := T.reg a = a'
  H := HardOf T
  M := MapOf T
  X x x' := x.metric = x'.metric ∧ x.message.map T.reg = x'.message ∧ x.maps.map T.map = x'.maps ∧ x.count = x'.count ∧ x.metric.length = T.n ∧
    ValidMaps x'.maps x'.count

theorem idMap_rel (h : T.Ok) (hn : T.n ≤ 256) : MapOf T (T.setU (idMap T.n)) (idMap T.n) := by
  have e := idMap_eq (L := T.n) hn
  refine ⟨map_setU h _ fun k => ?_, fun k => ?_⟩ <;> rw [e] <;> have := k.isLt <;> dsimp only <;> omega

theorem ones_rel (h : T.Ok) (n : Nat) : List.Forall₂ (HardOf T) (List.replicate n T.ph.one) (List.replicate n (phV T.n).one) := by
  induction n with
  | zero => exact .nil
  | succ n ih => exact .cons ⟨reg_one h, fun k => Or.inl rfl⟩ ih

theorem hrd_rel (h : T.Ok) {f : Reg T.n} (hf : ∀ k, Sym (f k)) : HardOf T (T.setI f) f :=
  ⟨reg_setI h f fun k => by rcases hf k with e | e <;> rw [e] <;> constructor <;> omega, hf⟩

theorem map_rel (h : T.Ok) (hn : T.n ≤ 256) {f : LMap T.n} (hf : ∀ k, f k < T.n) : MapOf T (T.setU f) f :=
  ⟨map_setU h f fun k => by have := hf k; omega, hf⟩

theorem listSim (h : T.Ok) (h0 : 0 < T.n) (hn : T.n ≤ 256) : Sim (listRels T) T.listWalk (listNT T) (listWalk T.n) (listN T.n) where
  prod := by rintro a _ b _ rfl rfl; exact reg_prod h a b
  madd := by rintro g _ a _ b _ hg rfl rfl; obtain ⟨rfl, hs⟩ := hg; exact reg_madd h g a b hs
  qmul := fun _ _ _ _ ha hb => hard_qmul h ha hb
  shufS := by rintro a _ m m' rfl hm; show T.reg _ = _; rw [← hm.1]; exact reg_shuf h a m hm.lt
  shufH := fun _ _ _ _ ha hm => hard_shuf h ha hm
  comp := fun _ _ _ _ ha hm => map_comp h ha hm
  sc1 := rfl
  r0 := by
    rintro M x x' s s' r' ⟨x1, x2, x3, x4, x5, x6⟩ hs hr
    obtain ⟨m, hm, hr⟩ := bind_some hr
    cases hr
    show Ok (do
      let m ← chargeAll (2 ^ M) (s.map T.reg) x.metric
      return ({ x with metric := m }, List.replicate (2 ^ M) T.ph.one, T.setU (idMap T.n))) _
    rw [forall2_map hs, x1, hm, sb]
    refine Ok.some ⟨⟨rfl, x2, x3, x4, ?_, x6⟩, ones_rel h _, idMap_rel h hn⟩
    dsimp only
    rw [chargeAll_len hm, ← x1, x5]
  r1 := by
    rintro M x x' s s' r' ⟨x1, x2, x3, x4, x5, x6⟩ hs hr
    simp only [listN] at hr
    split at hr
    · rename_i v'
      obtain ⟨v, rfl⟩ : ∃ v, s = [v] := List.length_eq_one_iff.1 (by rw [hs.length_eq]; rfl)
      have hv : T.reg v = v' := by cases hs; assumption
      obtain ⟨t', ht, hr⟩ := bind_some hr
      cases hr
      unfold listFork at ht
      obtain ⟨f, hf, ht⟩ := bind_some ht
      obtain ⟨p, hp, ht⟩ := bind_some ht
      obtain ⟨ms, hms, ht⟩ := bind_some ht
      obtain ⟨mp, hmp, ht⟩ := bind_some ht
      cases ht
      obtain ⟨p1, p2, p3⟩ := prune_facts h0 hn (fork_len hf) (by rw [← x1, x5]) hp
      obtain ⟨l1, rfl⟩ := wr_some hms
      obtain ⟨l2, rfl⟩ := wr_some hmp
      have g1 : x.count < x.message.length := by rw [x4]; rw [← x2, List.length_map] at l1; exact l1
      have g2 : x.count < x.maps.length := by rw [x4]; rw [← x3, List.length_map] at l2; exact l2
      show Ok (do
        let r ← T.listFork x v
        return (r.1, [r.2.1], r.2.2)) _
      unfold Target.listFork
      rw [hv, x1, hf, sb, hp, sb, wr_of_lt g1, sb, wr_of_lt g2, sb]
      have hh := hrd_rel h p3
      have hm := map_rel h hn p2
      refine Ok.some ⟨⟨rfl, ?_, ?_, by dsimp only; rw [x4], p1, ?_⟩, .cons hh .nil, hm⟩
      · dsimp only; rw [List.map_set, hh.1, x2, x4]
      · dsimp only; rw [List.map_set, hm.1, x3, x4]
      · have := x6.set (i := x'.count) (by omega) l2 (Or.inl rfl) p2
        dsimp only
        rwa [max_eq_right (by omega)] at this
    · cases hr

/-! ### Before and after the recursion -/

theorem dupLoopT_ok {level : Nat} {codeword : List Int} {soft : List R} (d : R) (hs : 2 * 2 ^ level ≤ soft.length) (hc : 2 ^ level ≤ codeword.length) :
    ∃ a, T.dupLoop level codeword soft = some a ∧ a.length = soft.length ∧
      Has d a (2 ^ level) ((codeword.take (2 ^ level)).map fun v => T.O.vdup (BitVec.ofInt 8 v)) := by
  have key : Ok (T.dupLoop level codeword soft) (fun a => a.length = soft.length ∧ ∀ i, i < 2 ^ level → a.getD (2 ^ level + i) d = T.O.vdup (BitVec.ofInt 8 (codeword.getD i 0))) := by
    unfold Target.dupLoop
    refine forUp_inv (fun j (a : List R) => a.length = soft.length ∧ ∀ i, i < j → a.getD (2 ^ level + i) d = T.O.vdup (BitVec.ofInt 8 (codeword.getD i 0)))
      (Nat.zero_le _) ⟨rfl, fun i hi => by omega⟩ ?_
    rintro j a _ hj ⟨a1, a2⟩
    rw [rd_of_lt (by omega), sb, getElem_eq_getD _ 0, wr_of_lt (by omega)]
    refine Ok.some ⟨by rw [List.length_set, a1], fun i hi => ?_⟩
    rw [getD_set]
    by_cases e : j = i
    · subst e; rw [if_pos ⟨rfl, by omega⟩]
    · rw [if_neg (by omega)]; exact a2 i (by omega)
  obtain ⟨a, e, h1, h2⟩ := key
  refine ⟨a, e, h1, ?_, fun i hi => ?_⟩
  · simp; omega
  · have hi' : i < 2 ^ level := by simp at hi; omega
    rw [h2 i hi', ← getElem_eq_getD hi]
    simp only [List.getElem_map, List.getElem_take]
    rw [getElem_eq_getD _ 0]

theorem forDown_sim {σ σ' : Type} {f : Nat → σ → Option σ} {g : Nat → σ' → Option σ'} (P : σ → σ' → Prop) {lo : Nat} :
    ∀ (n : Nat) (s : σ) (s' r' : σ'), (∀ j, lo ≤ j → j < lo + n → ∀ s s' r', P s s' → g j s' = some r' → Verif.Ok (f j s) (P · r')) → P s s' →
      forDown lo n s' g = some r' → Verif.Ok (forDown lo n s f) (P · r') := by
  intro n
  induction n with
  | zero => intro s s' r' _ h e; cases e; exact Ok.some h
  | succ n ih =>
    intro s s' r' hf h e
    obtain ⟨t', h1, h2⟩ := Option.bind_eq_some_iff.1 e
    refine Ok.bind (hf _ (by omega) (by omega) _ _ _ h h1) fun t ht => ?_
    exact ih t t' r' (fun j h3 h4 => hf j h3 (by omega)) ht h2

theorem rd_some {α : Type} {a : List α} {i : Nat} {v : α} (h : rd a i = some v) : ∃ h : i < a.length, a[i] = v := by
  unfold rd at h
  exact List.getElem?_eq_some_iff.1 h

theorem backLoopT_ok (h : T.Ok) {message maps : List R} {n : Nat} (h0 : 0 < n) (hv : ValidMaps (maps.map T.map) n) {out : List (Reg T.n)}
    (e : backLoop (message.map T.reg) (maps.map T.map) n = some out) : ∃ out', T.backLoop message maps n = some out' ∧ out'.map T.reg = out := by
  obtain ⟨v1, v2⟩ := hv
  rw [List.length_map] at v1
  have hval : ∀ i, (hi : i < maps.length) → i < n → ∀ k, T.map maps[i] k < T.n := by
    intro i hi hin k
    have := v2 i hin k
    rwa [← getElem_eq_getD (by rw [List.length_map]; exact hi), List.getElem_map] at this
  unfold backLoop at e
  unfold Target.backLoop
  have en : ((n : Int) - 1).toNat = n - 1 := by omega
  have ed : ∀ {α : Type} (l : List α), rdZ l ((n : Int) - 1) = l[n - 1]? := fun l => by unfold rdZ; rw [if_neg (by omega), en]
  rw [ed] at e ⊢
  rw [List.getElem?_map, List.getElem?_eq_getElem (by omega)] at e
  rw [List.getElem?_eq_getElem (by omega), sb]
  obtain ⟨p, hp, e⟩ := bind_some e
  cases hp
  obtain ⟨s', hs', e⟩ := bind_some e
  cases e
  obtain ⟨s, hs, hr, -⟩ := forDown_sim (f := fun i (s : List R × R) => do
      let m ← rd s.1 i
      let message ← wr s.1 i (T.O.vshuf m s.2)
      let mp ← rd maps i
      return (message, T.O.vshufU mp s.2)) (fun (s : List R × R) (s' : List (Reg T.n) × LMap T.n) => s.1.map T.reg = s'.1 ∧ MapOf T s.2 s'.2) (n - 1) (message, maps[n - 1]) _ _ (by
    rintro j _ hj ⟨m, acc⟩ ⟨_, acc'⟩ r' ⟨rfl, ha⟩ hr
    dsimp only at ha hr ⊢
    obtain ⟨x, hx, hr⟩ := bind_some hr
    obtain ⟨y, hy, hr⟩ := bind_some hr
    obtain ⟨z, hz, hr⟩ := bind_some hr
    cases hr
    obtain ⟨h1, rfl⟩ := rd_some hx
    obtain ⟨h2, rfl⟩ := wr_some hy
    obtain ⟨h3, rfl⟩ := rd_some hz
    rw [List.length_map] at h1 h3
    rw [rd_of_lt h1, sb, wr_of_lt h1, sb, rd_of_lt h3, sb]
    refine Ok.some ⟨?_, ?_⟩
    · dsimp only
      rw [List.map_set, reg_shuf h _ _ ha.lt, ha.1, List.getElem_map]
    · dsimp only
      rw [List.getElem_map]
      exact map_comp h ⟨rfl, hval j h3 (by omega)⟩ ha) ⟨rfl, rfl, hval _ _ (by omega)⟩ hs'
  exact ⟨s.1, by rw [hs]; rfl, hr⟩

/-- As `top_run`: the outcome of the recursion on lists. -/
theorem top_tree {L : Nat} [NeZero L] {X C Q : Type} {A : Lf L X C Q} {W : Walk (Reg L) (LMap L) X} {N : Nodes (Reg L) (LMap L) X} (ok : LfOk A W N)
    {frozen : List Nat} {level : Nat} (h5 : 5 ≤ level) (h16 : level ≤ 16) (hfree : 0 < freeBelow frozen (2 ^ level)) {codeword : List Int}
    (hc : 2 ^ level ≤ codeword.length) (h8 : ∀ i, i < 2 ^ level → I8 (codeword.getD i 0)) {x : X} (hinv : A.Inv (freeBelow frozen (2 ^ level)) 1000000 x) :
    ∃ r, treeF W N level (fbits frozen 0 (2 ^ level)) x ((codeword.take (2 ^ level)).map fun v (_ : Fin L) => v) = some r := by
  obtain ⟨k, rfl⟩ : ∃ k, level = k + 1 := ⟨level - 1, by omega⟩
  have hcnt : cnt (fbits frozen 0 (2 ^ (k + 1))) = freeBelow frozen (2 ^ (k + 1)) := cnt_fbits _ _
  have hp : (2 : Int) ^ (k + 1) ≤ 2 ^ 16 := pow_le_pow_right₀ (by norm_num) h16
  have hsl : ((codeword.take (2 ^ (k + 1))).map fun v (_ : Fin L) => v).length = 2 ^ (k + 1) := by simp [hc]
  obtain ⟨r, e, -⟩ := run_node ok (run_child ok k) (fbits frozen 0 (2 ^ (k + 1))) x ((codeword.take (2 ^ (k + 1))).map fun v (_ : Fin L) => v) 0 1000000
    (by simp [fbits]) hsl (fun a ha j => by
      obtain ⟨b, hb, rfl⟩ := List.mem_map.1 ha
      obtain ⟨i, hi, rfl⟩ := List.mem_iff_getElem.1 hb
      have hi' : i < 2 ^ (k + 1) := by simp at hi; omega
      have := h8 i hi'
      rw [← getElem_eq_getD (by omega)] at this
      simpa using this) (by rw [hcnt]; exact hinv) (by norm_num at hp ⊢; omega) (fun h => not_all_frozen (by omega) h.2)
  exact ⟨r, e⟩

theorem soft_rel (h : T.Ok) {codeword : List Int} {n : Nat} (h8 : ∀ i, i < n → I8 (codeword.getD i 0)) (hc : n ≤ codeword.length) :
    List.Forall₂ (fun a a' => T.reg a = a') ((codeword.take n).map fun v => T.O.vdup (BitVec.ofInt 8 v)) ((codeword.take n).map fun v (_ : Fin T.n) => v) := by
  rw [List.forall₂_map_left_iff, List.forall₂_map_right_iff, List.forall₂_same]
  intro v hv
  obtain ⟨i, hi, rfl⟩ := List.mem_iff_getElem.1 hv
  have hi' : i < n := by simp at hi; omega
  have := h8 i hi'
  rw [← getElem_eq_getD (by omega)] at this
  rw [List.getElem_take]
  exact reg_dup h this

end Verif.Targets
