import Verif.LDPC.EraseRun
import Verif.LDPC.PropsTurns
/- C81 (ldpc_decoder.hh): the LDPC decoder on the erasure channel. -/
namespace Verif.LDPC
open Finset

/-! ### Specification

`Within T E L v` (EraseRun.lean): variable `v` is known after `L` rounds of peeling, if the variables in `E` are erased: in each round, the variables
that are the only unknown of a check become known. -/

/-- The variables that peeling finds at all. -/
inductive Peeled (T : Table) (E : Finset Var) : Var → Prop
  | received {v : Var} : v ∉ E → Peeled T E v
  | check {c : Nat} {v : Var} : c < T.R → v ∈ T.vars c → (∀ u ∈ (T.vars c).erase v, Peeled T E u) → Peeled T E v

/-- The soft value of a variable. -/
def value (message parity : List Int) : Var → Int
  | .data i => message.getD i 0
  | .par i => parity.getD i 0

/-- A word of the code, with signs `±1`. -/
structure SentWord (T : Table) (sent : Var → Int) : Prop where
  pm : ∀ v, sent v = 1 ∨ sent v = -1
  checks : ∀ c < T.R, T.checkOk (fun i => sent (.data i)) (fun i => sent (.par i)) c

/-- It is received with 0 at the variables in `E`, and with the right sign and an amplitude of at least `a` at the others, as numbers of 8 bits. -/
structure Received (T : Table) (E : Finset Var) (a : Int) (sent : Var → Int) (message parity : List Int) : Prop where
  erased : ∀ c < T.R, ∀ v ∈ T.vars c, v ∈ E → value message parity v = 0
  kept : ∀ c < T.R, ∀ v ∈ T.vars c, v ∉ E → a ≤ sent v * value message parity v
  bytes : (∀ x ∈ message, -128 ≤ x ∧ x ≤ 127) ∧ ∀ x ∈ parity, -128 ≤ x ∧ x ≤ 127

/-- At most `G` of the checks that are handled at once share a data bit. -/
def Table.Shares (T : Table) (D G : Nat) : Prop :=
  1 ≤ G ∧ ∀ i < T.q, ∀ j < T.M / D, ∀ x, ((layerChecks T D i j).filter fun c => x ∈ T.feeds c).length ≤ G

/-- What the decoder makes of it: `message'`, `parity'` and the returned number. -/
structure Outcome (T : Table) (β : Int) (G : Nat) (E : Finset Var) (sent : Var → Int) (message parity : List Int) (trials : Int) (message' parity' : List Int) (ret : Int) : Prop where
  /-- No value turns against the symbol sent, or gets weaker. -/
  keep : ∀ c < T.R, ∀ v ∈ T.vars c, sent v * value message parity v ≤ sent v * value message' parity' v
  /-- If the decoder reports success, all symbols are right. -/
  right : 0 ≤ ret → ∀ c < T.R, ∀ v ∈ T.vars c, 0 < sent v * value message' parity' v
  /-- What peeling does not find stays erased; then the decoder gives up. -/
  stuck : ∀ c < T.R, ∀ v ∈ T.vars c, ¬ Peeled T E v → value message' parity' v = 0 ∧ ret = -1
  /-- What peeling finds in `L` rounds is right in the end, if the received values are strong enough for `L` offsets and there are enough iterations. -/
  found : ∀ L : Nat, Received T E (1 + L * β) sent message parity → (L - 1 : Int) * β ≤ 30 → (G * L : Nat) ≤ trials →
    ∀ c < T.R, ∀ v ∈ T.vars c, Within T (· ∈ E) L v → 0 < sent v * value message' parity' v
  /-- If it finds all of them, the decoder is done after `G * L` iterations. -/
  done : ∀ L : Nat, Received T E (1 + L * β) sent message parity → (L - 1 : Int) * β ≤ 30 → (G * L : Nat) ≤ trials →
    (∀ c < T.R, ∀ v ∈ T.vars c, Within T (· ∈ E) L v) → trials - (G * L : Nat) ≤ ret

/-! ### Peeling -/

theorem Within.peeled {T : Table} {E : Finset Var} : ∀ {ℓ : Nat} {v : Var}, Within T (· ∈ E) ℓ v → Peeled T E v := by
  intro ℓ
  induction ℓ with
  | zero => intro v h; exact .received h
  | succ ℓ ih =>
    rintro v (h | ⟨c, hc, hv, hu⟩)
    · exact ih h
    · exact .check hc hv fun u hu' => ih (hu u hu')

/-- As many rounds as there are erasures are enough. -/
theorem Peeled.within {T : Table} {E : Finset Var} {v : Var} (h : Peeled T E v) : Within T (· ∈ E) E.card v := by
  classical
  -- after a round without progress nothing more is found
  have stable : ∀ k, (∀ v, Within T (· ∈ E) (k + 1) v → Within T (· ∈ E) k v) → ∀ v, Peeled T E v → Within T (· ∈ E) k v := by
    intro k hk v hv
    induction hv with
    | received h => exact Within.mono (Nat.zero_le k) h
    | check hc hv _ ih => exact hk _ (Or.inr ⟨_, hc, hv, ih⟩)
  have key : ∀ k, (∃ j ≤ k, ∀ v, Peeled T E v → Within T (· ∈ E) j v) ∨ k + (E.filter fun v => ¬ Within T (· ∈ E) k v).card ≤ E.card := by
    intro k
    induction k with
    | zero => right; rw [Nat.zero_add]; exact card_filter_le _ _
    | succ k ih =>
      rcases ih with ⟨j, hj, h⟩ | ih
      · exact Or.inl ⟨j, by omega, h⟩
      by_cases hs : ∀ v, Within T (· ∈ E) (k + 1) v → Within T (· ∈ E) k v
      · exact Or.inl ⟨k, by omega, stable k hs⟩
      · right
        push Not at hs
        obtain ⟨v, h1, h2⟩ := hs
        have hvE : v ∈ E := by
          by_contra hn
          exact h2 (Within.mono (Nat.zero_le k) (show Within T (· ∈ E) 0 v from hn))
        have : (E.filter fun v => ¬ Within T (· ∈ E) (k + 1) v).card < (E.filter fun v => ¬ Within T (· ∈ E) k v).card := by
          refine card_lt_card ⟨fun u hu => ?_, fun hsub => ?_⟩
          · rw [mem_filter] at hu ⊢
            exact ⟨hu.1, fun h => hu.2 (Or.inl h)⟩
          · have := hsub (mem_filter.2 ⟨hvE, h2⟩)
            exact (mem_filter.1 this).2 h1
        omega
  rcases key E.card with ⟨j, hj, hw⟩ | hc
  · exact (hw v h).mono hj
  · by_contra hn
    have : v ∈ E := by
      by_contra hv
      exact hn (Within.mono (Nat.zero_le _) (show Within T (· ∈ E) 0 v from hv))
    have : 0 < (E.filter fun v => ¬ Within T (· ∈ E) E.card v).card := card_pos.2 ⟨v, mem_filter.2 ⟨this, hn⟩⟩
    omega

/-! ### The decoder's schedule -/

theorem feeds_lt {T : Table} (h : T.WF) {c x : Nat} (hx : x ∈ T.feeds c) : x < T.K := by
  unfold Table.feeds at hx
  obtain ⟨e, he, hx⟩ := List.mem_flatMap.1 hx
  obtain ⟨s, hs, rfl⟩ := List.mem_map.1 hx
  have hs := List.mem_range.1 (List.mem_filter.1 hs).1
  have h1 := bitAt_lt h he (s + T.M - sh T e)
  have h2 := sh_lt h.hM e
  unfold bitAt at h1
  rw [show sh T e + (s + T.M - sh T e) = s + T.M by omega, Nat.add_mod_right, Nat.mod_eq_of_lt hs] at h1
  exact h1

/-- The steps of one iteration. -/
def iterSteps (T : Table) (D : Nat) (act : Nat → Nat → Prop) : Steps :=
  ((List.range T.q).flatMap fun i => (List.range (T.M / D)).map fun j => layerChecks T D i j).map fun cs => (act, cs)

theorem turnIteration_run (T : Table) (β : Int) (D : Nat) (act : Nat → Nat → Prop) (s : Soft) : turnIteration T β D act s = runs T β (iterSteps T D act) s := by
  unfold turnIteration runs iterSteps
  rw [List.foldl_map]

theorem mem_vars {T : Table} {c : Nat} {v : Var} : v ∈ T.vars c ↔ (∃ x ∈ T.feeds c, v = .data x) ∨ v = .par c ∨ (c ≠ 0 ∧ v = .par (c - 1)) := by
  unfold Table.vars
  rw [List.mem_append, List.mem_map, List.mem_cons]
  constructor
  · rintro (⟨x, hx, rfl⟩ | h | h)
    · exact Or.inl ⟨x, hx, rfl⟩
    · exact Or.inr (Or.inl h)
    · split at h
      · simp at h
      · rename_i hc; exact Or.inr (Or.inr ⟨hc, by simpa using h⟩)
  · rintro (⟨x, hx, rfl⟩ | h | ⟨hc, h⟩)
    · exact Or.inl ⟨x, hx, rfl⟩
    · exact Or.inr (Or.inl h)
    · right; right; rw [if_neg hc]; simpa using h

section
variable {C : Cfg} (h : C.WF) (hP : 2 ≤ C.PTY) {act : Nat → Nat → Nat → Prop} (hrr : RoundRobin C.T C.D act)
include h

omit h in
theorem mem_layerChecks {i j c : Nat} : c ∈ layerChecks C.T C.D i j ↔ ∃ n < C.D, c = chk C i j n := by
  unfold layerChecks
  rw [List.mem_map]
  constructor
  · rintro ⟨n, hn, rfl⟩; exact ⟨n, List.mem_range.1 hn, rfl⟩
  · rintro ⟨n, hn, rfl⟩; exact ⟨n, List.mem_range.2 hn, rfl⟩

theorem chk_surj {c : Nat} (hc : c < C.T.R) : ∃ i < C.T.q, ∃ j < C.W, ∃ n < C.D, c = chk C i j n := by
  have hq := h.hT.hq
  have hW := h.hW
  have ht : c / C.T.q < C.T.M := by rw [Nat.div_lt_iff_lt_mul hq, Nat.mul_comm, ← h.hT.hR]; exact hc
  refine ⟨c % C.T.q, Nat.mod_lt _ hq, c / C.T.q % C.W, Nat.mod_lt _ hW, c / C.T.q / C.W, ?_, ?_⟩
  · rw [Nat.div_lt_iff_lt_mul hW, Nat.mul_comm, ← h.hDM]; exact ht
  · unfold chk
    rw [Nat.div_add_mod, Nat.div_add_mod]

include hP hrr

theorem good_iter (τ : Nat) : Good C.T (iterSteps C.T C.D (act τ)) := by
  intro p hp
  unfold iterSteps at hp
  obtain ⟨cs, hcs, rfl⟩ := List.mem_map.1 hp
  obtain ⟨i, hi, hcs⟩ := List.mem_flatMap.1 hcs
  obtain ⟨j, hj, rfl⟩ := List.mem_map.1 hcs
  rw [List.mem_range] at hi hj
  refine ⟨fun c hc => ?_, fun v c hc c' hc' ha ha' => ?_⟩
  · obtain ⟨n, hn, rfl⟩ := mem_layerChecks.1 hc
    exact chk_lt h hi hj hn
  · cases v with
    | data x =>
      have hx : x ∈ C.T.feeds c := by
        rcases mem_vars.1 ha.1 with ⟨y, hy, e⟩ | e | ⟨-, e⟩
        · cases e; exact hy
        · cases e
        · cases e
      have hx' : x ∈ C.T.feeds c' := by
        rcases mem_vars.1 ha'.1 with ⟨y, hy, e⟩ | e | ⟨-, e⟩
        · cases e; exact hy
        · cases e
        · cases e
      exact (hrr.one i hi j hj c hc x hx τ).unique ⟨⟨hc, hx⟩, ha.2 x rfl⟩ ⟨⟨hc', hx'⟩, ha'.2 x rfl⟩
    | par x =>
      have e1 : c = x ∨ c = x + 1 := by
        rcases mem_vars.1 ha.1 with ⟨y, -, e⟩ | e | ⟨h0, e⟩
        · cases e
        · cases e; exact Or.inl rfl
        · cases e; right; omega
      have e2 : c' = x ∨ c' = x + 1 := by
        rcases mem_vars.1 ha'.1 with ⟨y, -, e⟩ | e | ⟨h0, e⟩
        · cases e
        · cases e; exact Or.inl rfl
        · cases e; right; omega
      obtain ⟨n, -, hc1⟩ := mem_layerChecks.1 hc
      obtain ⟨n', -, hc2⟩ := mem_layerChecks.1 hc'
      have k1 := chk_prev_ne h hP (n := n) (n' := n') hi hj
      have k2 := chk_prev_ne h hP (n := n') (n' := n) hi hj
      rw [← hc1, ← hc2] at k1 k2
      omega

omit h hP in
/-- A check gets its turn within `G` iterations. -/
theorem turn_within {G : Nat} (hG : C.T.Shares C.D G) {i j c x : Nat} (hi : i < C.T.q) (hj : j < C.T.M / C.D) (hc : c ∈ layerChecks C.T C.D i j) (hx : x ∈ C.T.feeds c) (τ : Nat) :
    ∃ δ < G, act (τ + δ) c x := by
  classical
  obtain ⟨g, hg, hfair⟩ := hrr.fair i hi j hj c hc x hx
  have hle : g ≤ G := by
    have hone : ∀ δ, ∃ c', (c' ∈ layerChecks C.T C.D i j ∧ x ∈ C.T.feeds c') ∧ act δ c' x := fun δ => (hrr.one i hi j hj c hc x hx δ).exists
    choose f hf using hone
    have h1 : (range g).card ≤ ((layerChecks C.T C.D i j).filter fun c => x ∈ C.T.feeds c).toFinset.card := by
      refine card_le_card_of_injOn f (fun δ _ => ?_) fun a ha b hb hab => ?_
      · simp only [List.coe_toFinset, Set.mem_ofPred_eq, List.mem_filter, decide_eq_true_eq]
        exact (hf δ).1
      · simp only [coe_range, Set.mem_Iio] at ha hb
        refine (hfair (f a) (hf a).1.1 (hf a).1.2 0).unique ⟨ha, by rw [Nat.zero_add]; exact (hf a).2⟩ ⟨hb, ?_⟩
        rw [Nat.zero_add, hab]
        exact (hf b).2
    rw [card_range] at h1
    exact h1.trans ((List.toFinset_card_le _).trans (hG.2 i hi j hj x))
  obtain ⟨δ, ⟨h1, h2⟩, -⟩ := hfair c hc hx τ
  exact ⟨δ, by omega, h2⟩

theorem turns_prog {G : Nat} (hG : C.T.Shares C.D G) (β : Int) (N : Nat) (s : Soft) : Prog C.T β G fun m => turns C.T β C.D act N s m := by
  refine ⟨fun m => ⟨iterSteps C.T C.D (act (N + m)), good_iter h hP hrr _, by rw [← turnIteration_run]; rfl⟩, fun m => ?_⟩
  refine ⟨(List.range G).flatMap fun δ => iterSteps C.T C.D (act (N + m + δ)), ?_, fun c hc v hv => ?_, ?_⟩
  · intro p hp
    obtain ⟨δ, -, hp⟩ := List.mem_flatMap.1 hp
    exact good_iter h hP hrr _ p hp
  · obtain ⟨i, hi, j, hj, n, hn, hcc⟩ := chk_surj h hc
    have hcl : c ∈ layerChecks C.T C.D i j := mem_layerChecks.2 ⟨n, hn, hcc⟩
    have hex : ∃ δ < G, ∀ x, v = .data x → act (N + m + δ) c x := by
      cases v with
      | data x =>
        have hx : x ∈ C.T.feeds c := by
          rcases mem_vars.1 hv with ⟨y, hy, e⟩ | e | ⟨-, e⟩
          · cases e; exact hy
          · cases e
          · cases e
        obtain ⟨δ, h1, h2⟩ := turn_within hrr hG hi hj hcl hx (N + m)
        exact ⟨δ, h1, fun y hy => by cases hy; exact h2⟩
      | par x => exact ⟨0, hG.1, fun y hy => by cases hy⟩
    obtain ⟨δ, h1, h2⟩ := hex
    refine ⟨(act (N + m + δ), layerChecks C.T C.D i j), List.mem_flatMap.2 ⟨δ, List.mem_range.2 h1, ?_⟩, hcl, hv, h2⟩
    unfold iterSteps
    exact List.mem_map.2 ⟨_, List.mem_flatMap.2 ⟨i, List.mem_range.2 hi, List.mem_map.2 ⟨j, List.mem_range.2 hj, rfl⟩⟩, rfl⟩
  · have : ∀ G, turns C.T β C.D act N s (m + G) = runs C.T β ((List.range G).flatMap fun δ => iterSteps C.T C.D (act (N + m + δ))) (turns C.T β C.D act N s m) := by
      intro G
      induction G with
      | zero => rfl
      | succ G ih =>
        rw [List.range_succ, List.flatMap_append, runs_append, ← ih, ← Nat.add_assoc]
        change turnIteration _ _ _ _ _ = _
        rw [turnIteration_run, List.flatMap_singleton]
        simp only [Nat.add_assoc]
    exact this G

end

/-- If no check has two data bits in one register, no two checks of a layer share a data bit. -/
theorem shares_of_spread {C : Cfg} (h : C.WF) (hT : C.T.Spread C.D) : C.T.Shares C.D 1 := by
  refine ⟨le_refl _, fun i hi j hj x => ?_⟩
  have hE : (C.T.ent i).Perm (C.T.ent i) := .rfl
  have hS := spread_simple h hT hi hj hE
  by_contra hlt
  rw [not_le] at hlt
  have hnd : (layerChecks C.T C.D i j).Nodup := by
    unfold layerChecks
    refine List.Nodup.map_on (fun a ha b hb hab => ?_) List.nodup_range
    exact (chk_inj (C := C) (n := a) (n' := b) hi hi hj hj hab).2.2
  have hnd2 := hnd.filter (fun c => decide (x ∈ C.T.feeds c))
  obtain ⟨c, hc, c', hc', hne⟩ : ∃ c ∈ (layerChecks C.T C.D i j).filter fun c => x ∈ C.T.feeds c, ∃ c' ∈ (layerChecks C.T C.D i j).filter fun c => x ∈ C.T.feeds c, c ≠ c' := by
    refine ⟨_, List.getElem_mem (show 0 < _ by omega), _, List.getElem_mem hlt, fun he => ?_⟩
    have := (List.Nodup.getElem_inj_iff hnd2).1 he
    omega
  simp only [List.mem_filter, decide_eq_true_eq] at hc hc'
  obtain ⟨n, hn, rfl⟩ := mem_layerChecks.1 hc.1
  obtain ⟨n', hn', rfl⟩ := mem_layerChecks.1 hc'.1
  obtain ⟨k, hk, e⟩ := (mem_feeds h hi hj hn hE).1 hc.2
  obtain ⟨k', hk', e'⟩ := (mem_feeds h hi hj hn' hE).1 hc'.2
  have := hS k k' hk hk' (bitAt_off h hn hn' (e.symm.trans e'))
  subst this
  exact hne (by rw [bitAt_lane h hn hn' (e.symm.trans e')])

/-- In any case not more than the number of lanes. -/
theorem shares_lanes {C : Cfg} (h : C.WF) : C.T.Shares C.D C.D := by
  refine ⟨by have := h.hD; omega, fun i _ j _ x => (List.length_filter_le _ _).trans ?_⟩
  unfold layerChecks
  simp

/-! ### The outcome -/

theorem signs_of_checkOk {T : Table} {f : Var → Int} {c : Nat} :
    T.checkOk (fun i => f (.data i)) (fun i => f (.par i)) c ↔ ((T.vars c).map fun v => (f v).sign).prod = 1 := by
  unfold Table.checkOk Table.vars
  rw [List.map_append, List.prod_append, List.map_map, List.map_cons, List.prod_cons]
  have : (fun v => (f v).sign) ∘ Var.data = fun i => (f (.data i)).sign := rfl
  rw [this]
  by_cases hc : c = 0
  · rw [if_pos hc, if_pos hc]; simp
  · rw [if_neg hc, if_neg hc]; simp [mul_assoc]

theorem prod_ne_zero {l : List Int} (h : l.prod ≠ 0) : ∀ x ∈ l, x ≠ 0 := by
  intro x hx h0
  subst h0
  exact h (List.prod_eq_zero hx)

section
variable {T : Table} {β : Int} {G : Nat} {E : Finset Var} {sent : Var → Int} {message parity : List Int} {S : Nat → Soft}

/-- In a word all variables are decided. -/
theorem word_ne_zero {f : Soft} (hw : Word T f) {c : Nat} (hc : c < T.R) {v : Var} (hv : v ∈ T.vars c) : f.val v ≠ 0 := by
  have h1 := signs_of_checkOk.1 (hw c hc)
  have h2 := prod_ne_zero (by rw [h1]; norm_num) (f.val v).sign (List.mem_map.2 ⟨v, hv, rfl⟩)
  exact fun h0 => h2 (by rw [h0]; rfl)

theorem start_val (v : Var) : (start message parity).val v = value message parity v := by cases v <;> rfl

theorem getD_bytes {l : List Int} (h : ∀ x ∈ l, -128 ≤ x ∧ x ≤ 127) (i : Nat) : -128 ≤ l.getD i 0 ∧ l.getD i 0 ≤ 127 := by
  by_cases hi : i < l.length
  · rw [List.getD_eq_getElem _ _ hi]; exact h _ (List.getElem_mem hi)
  · rw [List.getD_eq_default _ _ (by omega)]; omega

theorem start_inv (hr : Received T E 1 sent message parity) (hs : SentWord T sent) :
    ∃ σ : Var → Int, (∀ c < T.R, ∀ v ∈ T.vars c, σ v = sent v) ∧ Signs T σ ∧ (∀ v, 0 ≤ σ v * value message parity v) ∧
      ∀ β, Inv T β σ (fun v => σ v * value message parity v) (start message parity) := by
  classical
  let σ : Var → Int := fun v => if ∃ c < T.R, v ∈ T.vars c then sent v else if value message parity v < 0 then -1 else 1
  have h1 : ∀ c < T.R, ∀ v ∈ T.vars c, σ v = sent v := fun c hc v hv => if_pos ⟨c, hc, hv⟩
  have hpm : ∀ v, σ v = 1 ∨ σ v = -1 := by
    intro v
    dsimp only [σ]
    split
    · exact hs.pm v
    · split
      · exact Or.inr rfl
      · exact Or.inl rfl
  have hnn : ∀ v, 0 ≤ σ v * value message parity v := by
    intro v
    by_cases hv : ∃ c < T.R, v ∈ T.vars c
    · obtain ⟨c, hc, hvc⟩ := hv
      rw [h1 c hc v hvc]
      by_cases hE : v ∈ E
      · rw [hr.erased c hc v hvc hE, mul_zero]
      · have := hr.kept c hc v hvc hE; omega
    · dsimp only [σ]
      rw [if_neg hv]
      split <;> omega
  refine ⟨σ, h1, ⟨hpm, fun c hc => ?_⟩, hnn, fun β => ?_⟩
  · rw [← signs_of_checkOk.1 (hs.checks c hc)]
    congr 1
    refine List.map_congr_left fun v hv => ?_
    rw [h1 c hc v hv]
    rcases hs.pm v with e | e <;> rw [e] <;> rfl
  · have hb : ∀ v, -128 ≤ value message parity v ∧ value message parity v ≤ 127 := by
      intro v
      cases v with
      | data i => exact getD_bytes hr.bytes.1 i
      | par i => exact getD_bytes hr.bytes.2 i
    refine ⟨fun c v => ?_, fun c v => ?_, fun v => ?_, fun v => ?_, fun c v _ u _ => ?_, fun c v => ?_⟩
    · change 0 ≤ σ v * 0; omega
    · change σ v * 0 ≤ 31; omega
    · rw [start_val]; exact (hb v).1
    · rw [start_val]; exact (hb v).2
    · change σ v * 0 ≤ _; rw [mul_zero]; exact mag_nonneg _ _
    · rw [start_val]
      change min 96 (_ + ∑ c' ∈ _, σ v * 0) ≤ σ v * (value message parity v - 0)
      rw [sum_congr rfl fun c' _ => mul_zero (σ v), sum_const_zero, add_zero, sub_zero]
      exact min_le_right _ _

theorem outcome (hβ : 0 ≤ β) (h64 : β ≤ 64) (hP : Prog T β G S) (h0 : S 0 = start message parity) (hs : SentWord T sent) (hr : Received T E 1 sent message parity)
    {trials ret : Int} {n : Nat} {message' parity' : List Int} (hmin : ∀ m < n, ¬ Word T (S m))
    (hv : ∀ c < T.R, ∀ v ∈ T.vars c, value message' parity' v = (S n).val v)
    (hret : (Word T (S n) ∧ ret = trials - n) ∨ (¬ Word T (S n) ∧ (n : Int) = trials ∧ ret = -1)) :
    Outcome T β G E sent message parity trials message' parity' ret := by
  obtain ⟨σ, hσs, hσ, hnn, hI⟩ := start_inv hr hs
  have hI0 : Inv T β σ (fun v => σ v * value message parity v) (S 0) := by rw [h0]; exact hI β
  have hinv := prog_inv hσ hnn hβ h64 hP hI0
  -- values never lose
  have hkeep : ∀ m, ∀ c < T.R, ∀ v ∈ T.vars c, sent v * value message parity v ≤ sent v * (S m).val v := by
    intro m c hc v hvc
    have := ((hinv m).2 0 (Nat.zero_le _)).1 v
    rw [h0, start_val, hσs c hc v hvc] at this
    exact this
  have hge : ∀ c < T.R, ∀ v ∈ T.vars c, 0 ≤ sent v * value message parity v := fun c hc v hvc => by rw [← hσs c hc v hvc]; exact hnn v
  have hpos : ∀ m, ∀ c < T.R, ∀ v ∈ T.vars c, (S m).val v ≠ 0 → 0 < sent v * (S m).val v := by
    intro m c hc v hvc hne
    have h1 := hkeep m c hc v hvc
    have h2 := hge c hc v hvc
    rcases hs.pm v with e | e <;> rw [e] at h1 h2 ⊢ <;> omega
  have hword : ∀ m, (∀ c < T.R, ∀ v ∈ T.vars c, 0 < sent v * (S m).val v) → Word T (S m) := by
    intro m hm c hc
    rw [signs_of_checkOk, ← signs_of_checkOk.1 (hs.checks c hc)]
    congr 1
    refine List.map_congr_left fun v hvc => ?_
    have := hm c hc v hvc
    rcases hs.pm v with e | e <;> rw [e] at this ⊢
    · rw [Int.sign_eq_one_of_pos (by omega)]; rfl
    · rw [Int.sign_eq_neg_one_of_neg (by omega)]; rfl
  have hfound : ∀ L : Nat, Received T E (1 + L * β) sent message parity → (L - 1 : Int) * β ≤ 30 → ∀ m, L * G ≤ m → ∀ c < T.R, ∀ v ∈ T.vars c, Within T (· ∈ E) L v →
      0 < sent v * (S m).val v := by
    intro L hrL hL m hm c hc v hvc hw
    have hsrc := prog_filled (E := (· ∈ E)) hσ hnn hβ h64 hP hI0 (L := L)
      (fun c hc v hvc hE => by rw [hσs c hc v hvc]; exact hrL.kept c hc v hvc hE) hL L (le_refl L)
    have h1 := source_pos hnn (hinv (L * G)).1 (by rw [sub_self, zero_mul, add_zero]) hsrc
      (fun hE => by rw [hσs c hc v hvc]; exact hr.kept c hc v hvc hE) hw
    have h2 := ((hinv m).2 (L * G) hm).1 v
    rw [hσs c hc v hvc] at h1 h2
    omega
  refine ⟨fun c hc v hvc => ?_, fun hret0 c hc v hvc => ?_, fun c hc v hvc hnp => ?_, fun L hrL hL hLt c hc v hvc hw => ?_, fun L hrL hL hLt hall => ?_⟩
  · rw [hv c hc v hvc]; exact hkeep n c hc v hvc
  · rw [hv c hc v hvc]
    rcases hret with ⟨hw, -⟩ | ⟨-, -, he⟩
    · exact hpos n c hc v hvc (word_ne_zero hw hc hvc)
    · omega
  · have hZ : Stopping T fun v => ¬ Peeled T E v := by
      intro c hc v hvc hnp
      by_contra hno
      push Not at hno
      exact hnp (.check hc hvc hno)
    -- variables that no check knows are left out
    have hZ' : Stopping T fun v => (∃ c < T.R, v ∈ T.vars c) ∧ ¬ Peeled T E v := by
      intro c hc v hvc hnp
      obtain ⟨u, hu, hz⟩ := hZ c hc v hvc hnp.2
      exact ⟨u, hu, ⟨c, hc, List.mem_of_mem_erase hu⟩, hz⟩
    have hz0 : Zero (fun v => (∃ c < T.R, v ∈ T.vars c) ∧ ¬ Peeled T E v) (S 0) := by
      rintro v ⟨⟨c, hc, hvc⟩, hnp⟩
      rw [h0]
      refine ⟨?_, fun _ => rfl⟩
      rw [start_val]
      refine hr.erased c hc v hvc ?_
      by_contra hE
      exact hnp (.received hE)
    have hz := (prog_zero hZ' hβ hP hz0 n v ⟨⟨c, hc, hvc⟩, hnp⟩).1
    refine ⟨by rw [hv c hc v hvc]; exact hz, ?_⟩
    rcases hret with ⟨hw, -⟩ | ⟨-, -, he⟩
    · exact absurd hz (word_ne_zero hw hc hvc)
    · exact he
  · rw [hv c hc v hvc]
    rcases hret with ⟨hw, -⟩ | ⟨-, hn', he⟩
    · exact hpos n c hc v hvc (word_ne_zero hw hc hvc)
    · refine hfound L hrL hL n ?_ c hc v hvc hw
      rw [Nat.mul_comm]
      omega
  · have hw : Word T (S (G * L)) := hword _ fun c hc v hvc => hfound L hrL hL _ (by rw [Nat.mul_comm]) c hc v hvc (hall c hc v hvc)
    have hle : n ≤ G * L := by
      by_contra hlt
      exact hmin _ (by omega) hw
    rcases hret with ⟨-, he⟩ | ⟨hnw, hn', -⟩
    · omega
    · have : n = G * L := by omega
      exact absurd (this ▸ hw) hnw

end

/-! ### C81 -/

/-- **C81.** For every well-formed table without repeated data bits that is fair for the word size, every offset from 0 to 64 and every behaviour of `std::sort`: every call of the
decoder on a codeword with erasures, on an object with any history of calls, has the outcome described above. -/
theorem C81_decode (C : Cfg) (h : C.WF) (hDR : C.D < C.T.R) (hT : C.T.Proper) (hF : C.T.Fair C.D) (hb0 : 0 ≤ C.BETA) (h64 : C.BETA ≤ 64)
    (srt : List Loc → List Loc) (hsrt : IsSort srt) (pos0 cnc0 : List Nat) (loc0 : List Loc) (wd0 : List Nat)
    (hp : pos0.length = C.T.q * C.T.CNC) (hcn : cnc0.length = C.T.q) (hl : loc0.length = C.LOC) (hw : wd0.length = C.PTY) :
    ∃ X wd, ∃ Ready : List Nat → Prop, mkDec C srt pos0 cnc0 loc0 wd0 = some (X, wd) ∧ wd.length = C.PTY ∧ Ready wd ∧
      ∀ (s : St) (message parity : List Int) (trials : Int) (E : Finset Var) (sent : Var → Int), StOK C s → Ready s.wd → message.length = C.T.K → parity.length = C.T.R → 0 ≤ trials →
        SentWord C.T sent → Received C.T E 1 sent message parity →
        ∃ r, decode C X s message parity trials = some r ∧ StOK C r.s ∧ Ready r.s.wd ∧
          ∀ G, C.T.Shares C.D G → Outcome C.T C.BETA G E sent message parity trials r.message r.parity r.trials := by
  obtain ⟨X, wd, act, At, h1, h2, h3, hrr, h4⟩ := C51_decode C h hDR hT hF hb0 h64 srt hsrt pos0 cnc0 loc0 wd0 hp hcn hl hw
  refine ⟨X, wd, fun w => ∃ N, At N w, h1, h2, ⟨0, h3⟩, ?_⟩
  rintro s message parity trials E sent hs ⟨N, hN⟩ hm hpl ht hsent hrec
  obtain ⟨r, n, g1, g2, g3, d1, d2, d3, d4, d5, d6, d7⟩ := h4 N s message parity trials hs hN hm hpl ht
  refine ⟨r, g1, g2, ⟨_, g3⟩, fun G hG => ?_⟩
  have hP : 2 ≤ C.PTY := by
    have h1 := h.hT.hR
    rw [h.hDM] at h1
    rw [h.pty_eq]
    by_contra hc
    have : C.W * C.T.q ≤ 1 := by omega
    have h2 : C.T.q * (C.W * C.D) ≤ 1 * C.D := by
      rw [← Nat.mul_assoc, Nat.mul_comm C.T.q]; exact Nat.mul_le_mul_right _ this
    omega
  refine outcome hb0 h64 (turns_prog h hP hrr hG C.BETA N (start message parity)) rfl hsent hrec d2 (fun c hc v hvc => ?_) d7
  cases v with
  | data i =>
    refine d4 i ?_
    rcases mem_vars.1 hvc with ⟨y, hy, e⟩ | e | ⟨-, e⟩
    · cases e; exact feeds_lt h.hT hy
    · cases e
    · cases e
  | par i =>
    refine d6 i ?_
    rcases mem_vars.1 hvc with ⟨y, hy, e⟩ | e | ⟨-, e⟩
    · cases e
    · cases e; exact hc
    · cases e; omega

/-- **C81** (no two data bits of a check in one register): then `G` is 1. -/
theorem C81_spread {C : Cfg} (h : C.WF) (hT : C.T.Spread C.D) : C.T.Shares C.D 1 := shares_of_spread h hT

/-- **C81** (any table): `G` is at most the number of lanes. -/
theorem C81_lanes {C : Cfg} (h : C.WF) : C.T.Shares C.D C.D := shares_lanes h

/-- **C81** (offset 0): with at least as many iterations as erasures, times `G`, the decoder is exactly the peeling decoder: the symbols that peeling finds are right in the
end, the others are 0; and it reports success exactly if peeling finds all. -/
theorem C81_peeling {T : Table} {G : Nat} {E : Finset Var} {sent : Var → Int} {message parity : List Int} {trials : Int} {message' parity' : List Int} {ret : Int}
    (hr : Received T E 1 sent message parity) (ht : (G * E.card : Nat) ≤ trials) (h : Outcome T 0 G E sent message parity trials message' parity' ret) :
    (∀ c < T.R, ∀ v ∈ T.vars c, (Peeled T E v → 0 < sent v * value message' parity' v) ∧ (¬ Peeled T E v → value message' parity' v = 0)) ∧
    (0 ≤ ret ↔ ∀ c < T.R, ∀ v ∈ T.vars c, Peeled T E v) := by
  have hr' : Received T E (1 + (E.card : Nat) * 0) sent message parity := by rw [mul_zero, add_zero]; exact hr
  refine ⟨fun c hc v hv => ⟨fun hp => ?_, fun hp => (h.stuck c hc v hv hp).1⟩, fun h0 c hc v hv => ?_, fun hall => ?_⟩
  · exact h.found E.card hr' (by rw [mul_zero]; norm_num) ht c hc v hv hp.within
  · by_contra hp
    have := (h.stuck c hc v hv hp).2
    omega
  · have := h.done E.card hr' (by rw [mul_zero]; norm_num) ht fun c hc v hv => (hall c hc v hv).within
    omega

/-- **C81** (rounds): peeling needs at most as many rounds as there are erasures, and finds nothing that is not found in some number of rounds. -/
theorem C81_rounds {T : Table} {E : Finset Var} {v : Var} : (Peeled T E v ↔ Within T (· ∈ E) E.card v) ∧ ∀ L, Within T (· ∈ E) L v → Peeled T E v :=
  ⟨⟨Peeled.within, Within.peeled⟩, fun _ => Within.peeled⟩

/-- The tables of the regression test and the word sizes to which the theorems apply, with `G`. -/
theorem C81_tables : (∀ T ∈ [dvb_t2_table_a1, dvb_t2_table_a3, dvb_t2_table_a6], (sse T).WF ∧ (sse T).D < T.R ∧ T.Proper ∧ T.Fair (sse T).D ∧ T.Shares (sse T).D 1) ∧
    ((sse dvb_t2_table_b7).WF ∧ dvb_t2_table_b7.Proper ∧ dvb_t2_table_b7.Fair (sse dvb_t2_table_b7).D ∧ dvb_t2_table_b7.Shares (sse dvb_t2_table_b7).D 15) ∧
    ∀ T ∈ [dvb_t2_table_a1, dvb_t2_table_a6, dvb_t2_table_b7], (avx2 T).WF ∧ (avx2 T).D < T.R ∧ T.Proper ∧ T.Fair (avx2 T).D ∧ T.Shares (avx2 T).D 30 := by
  obtain ⟨h1, h2⟩ := C51_tables
  refine ⟨fun T hT => ?_, ?_, fun T hT => ?_⟩
  · have k := h1 T (by simp only [List.mem_cons, List.not_mem_nil, or_false] at hT ⊢; tauto)
    exact ⟨k.1, k.2.1, k.2.2.1, k.2.2.2, shares_of_spread (C := sse T) k.1 (C50_tables T hT).2.2⟩
  · have k := h1 dvb_t2_table_b7 (by simp)
    exact ⟨k.1, k.2.2.1, k.2.2.2, shares_lanes (C := sse dvb_t2_table_b7) k.1⟩
  · have k := h2 T hT
    exact ⟨k.1, k.2.1, k.2.2.1, k.2.2.2, shares_lanes (C := avx2 T) k.1⟩

/-! ### Cases

The small code of LDPC/Props.lean, with the word `1, -1, 1, 1 | 1, -1, 1, 1`. -/

/-- The word sent. -/
def tinySent : Var → Int
  | .data 1 => -1
  | .par 1 => -1
  | _ => 1

example : SentWord tiny tinySent := by
  refine ⟨fun v => ?_, by unfold Table.checkOk; decide +kernel⟩
  unfold tinySent
  split <;> simp

/-- Two erasures that peeling finds in one round, and two that form a stopping set. -/
example : Received tiny {.data 0, .par 1} 1 tinySent [0, -2, 9, 1] [4, 0, 5, 6] := by
  refine ⟨by decide +kernel, by decide +kernel, by decide, by decide⟩
example : ∀ c < tiny.R, ∀ v ∈ tiny.vars c, Within tiny (· ∈ ({.data 0, .par 1} : Finset Var)) 1 v := by
  have : ∀ c < tiny.R, ∀ v ∈ tiny.vars c, v ∉ ({.data 0, .par 1} : Finset Var) ∨
      ∃ c < tiny.R, v ∈ tiny.vars c ∧ ∀ u ∈ (tiny.vars c).erase v, u ∉ ({.data 0, .par 1} : Finset Var) := by decide +kernel
  exact this
example : Stopping tiny (· ∈ ({.data 1, .data 2} : Finset Var)) := by
  unfold Stopping; decide +kernel
example : tinyC.WF ∧ tinyC.D < tinyC.T.R ∧ tiny.Shares 2 1 :=
  ⟨tiny_wf, by decide, C81_spread (C := tinyC) tiny_wf (by unfold Table.Spread; decide +kernel)⟩
/-- The decoder on both. -/
example : tinyDec [0, -2, 9, 1] [4, 0, 5, 6] = some ([2, -4, 11, 2], [6, -4, 6, 7], 4) := by decide +kernel
example : tinyDec [3, 0, 0, 1] [4, -1, 5, 6] = some ([12, 0, 0, 10], [10, -1, 10, 11], -1) := by decide +kernel

end Verif.LDPC
