import Verif.LDPC.Scatter
/- Tables whose checks have at most one data bit in each register: a layer is one step of message passing for each of its checks. -/
namespace Verif.LDPC
open Verif.RS (sb)

/-! #### Steps of checks without common variables -/

section spec
variable (T : Table) (β : Int)

theorem hear_congr {s s' : Soft} {c : Nat} (hv : ∀ v ∈ T.vars c, s.val v = s'.val v) (hm : ∀ v, s.msg c v = s'.msg c v) :
    ∀ v ∈ T.vars c, hear s c v = hear s' c v := by
  intro v hh
  unfold hear
  rw [hv v hh, hm v]

theorem answer_congr {s s' : Soft} {c : Nat} (hv : ∀ v ∈ T.vars c, s.val v = s'.val v) (hm : ∀ v, s.msg c v = s'.msg c v) (v : Var) :
    answer T β s c v = answer T β s' c v := by
  unfold answer
  rw [hm v]
  congr 2
  apply List.map_congr_left
  intro u hu
  exact hear_congr T hv hm u (List.mem_of_mem_erase hu)

theorem checkStep_congr {s s' : Soft} {c : Nat} (hv : ∀ v ∈ T.vars c, s.val v = s'.val v) (hm : ∀ v, s.msg c v = s'.msg c v) :
    (∀ v ∈ T.vars c, (checkStep T β s c).val v = (checkStep T β s' c).val v) ∧
    ∀ v, (checkStep T β s c).msg c v = (checkStep T β s' c).msg c v := by
  constructor
  · intro v hh
    unfold checkStep
    dsimp only
    rw [if_pos hh, if_pos hh, hear_congr T hv hm v hh, answer_congr T β hv hm]
  · intro v
    unfold checkStep
    dsimp only
    rw [answer_congr T β hv hm, hm v]

/-- Checks without common variables can be done in any order, or all at once. -/
theorem fold_disjoint (cs : List Nat) : ∀ (s : Soft), cs.Pairwise (fun c c' => c ≠ c' ∧ ∀ v ∈ T.vars c, v ∉ T.vars c') →
    (∀ c ∈ cs, (∀ v ∈ T.vars c, (cs.foldl (checkStep T β) s).val v = (checkStep T β s c).val v) ∧
      ∀ v, (cs.foldl (checkStep T β) s).msg c v = (checkStep T β s c).msg c v) ∧
    (∀ v, (∀ c ∈ cs, v ∉ T.vars c) → (cs.foldl (checkStep T β) s).val v = s.val v) ∧
    ∀ c, c ∉ cs → ∀ v, (cs.foldl (checkStep T β) s).msg c v = s.msg c v := by
  induction cs with
  | nil => intro s _; exact ⟨fun c hc => (by simp at hc), fun v _ => rfl, fun c _ v => rfl⟩
  | cons a cs ih =>
    intro s hp
    rw [List.pairwise_cons] at hp
    obtain ⟨i1, i2, i3⟩ := ih (checkStep T β s a) hp.2
    rw [List.foldl_cons]
    have hna : a ∉ cs := fun hh => (hp.1 a hh).1 rfl
    have hval : ∀ v, v ∉ T.vars a → (checkStep T β s a).val v = s.val v := fun v hv => by
      unfold checkStep; dsimp only; rw [if_neg hv]
    have hmsg : ∀ c, c ≠ a → ∀ v, (checkStep T β s a).msg c v = s.msg c v := fun c hc v => by
      unfold checkStep; dsimp only; rw [if_neg (fun hh => hc hh.1)]
    refine ⟨fun c hc => ?_, fun v hv => ?_, fun c hc v => ?_⟩
    · rcases List.mem_cons.1 hc with rfl | hc
      · exact ⟨fun v hv => i2 v fun c' hc' => (hp.1 c' hc').2 v hv, fun v => i3 c hna v⟩
      · obtain ⟨hne, hdis⟩ := hp.1 c hc
        obtain ⟨k1, k2⟩ := checkStep_congr T β (s := checkStep T β s a) (s' := s) (c := c)
          (fun v hv => hval v fun hva => hdis v hva hv) (hmsg c (fun hh => hne hh.symm))
        exact ⟨fun v hv => ((i1 c hc).1 v hv).trans (k1 v hv), fun v => ((i1 c hc).2 v).trans (k2 v)⟩
    · rw [i2 v fun c hc => hv c (List.mem_cons_of_mem _ hc), hval v (hv a List.mem_cons_self)]
    · rw [i3 c (fun hh => hc (List.mem_cons_of_mem _ hh)) v, hmsg c (fun hh => hc (by rw [hh]; exact List.mem_cons_self)) v]

end spec

/-! #### The links of a check -/

/-- The variables on the links of check `c = q t + i`, in the decoder's order. -/
def lvars (T : Table) (E : List (Nat × Nat)) (t c : Nat) : List Var :=
  E.map (fun e => Var.data (bitAt T t e)) ++ (Var.par c :: if c = 0 then [] else [Var.par (c - 1)])

theorem lvars_length (T : Table) (E : List (Nat × Nat)) (t c : Nat) : (lvars T E t c).length = E.length + (if c = 0 then 1 else 2) := by
  unfold lvars
  split <;> simp

theorem lvars_get (T : Table) (E : List (Nat × Nat)) (t c k : Nat) : (lvars T E t c)[k]? =
    if h : k < E.length then some (Var.data (bitAt T t E[k])) else if k = E.length then some (Var.par c) else
      if k = E.length + 1 ∧ c ≠ 0 then some (Var.par (c - 1)) else none := by
  unfold lvars
  by_cases h : k < E.length
  · rw [dif_pos h, List.getElem?_append_left (by simpa using h)]
    simp [h]
  · rw [dif_neg h, List.getElem?_append_right (by simp; omega), List.length_map]
    by_cases h2 : k = E.length
    · rw [if_pos h2, h2, Nat.sub_self]; rfl
    · rw [if_neg h2]
      obtain ⟨d, hd⟩ : ∃ d, k - E.length = d + 1 := ⟨k - E.length - 1, by omega⟩
      rw [hd, List.getElem?_cons_succ]
      by_cases h0 : c = 0
      · rw [if_pos h0, if_neg (by simp [h0])]; rfl
      · rw [if_neg h0]
        by_cases h3 : k = E.length + 1
        · rw [if_pos ⟨h3, h0⟩, show d = 0 by omega]; rfl
        · rw [if_neg (fun hh => h3 hh.1), show d = (d - 1) + 1 by omega]; rfl

theorem vars_perm {C : Cfg} (h : C.WF) {i j n : Nat} (hi : i < C.T.q) (hj : j < C.W) (hn : n < C.D) {E : List (Nat × Nat)}
    (hE : E.Perm (C.T.ent i)) : (lvars C.T E (C.W * n + j) (chk C i j n)).Perm (C.T.vars (chk C i j n)) := by
  have ht : C.W * n + j < C.T.M := by
    have : C.W * n + C.W ≤ C.W * C.D := by rw [← Nat.mul_succ]; exact Nat.mul_le_mul_left _ hn
    rw [h.hDM]; omega
  unfold lvars Table.vars
  rw [show chk C i j n = C.T.q * (C.W * n + j) + i from rfl, feeds_eq h.hT ht hi, List.map_map]
  exact (hE.map _).append_right _

/-- No two data bits of a layer's checks are in the same register. -/
def Simple (C : Cfg) (E : List (Nat × Nat)) (j : Nat) : Prop :=
  ∀ k k' (hk : k < E.length) (hk' : k' < E.length), (locOf C j E[k]).off = (locOf C j E[k']).off → k = k'

theorem bitAt_off {C : Cfg} (h : C.WF) {e e' : Nat × Nat} {n n' j : Nat} (hn : n < C.D) (hn' : n' < C.D)
    (hb : bitAt C.T (C.W * n + j) e = bitAt C.T (C.W * n' + j) e') : (locOf C j e).off = (locOf C j e').off := by
  rw [← (reg_of_bit h (e := e) n j hn).1, ← (reg_of_bit h (e := e') n' j hn').1, hb]

theorem bitAt_lane {C : Cfg} (h : C.WF) {e : Nat × Nat} {n n' j : Nat} (hn : n < C.D) (hn' : n' < C.D)
    (hb : bitAt C.T (C.W * n + j) e = bitAt C.T (C.W * n' + j) e) : n = n' := by
  have h1 := (reg_of_bit h (e := e) n j hn).2
  have h2 := (reg_of_bit h (e := e) n' j hn').2
  rw [hb, h2] at h1
  have h3 : (n' + (locOf C j e).shi) ≡ (n + (locOf C j e).shi) [MOD C.D] := h1
  have h4 : n' ≡ n [MOD C.D] := Nat.ModEq.add_right_cancel' _ h3
  unfold Nat.ModEq at h4
  rw [Nat.mod_eq_of_lt hn, Nat.mod_eq_of_lt hn'] at h4
  exact h4.symm

theorem lvars_nodup {C : Cfg} (h : C.WF) {i j n : Nat} (hn : n < C.D) {E : List (Nat × Nat)} (hS : Simple C E j) :
    (lvars C.T E (C.W * n + j) (chk C i j n)).Nodup := by
  unfold lvars
  rw [List.nodup_append]
  refine ⟨?_, ?_, ?_⟩
  · rw [List.nodup_iff_injective_getElem]
    rintro ⟨k, hk⟩ ⟨k', hk'⟩ hh
    simp only [List.getElem_map, Var.data.injEq] at hh
    simp only [List.length_map] at hk hk'
    exact Fin.ext (hS k k' hk hk' (bitAt_off h hn hn hh))
  · split
    · simp
    · simp; omega
  · intro a ha b hb hab
    obtain ⟨e, _, rfl⟩ := List.mem_map.1 ha
    subst hab
    split at hb <;> simp at hb

theorem chk_inj {C : Cfg} {i j n i' j' n' : Nat} (hi : i < C.T.q) (hi' : i' < C.T.q) (hj : j < C.W) (hj' : j' < C.W)
    (he : chk C i j n = chk C i' j' n') : i = i' ∧ j = j' ∧ n = n' := by
  unfold chk at he
  obtain ⟨h1, h2⟩ := idx_inj hi hi' he
  obtain ⟨h3, h4⟩ := idx_inj hj hj' h1
  exact ⟨h2, h4, h3⟩

theorem chk_lt {C : Cfg} (h : C.WF) {i j n : Nat} (hi : i < C.T.q) (hj : j < C.W) (hn : n < C.D) : chk C i j n < C.T.R :=
  (ptyIx h).1 i j n hi hj hn

/-- The predecessor of a check of a layer is in a different layer. -/
theorem chk_prev_ne {C : Cfg} (h : C.WF) (hP : 2 ≤ C.PTY) {i j n n' : Nat} (hi : i < C.T.q) (hj : j < C.W) : chk C i j n ≠ chk C i j n' + 1 := by
  unfold chk
  intro he
  have hW := h.hW
  have hq := h.hT.hq
  rw [h.pty_eq] at hP
  by_cases hq1 : C.T.q = 1
  · rw [hq1] at he hP
    have : C.W * n = C.W * n' + 1 := by omega
    have h2 : C.W ∣ C.W * n' + 1 := ⟨n, this.symm⟩
    rw [Nat.dvd_add_right (Dvd.intro _ rfl)] at h2
    have := Nat.le_of_dvd (by omega) h2
    omega
  · have : C.T.q * (C.W * n + j) = C.T.q * (C.W * n' + j) + 1 := by omega
    have h2 : C.T.q ∣ C.T.q * (C.W * n' + j) + 1 := ⟨_, this.symm⟩
    rw [Nat.dvd_add_right (Dvd.intro _ rfl)] at h2
    have := Nat.le_of_dvd (by omega) h2
    omega

theorem mem_lvars {T : Table} {E : List (Nat × Nat)} {t c : Nat} {v : Var} : v ∈ lvars T E t c ↔
    (∃ k, ∃ h : k < E.length, v = .data (bitAt T t E[k])) ∨ v = .par c ∨ (c ≠ 0 ∧ v = .par (c - 1)) := by
  unfold lvars
  rw [List.mem_append, List.mem_cons]
  refine or_congr ?_ (or_congr_right ?_)
  · rw [List.mem_map]
    constructor
    · rintro ⟨e, he, rfl⟩
      obtain ⟨k, hk, rfl⟩ := List.getElem_of_mem he
      exact ⟨k, hk, rfl⟩
    · rintro ⟨k, hk, rfl⟩
      exact ⟨_, List.getElem_mem hk, rfl⟩
  · by_cases h0 : c = 0
    · simp [h0]
    · simp [h0]

/-- The checks of a layer have no common variables. -/
theorem layer_disjoint {C : Cfg} (h : C.WF) (hP : 2 ≤ C.PTY) {i j : Nat} (hi : i < C.T.q) (hj : j < C.W) {E : List (Nat × Nat)}
    (hE : E.Perm (C.T.ent i)) (hS : Simple C E j) :
    ((List.range C.D).map (chk C i j)).Pairwise fun c c' => c ≠ c' ∧ ∀ v ∈ C.T.vars c, v ∉ C.T.vars c' := by
  rw [List.pairwise_map]
  refine List.Pairwise.imp_of_mem ?_ List.nodup_range
  intro n n' hn hn' hne
  rw [List.mem_range] at hn hn'
  refine ⟨fun hh => hne (chk_inj hi hi hj hj hh).2.2, fun v hv hv' => ?_⟩
  rw [← (vars_perm h hi hj hn hE).mem_iff, mem_lvars] at hv
  rw [← (vars_perm h hi hj hn' hE).mem_iff, mem_lvars] at hv'
  rcases hv with ⟨k, hk, rfl⟩ | rfl | ⟨h0, rfl⟩
  · rcases hv' with ⟨k', hk', h1⟩ | h1 | ⟨_, h1⟩
    · injection h1 with h1
      have := hS k k' hk hk' (bitAt_off h hn hn' h1)
      subst this
      exact hne (bitAt_lane h hn hn' h1)
    · cases h1
    · cases h1
  · rcases hv' with ⟨k', hk', h1⟩ | h1 | ⟨h0, h1⟩
    · cases h1
    · injection h1 with h1
      exact hne (chk_inj hi hi hj hj h1).2.2
    · injection h1 with h1
      exact chk_prev_ne h hP (n := n') (n' := n) hi hj (by omega)
  · rcases hv' with ⟨k', hk', h1⟩ | h1 | ⟨h0', h1⟩
    · cases h1
    · injection h1 with h1
      exact chk_prev_ne h hP (n := n) (n' := n') hi hj (by omega)
    · injection h1 with h1
      exact hne (chk_inj hi hi hj hj (show chk C i j n = chk C i j n' by omega)).2.2

end Verif.LDPC
