import Verif.LDPC.Refine
import Verif.LDPC.Mask
/- Layers whose checks share data bits. -/
namespace Verif.LDPC
open Verif.RS (sb)

theorem find_unique {p : Nat → Bool} {l : List Nat} {c : Nat} (hc : c ∈ l) (hp : p c = true) (hu : ∀ c' ∈ l, p c' = true → c' = c) :
    l.find? p = some c := by
  cases hf : l.find? p with
  | none => exact absurd hp (by have := List.find?_eq_none.1 hf c hc; simpa using this)
  | some c' => rw [hu c' (List.mem_of_find?_eq_some hf) (List.find?_some hf)]

section
variable {T : Table} {β : Int} {act : Nat → Nat → Prop} {s : Soft} {cs : List Nat}

open Classical in
theorem layerStep_val {c : Nat} {v : Var} (hc : c ∈ cs) (hv : v ∈ T.vars c) (ha : ∀ x, v = .data x → act c x)
    (hu : ∀ c' ∈ cs, v ∈ T.vars c' → (∀ x, v = .data x → act c' x) → c' = c) :
    (layerStep T β act s cs).val v = sat (hear s c v + answer T β s c v) := by
  unfold layerStep
  dsimp only
  rw [find_unique (c := c) hc (decide_eq_true_iff.2 ⟨hv, ha⟩) fun c' h1 h2 => hu c' h1 (decide_eq_true_iff.1 h2).1 (decide_eq_true_iff.1 h2).2]

open Classical in
theorem layerStep_val_none {v : Var} (hn : ∀ c ∈ cs, v ∈ T.vars c → ¬ ∀ x, v = .data x → act c x) :
    (layerStep T β act s cs).val v = s.val v := by
  unfold layerStep
  dsimp only
  rw [List.find?_eq_none.2]
  intro c hc hh
  obtain ⟨h1, h2⟩ := decide_eq_true_iff.1 hh
  exact hn c hc h1 h2

theorem layerStep_msg {c : Nat} {v : Var} (hc : c ∈ cs) (hv : v ∈ T.vars c) (ha : ∀ x, v = .data x → act c x) :
    (layerStep T β act s cs).msg c v = answer T β s c v := by
  unfold layerStep
  dsimp only
  rw [if_pos ⟨hc, hv, ha⟩]

theorem layerStep_msg_old {c : Nat} {v : Var} (hn : c ∈ cs → ¬ ∀ x, v = .data x → act c x) :
    (layerStep T β act s cs).msg c v = s.msg c v := by
  unfold layerStep
  dsimp only
  rw [if_neg]
  rintro ⟨h1, _, h3⟩
  exact hn h1 h3

end

theorem layerChecks_eq (C : Cfg) (i j : Nat) : layerChecks C.T C.D i j = (List.range C.D).map (chk C i j) := rfl

/-- One layer with exactly one enabled link for each register. -/
theorem rel_scatter_multi {C : Cfg} (h : C.WF) (hP : 2 ≤ C.PTY) (hb0 : 0 ≤ C.BETA) (h64 : C.BETA ≤ 64) {X : Dec}
    {Es : Nat → Nat → List (Nat × Nat)} (hL : Links C X Es) {s s' : St} {f : Soft} (hR : Rel C Es s f) {i j : Nat} (hi : i < C.T.q)
    (hj : j < C.W) (hnd : ∀ n < C.D, (lvars C.T (Es i j) (C.W * n + j) (chk C i j n)).Nodup) {w : Nat}
    (hone : ∀ k k' (hk : k < (Es i j).length) (hk' : k' < (Es i j).length), w.testBit k = false → w.testBit k' = false →
      (locOf C j (Es i j)[k]).off = (locOf C j (Es i j)[k']).off → k = k') {act : Nat → Nat → Prop}
    (hact : ∀ n < C.D, ∀ k (hk : k < (Es i j).length), act (chk C i j n) (bitAt C.T (C.W * n + j) (Es i j)[k]) ↔ w.testBit k = false)
    (hs : ScatEx C s (Es i j) i j w ((Es i j).length + 2) s') :
    Rel C Es s' (layerStep C.T C.BETA act f (layerChecks C.T C.D i j)) := by
  have hEp := (hL i hi j hj).1
  rw [layerChecks_eq]
  set cs := (List.range C.D).map (chk C i j) with hcs
  set g := layerStep C.T C.BETA act f cs with hg
  have hmem : ∀ n < C.D, chk C i j n ∈ cs := fun n hn => List.mem_map.2 ⟨n, List.mem_range.2 hn, rfl⟩
  have hmem' : ∀ c ∈ cs, ∃ n < C.D, c = chk C i j n := by
    intro c hc
    obtain ⟨n, hn, rfl⟩ := List.mem_map.1 hc
    exact ⟨n, List.mem_range.1 hn, rfl⟩
  have hvars : ∀ n < C.D, ∀ v, v ∈ C.T.vars (chk C i j n) ↔ v ∈ lvars C.T (Es i j) (C.W * n + j) (chk C i j n) := fun n hn v =>
    ((vars_perm h hi hj hn hEp).mem_iff).symm
  have hgetd : ∀ n k (hk : k < (Es i j).length), (lvars C.T (Es i j) (C.W * n + j) (chk C i j n))[k]? =
      some (.data (bitAt C.T (C.W * n + j) (Es i j)[k])) := fun n k hk => by rw [lvars_get, dif_pos hk]
  have hget1 : ∀ n, (lvars C.T (Es i j) (C.W * n + j) (chk C i j n))[(Es i j).length]? = some (.par (chk C i j n)) := fun n => by
    rw [lvars_get, dif_neg (by omega), if_pos rfl]
  have hget2 : ∀ n, chk C i j n ≠ 0 → (lvars C.T (Es i j) (C.W * n + j) (chk C i j n))[(Es i j).length + 1]? = some (.par (chk C i j n - 1)) :=
    fun n hn => by rw [lvars_get, dif_neg (by omega), if_neg (by omega), if_pos ⟨rfl, hn⟩]
  -- new values of the layer
  have hvald : ∀ n < C.D, ∀ k (hk : k < (Es i j).length), w.testBit k = false →
      g.val (.data (bitAt C.T (C.W * n + j) (Es i j)[k])) = newVal C s (Es i j) i j n k := by
    intro n hn k hk hwk
    rw [(newOut_eq h h64 hL hR hi hj hn (hnd n hn) (hgetd n k hk)).2]
    refine layerStep_val (hmem n hn) ((hvars n hn _).2 (List.mem_of_getElem? (hgetd n k hk))) (fun x hx => ?_) fun c' hc' hv' ha' => ?_
    · injection hx with hx
      rw [← hx]; exact (hact n hn k hk).2 hwk
    · obtain ⟨n', hn', rfl⟩ := hmem' c' hc'
      rw [hvars n' hn', mem_lvars] at hv'
      rcases hv' with ⟨k', hk', h1⟩ | h1 | ⟨_, h1⟩
      · injection h1 with h1
        have h2 := ha' _ rfl
        rw [h1] at h2
        have h3 := hone k k' hk hk' hwk ((hact n' hn' k' hk').1 h2) (bitAt_off h hn hn' h1)
        subst h3
        rw [bitAt_lane h hn hn' h1]
      · cases h1
      · cases h1
  have hvalp : ∀ n < C.D, ∀ k p, (lvars C.T (Es i j) (C.W * n + j) (chk C i j n))[k]? = some (.par p) →
      g.val (.par p) = newVal C s (Es i j) i j n k := by
    intro n hn k p hv
    rw [(newOut_eq h h64 hL hR hi hj hn (hnd n hn) hv).2]
    have hm : Var.par p ∈ C.T.vars (chk C i j n) := (hvars n hn _).2 (List.mem_of_getElem? hv)
    refine layerStep_val (hmem n hn) hm (fun x hx => by cases hx) fun c' hc' hv' _ => ?_
    obtain ⟨n', hn', rfl⟩ := hmem' c' hc'
    rw [hvars n hn, mem_lvars] at hm
    rw [hvars n' hn', mem_lvars] at hv'
    rcases hm with ⟨_, _, h1⟩ | h1 | ⟨h0, h1⟩
    · cases h1
    · injection h1 with h1
      rcases hv' with ⟨_, _, h2⟩ | h2 | ⟨h0', h2⟩
      · cases h2
      · injection h2 with h2; omega
      · injection h2 with h2
        exact absurd (show chk C i j n' = chk C i j n + 1 by omega) (chk_prev_ne h hP hi hj)
    · injection h1 with h1
      rcases hv' with ⟨_, _, h2⟩ | h2 | ⟨h0', h2⟩
      · cases h2
      · injection h2 with h2
        exact absurd (show chk C i j n = chk C i j n' + 1 by omega) (chk_prev_ne h hP hi hj)
      · injection h2 with h2; omega
  refine ⟨fun x hx => ?_, fun c hc => ?_, fun i' hi' j' hj' n hn k v hv => ?_, ?_⟩
  · by_cases hex : ∃ n, n < C.D ∧ ∃ k, ∃ hk : k < (Es i j).length, x = bitAt C.T (C.W * n + j) (Es i j)[k] ∧ w.testBit k = false
    · obtain ⟨n, hn, k, hk, rfl, hwk⟩ := hex
      rw [hvald n hn k hk hwk]
      refine hs.hdnew k hk (by omega) hwk (fun k' hk' _ hlt hwk' hoff => ?_) n hn
      have := hone k' k hk' hk hwk' hwk hoff
      omega
    · push Not at hex
      rw [hs.hdsame x hx fun k hk _ hwk n hn he => absurd hwk (hex n hn k hk he), hR.hd x hx]
      refine (layerStep_val_none fun c hc hv ha => ?_).symm
      obtain ⟨n, hn, rfl⟩ := hmem' c hc
      rw [hvars n hn, mem_lvars] at hv
      rcases hv with ⟨k, hk, h1⟩ | h1 | ⟨_, h1⟩
      · injection h1 with h1
        have h2 := ha x rfl
        rw [h1] at h2
        exact hex n hn k hk h1 ((hact n hn k hk).1 h2)
      · cases h1
      · cases h1
  · by_cases h1 : ∃ n, n < C.D ∧ c = chk C i j n
    · obtain ⟨n, hn, rfl⟩ := h1
      rw [hs.hp1 (by omega) n hn]
      exact (hvalp n hn _ _ (hget1 n)).symm
    · by_cases h2 : ∃ n, n < C.D ∧ c + 1 = chk C i j n
      · obtain ⟨n, hn, h2⟩ := h2
        have hc1 : c = chk C i j n - 1 := by omega
        rw [hc1, hs.hp2 (by omega) n hn (by omega)]
        exact (hvalp n hn _ _ (hget2 n (by omega))).symm
      · push Not at h1 h2
        rw [hs.hp0 c hc (fun _ => h1) (fun _ => h2), hR.hp c hc]
        refine (layerStep_val_none fun c' hc' hv _ => ?_).symm
        obtain ⟨n, hn, rfl⟩ := hmem' c' hc'
        rw [hvars n hn, mem_lvars] at hv
        rcases hv with ⟨k, hk, h3⟩ | h3 | ⟨h0, h3⟩
        · cases h3
        · injection h3 with h3
          exact h1 n hn h3
        · injection h3 with h3
          exact h2 n hn (by omega)
  · have hlen : (Es i' j').length = (C.T.ent i').length := (hL i' hi' j' hj').1.length_eq
    have hlen2 : (Es i j).length = (C.T.ent i).length := hEp.length_eq
    have hkl : k < (Es i' j').length + 2 := by
      have h1 := (List.getElem?_eq_some_iff.1 hv).1
      have := lvars_length C.T (Es i' j') (C.W * n + j') (chk C i' j' n)
      split at this <;> omega
    by_cases heq : i' = i ∧ j' = j
    · obtain ⟨rfl, rfl⟩ := heq
      rw [hs.hbin k hkl n hn]
      by_cases hdis : k < (Es i' j').length ∧ w.testBit k = true
      · rw [if_neg (fun hh => hh.2 hdis), hR.hm i' hi' j' hj' n hn k v hv]
        refine (layerStep_msg_old fun _ ha => ?_).symm
        rw [hgetd n k hdis.1] at hv
        injection hv with hv
        have h2 := (hact n hn k hdis.1).1 (ha _ hv.symm)
        rw [hdis.2] at h2
        cases h2
      · rw [if_pos ⟨hkl, hdis⟩, (newOut_eq h h64 hL hR hi hj hn (hnd n hn) hv).1]
        refine (layerStep_msg (hmem n hn) ((hvars n hn _).2 (List.mem_of_getElem? hv)) fun x hx => ?_).symm
        subst hx
        by_cases hk : k < (Es i' j').length
        · rw [hgetd n k hk] at hv
          injection hv with hv
          injection hv with hv
          rw [← hv]
          refine (hact n hn k hk).2 ?_
          by_contra hc
          exact hdis ⟨hk, by simpa using hc⟩
        · rw [lvars_get, dif_neg hk] at hv
          split at hv
          · cases hv
          · split at hv <;> cases hv
    · unfold lane
      rw [hs.hbout _ (by rw [hlen2]; exact bl0_disjoint hj hj' heq ⟨by omega, by omega⟩)]
      have := hR.hm i' hi' j' hj' n hn k v hv
      unfold lane at this
      rw [this]
      refine (layerStep_msg_old fun hc _ => ?_).symm
      obtain ⟨n', hn', h1⟩ := hmem' _ hc
      obtain ⟨g1, g2, _⟩ := chk_inj hi' hi hj' hj h1
      exact heq ⟨g1, g2⟩
  · have hD := h.hD
    have hlen : (Es 0 0).length = (C.T.ent 0).length := (hL 0 h.hT.hq 0 h.hW).1.length_eq
    have hlen2 : (Es i j).length = (C.T.ent i).length := hEp.length_eq
    by_cases heq : 0 = i ∧ 0 = j
    · obtain ⟨rfl, rfl⟩ := heq
      rw [hs.hbin _ (by omega) 0 (by omega), if_pos ⟨by omega, by omega⟩]
      exact newOut_bounds hb0 _ _ _ _ _ _
    · unfold lane
      rw [hs.hbout _ (by rw [hlen2]; exact bl0_disjoint hj h.hW heq ⟨by omega, by omega⟩)]
      exact hR.h0

end Verif.LDPC
