import Verif.LDPC.RefineMulti
import Verif.LDPC.PropsExact
/- C51 (ldpc_decoder.hh): tables with several data bits of a check in one register.  The links that share a register take turns;
with them the decoder computes the algorithm `turnIteration` of LDPC/SpecDec.lean exactly. -/
namespace Verif.LDPC
open Verif.RS (sb)

/-- The register of data bit `x`. -/
def Table.reg (T : Table) (D x : Nat) : Nat := T.M / D * (x / T.M) + x % (T.M / D)

/-- There is no check whose highest register is used by a single data bit `z` while the next lower one is used by two or more. -/
def Table.Fair (T : Table) (D : Nat) : Prop := ∀ c < T.R, ∀ x ∈ T.feeds c, ∀ y ∈ T.feeds c, ∀ z ∈ T.feeds c, x ≠ y →
  T.reg D x = T.reg D y → T.reg D y < T.reg D z → ∃ u ∈ T.feeds c, u ≠ z ∧ T.reg D y < T.reg D u

/-- No data bit occurs twice in a check. -/
def Table.Proper (T : Table) : Prop := ∀ c < T.R, (T.feeds c).Nodup

section
variable {C : Cfg} (h : C.WF)
include h

theorem reg_bitAt {e : Nat × Nat} {n j : Nat} (hn : n < C.D) : C.T.reg C.D (bitAt C.T (C.W * n + j) e) = (locOf C j e).off := by
  rw [← (reg_of_bit h (e := e) n j hn).1]
  unfold Table.reg
  have hdvd : C.W ∣ C.T.M := ⟨C.D, h.hDM⟩
  rw [Nat.mod_mod_of_dvd _ hdvd]
  rfl

theorem t_bound {n j : Nat} (hj : j < C.W) (hn : n < C.D) : C.W * n + j < C.T.M := by
  have : C.W * n + C.W ≤ C.W * C.D := by rw [← Nat.mul_succ]; exact Nat.mul_le_mul_left _ hn
  rw [h.hDM]; omega

theorem mem_feeds {i j n : Nat} (hi : i < C.T.q) (hj : j < C.W) (hn : n < C.D) {E : List (Nat × Nat)} (hE : E.Perm (C.T.ent i)) {x : Nat} :
    x ∈ C.T.feeds (chk C i j n) ↔ ∃ k, ∃ hk : k < E.length, x = bitAt C.T (C.W * n + j) E[k] := by
  rw [show chk C i j n = C.T.q * (C.W * n + j) + i from rfl, feeds_eq h.hT (t_bound h hj hn) hi,
    ← (hE.map (bitAt C.T (C.W * n + j))).mem_iff, List.mem_map]
  constructor
  · rintro ⟨e, he, rfl⟩
    obtain ⟨k, hk, rfl⟩ := List.getElem_of_mem he
    exact ⟨k, hk, rfl⟩
  · rintro ⟨k, hk, rfl⟩
    exact ⟨_, List.getElem_mem hk, rfl⟩

theorem proper_inj (hT : C.T.Proper) {i j n : Nat} (hi : i < C.T.q) (hj : j < C.W) (hn : n < C.D) {E : List (Nat × Nat)}
    (hE : E.Perm (C.T.ent i)) {k k' : Nat} (hk : k < E.length) (hk' : k' < E.length)
    (hb : bitAt C.T (C.W * n + j) E[k] = bitAt C.T (C.W * n + j) E[k']) : k = k' := by
  have h1 := hT _ (chk_lt h hi hj hn)
  unfold chk at h1
  rw [feeds_eq h.hT (t_bound h hj hn) hi, ← (hE.map (bitAt C.T (C.W * n + j))).nodup_iff] at h1
  have h3 := List.nodup_iff_injective_getElem.1 h1
  have h4 := @h3 ⟨k, by simpa using hk⟩ ⟨k', by simpa using hk'⟩ (by simpa using hb)
  simpa using h4

theorem proper_nodup (hT : C.T.Proper) {i j n : Nat} (hi : i < C.T.q) (hj : j < C.W) (hn : n < C.D) {E : List (Nat × Nat)}
    (hE : E.Perm (C.T.ent i)) : (lvars C.T E (C.W * n + j) (chk C i j n)).Nodup := by
  unfold lvars
  rw [List.nodup_append]
  refine ⟨?_, ?_, ?_⟩
  · rw [List.nodup_iff_injective_getElem]
    rintro ⟨k, hk⟩ ⟨k', hk'⟩ hh
    simp only [List.getElem_map, Var.data.injEq] at hh
    simp only [List.length_map] at hk hk'
    exact Fin.ext (proper_inj h hT hi hj hn hE hk hk' hh)
  · split
    · simp
    · simp; omega
  · intro a ha b hb hab
    obtain ⟨e, _, rfl⟩ := List.mem_map.1 ha
    subst hab
    split at hb <;> simp at hb

end

theorem offs_get {C : Cfg} {E : List (Nat × Nat)} {j k : Nat} (hk : k < E.length) : offs C E j k = (locOf C j E[k]).off := by
  unfold offs
  rw [← getElem_eq_getD hk]

theorem offs_sorted {C : Cfg} {loc : List Loc} {i j : Nat} {E : List (Nat × Nat)} (hE : Slice C loc i j E) {a b : Nat} (hab : a ≤ b)
    (hb : b < E.length) : offs C E j a ≤ offs C E j b := by
  rcases Nat.lt_or_eq_of_le hab with hlt | rfl
  · have := List.pairwise_iff_getElem.1 hE.2.2 a b (by simp; omega) (by simpa using hb) hlt
    rw [List.getElem_map, List.getElem_map] at this
    rw [offs_get (by omega), offs_get hb]
    exact this
  · exact le_rfl

theorem fair_good {C : Cfg} (h : C.WF) (hT : C.T.Proper) (hF : C.T.Fair C.D) {loc : List Loc} {i j : Nat} (hi : i < C.T.q) (hj : j < C.W)
    {E : List (Nat × Nat)} (hE : Slice C loc i j E) : GoodRow (offs C E j) E.length := by
  intro h3 heq
  by_contra hne
  have hD := h.hD
  have h0 : 0 < C.D := by omega
  have g1 : E.length - 3 < E.length := by omega
  have g2 : E.length - 2 < E.length := by omega
  have g3 : E.length - 1 < E.length := by omega
  have hlt : offs C E j (E.length - 2) < offs C E j (E.length - 1) := lt_of_le_of_ne (offs_sorted hE (by omega) g3) hne
  have hm := fun x => mem_feeds h (x := x) hi hj h0 hE.1
  obtain ⟨u, hu, hne2, hlt2⟩ := hF _ (chk_lt h hi hj h0) _ ((hm _).2 ⟨_, g1, rfl⟩) _ ((hm _).2 ⟨_, g2, rfl⟩) _ ((hm _).2 ⟨_, g3, rfl⟩)
    (fun hh => by have := proper_inj h hT hi hj h0 hE.1 g1 g2 hh; omega)
    (by rw [reg_bitAt h h0, reg_bitAt h h0, ← offs_get, ← offs_get]; exact heq)
    (by rw [reg_bitAt h h0, reg_bitAt h h0, ← offs_get, ← offs_get]; exact hlt)
  obtain ⟨k, hk, rfl⟩ := (hm u).1 hu
  rw [reg_bitAt h h0, reg_bitAt h h0, ← offs_get, ← offs_get] at hlt2
  by_cases hkl : k = E.length - 1
  · subst hkl; exact hne2 rfl
  · have := offs_sorted hE (show k ≤ E.length - 2 by omega) g2
    omega

theorem grp_mem {C : Cfg} {loc : List Loc} {i j : Nat} {E : List (Nat × Nat)} (hE : Slice C loc i j E) {a b k k' : Nat}
    (hg : Grp (offs C E j) E.length a b) (h1 : a ≤ k) (h2 : k ≤ b) (hk' : k' < E.length) (ho : offs C E j k' = offs C E j k) : a ≤ k' ∧ k' ≤ b := by
  have hb := hg.hb
  have e := hg.hc k h1 h2
  constructor
  · by_contra hlt
    rcases hg.hs with h0 | h0
    · omega
    · have l1 := offs_sorted hE (show k' ≤ a - 1 by omega) (by omega)
      have l2 := offs_sorted hE (show a - 1 ≤ a by omega) (by omega)
      exact h0 (by omega)
  · by_contra hlt
    have l1 := offs_sorted hE (show b + 1 ≤ k' by omega) hk'
    have l2 := offs_sorted hE (show b ≤ b + 1 by omega) (by omega)
    have e2 := hg.hc b hg.hab le_rfl
    exact hg.he (by omega) (by omega)

/-- Whether check `c` may send a new message to data bit `x` in iteration `τ`. -/
def actOf (C : Cfg) (Es : Nat → Nat → List (Nat × Nat)) (τ c x : Nat) : Prop :=
  ∃ i j n k, ∃ hk : k < (Es i j).length, (i < C.T.q ∧ j < C.W ∧ n < C.D) ∧ c = chk C i j n ∧ x = bitAt C.T (C.W * n + j) (Es i j)[k] ∧
    IsLast (offs C (Es i j) j) (Es i j).length ((nxt (offs C (Es i j) j) (Es i j).length)^[τ] k)

section
variable {C : Cfg} (h : C.WF) (hT : C.T.Proper) {X : Dec} {Es : Nat → Nat → List (Nat × Nat)} (hL : Links C X Es)
include h hT hL

theorem actOf_iff {i j n k : Nat} (hi : i < C.T.q) (hj : j < C.W) (hn : n < C.D) (hk : k < (Es i j).length) (τ : Nat) :
    actOf C Es τ (chk C i j n) (bitAt C.T (C.W * n + j) (Es i j)[k]) ↔
      IsLast (offs C (Es i j) j) (Es i j).length ((nxt (offs C (Es i j) j) (Es i j).length)^[τ] k) := by
  constructor
  · rintro ⟨i', j', n', k', hk', ⟨hi', hj', hn'⟩, h1, h2, h3⟩
    obtain ⟨rfl, rfl, rfl⟩ := chk_inj hi hi' hj hj' h1
    have := proper_inj h hT hi hj hn (hL i hi j hj).1 hk hk' h2
    subst this
    exact h3
  · intro hh
    exact ⟨i, j, n, k, hk, ⟨hi, hj, hn⟩, rfl, rfl, hh⟩

theorem actOf_roundRobin : RoundRobin C.T C.D (actOf C Es) := by
  have key : ∀ i < C.T.q, ∀ j < C.W, ∀ c ∈ layerChecks C.T C.D i j, ∀ x ∈ C.T.feeds c,
      ∃ a b, Grp (offs C (Es i j) j) (Es i j).length a b ∧
        (∀ n < C.D, x ∈ C.T.feeds (chk C i j n) → ∃ k, ∃ hk : k < (Es i j).length, (a ≤ k ∧ k ≤ b) ∧ x = bitAt C.T (C.W * n + j) (Es i j)[k]) ∧
        ∀ k (hk : k < (Es i j).length), a ≤ k → k ≤ b → ∃ n < C.D, x = bitAt C.T (C.W * n + j) (Es i j)[k] := by
    intro i hi j hj c hc x hx
    have hE := hL i hi j hj
    obtain ⟨n, hn, rfl⟩ := List.mem_map.1 hc
    rw [List.mem_range] at hn
    obtain ⟨k, hk, rfl⟩ := (mem_feeds h hi hj hn hE.1).1 hx
    obtain ⟨a, b, hg, h1, h2⟩ := grp_exists (offs C (Es i j) j) (Es i j).length k hk
    refine ⟨a, b, hg, fun n' hn' hx' => ?_, fun k' hk' k1 k2 => ?_⟩
    · obtain ⟨k', hk', he⟩ := (mem_feeds h hi hj hn' hE.1).1 hx'
      refine ⟨k', hk', grp_mem hE hg h1 h2 hk' ?_, he⟩
      rw [offs_get hk', offs_get hk]
      exact (bitAt_off h hn hn' he).symm
    · have ho : offs C (Es i j) j k' = offs C (Es i j) j k := by rw [hg.hc k' k1 k2, hg.hc k h1 h2]
      rw [offs_get hk', offs_get hk] at ho
      have hmem : (Es i j)[k'] ∈ C.T.entries := (ent_mem (n := i) (hE.1.subset (List.getElem_mem hk'))).1
      exact bit_of_reg h j _ ((reg_of_bit h n j hn).1.trans ho.symm) (locOf_bound h hmem j).2
  constructor
  · intro i hi j hj c hc x hx τ
    obtain ⟨a, b, hg, hin, hex⟩ := key i hi j hj c hc x hx
    obtain ⟨k0, k1, k2, k3, k4⟩ := hg.one τ
    have hb := hg.hb
    obtain ⟨n0, hn0, hx0⟩ := hex k0 (by omega) k1 k2
    refine ⟨chk C i j n0, ⟨⟨List.mem_map.2 ⟨n0, List.mem_range.2 hn0, rfl⟩,
      (mem_feeds h hi hj hn0 (hL i hi j hj).1).2 ⟨k0, by omega, hx0⟩⟩, ?_⟩, ?_⟩
    · rw [hx0]
      exact (actOf_iff h hT hL hi hj hn0 (by omega) τ).2 k3
    · rintro c' ⟨⟨hc', hx'⟩, ha'⟩
      obtain ⟨n', hn', rfl⟩ := List.mem_map.1 hc'
      rw [List.mem_range] at hn'
      obtain ⟨k', hk', ⟨b1, b2⟩, he'⟩ := hin n' hn' hx'
      rw [he'] at ha'
      have := k4 k' b1 b2 ((actOf_iff h hT hL hi hj hn' hk' τ).1 ha')
      subst this
      rw [hx0] at he'
      have := bitAt_lane h hn0 hn' he'
      subst this
      rfl
  · intro i hi j hj c hc x hx
    obtain ⟨a, b, hg, hin, hex⟩ := key i hi j hj c hc x hx
    refine ⟨b - a + 1, by omega, fun c' hc' hx' τ => ?_⟩
    obtain ⟨n', hn', rfl⟩ := List.mem_map.1 hc'
    rw [List.mem_range] at hn'
    obtain ⟨k', hk', ⟨b1, b2⟩, rfl⟩ := hin n' hn' hx'
    obtain ⟨δ, d1, d2, d3⟩ := hg.fair b1 b2 τ
    refine ⟨δ, ⟨d1, (actOf_iff h hT hL hi hj hn' hk' _).2 d2⟩, ?_⟩
    rintro δ' ⟨d4, d5⟩
    exact d3 δ' d4 ((actOf_iff h hT hL hi hj hn' hk' _).1 d5)

end

/-- The mask of each layer, where the layers before `(i, j)` have been visited `N + 1` times and the others `N` times. -/
def Turn (C : Cfg) (Es : Nat → Nat → List (Nat × Nat)) (N i j : Nat) (wd : List Nat) : Prop :=
  ∀ i' < C.T.q, ∀ j' < C.W, ∀ k < (Es i' j').length, (wd.getD (C.W * i' + j') 0).testBit k = false ↔
    IsLast (offs C (Es i' j') j') (Es i' j').length
      ((nxt (offs C (Es i' j') j') (Es i' j').length)^[if i' < i ∨ (i' = i ∧ j' < j) then N + 1 else N] k)

theorem nxt_lt {o : Nat → Nat} {cnt k : Nat} (hk : k < cnt) : nxt o cnt k < cnt := by
  unfold nxt
  have := fst_le o k
  split <;> omega

section
variable {C : Cfg} (h : C.WF) (hP : 2 ≤ C.PTY) (hb0 : 0 ≤ C.BETA) (h64 : C.BETA ≤ 64) (hT : C.T.Proper) (hF : C.T.Fair C.D) {X : Dec}
  (hX : DecOK C X) {Es : Nat → Nat → List (Nat × Nat)} (hL : Links C X Es)
include h hP hb0 h64 hT hF hX hL

theorem layer_turn {s : St} {f : Soft} {N : Nat} (hs : StOK C s) {i j : Nat} (hi : i < C.T.q) (hj : j < C.W) (hsw : Turn C Es N i j s.wd)
    (hR : Rel C Es s f) :
    Ok (layer C X s (lo0 C i j) (bl0 C i j) (C.T.ent i).length i j) fun s' => Turn C Es N i (j + 1) s'.wd ∧
      Rel C Es s' (layerStep C.T C.BETA (actOf C Es N) f (layerChecks C.T C.D i j)) := by
  have hE := hL i hi j hj
  have hlen : (Es i j).length = (C.T.ent i).length := hE.1.length_eq
  have hcn := ent_len h.hT hi
  have hc30 := h.hT.hCNC
  have hlo := lo0_le h hi hj
  rw [← hlen]
  unfold layer
  refine Ok.bind' (gather_ex h hX hs hi hj hE hb0 (by omega)) fun a ha => ?_
  refine Ok.bind' (scatter_ex h hP hX hs hi hj hE hb0 ha) fun s' hs' => ?_
  have hix := ix_lt h hi hj
  have hnow : ∀ k < (Es i j).length, (s.wd.getD (C.W * i + j) 0).testBit k = false ↔
      IsLast (offs C (Es i j) j) (Es i j).length ((nxt (offs C (Es i j) j) (Es i j).length)^[N] k) := by
    intro k hk
    have := hsw i hi j hj k hk
    rwa [if_neg (by omega)] at this
  refine Ok.bind' (wdNext_ex (X := X) s'.wd (C.W * i + j) (lo0 C i j) (Es i j).length (offs C (Es i j) j) (by rw [hs'.ok.hw]; exact hix)
    (by omega) (fun k hk => ⟨_, slice_get hE k hk (by rw [hX.hl]; exact hlo), (offs_get hk).symm⟩)
    (fair_good h hT hF hi hj hE) (fun k hk hkk => ?_)) fun wd' hwd' => ?_
  · rw [hs'.hwd]
    refine (hnow k hk).2 ?_
    rw [Function.iterate_fixed hkk]
    intro hlast
    unfold nxt at hkk
    rw [if_pos hlast] at hkk
    omega
  · refine Ok.some ⟨fun i' hi' j' hj' k hk => ?_, ?_⟩
    · dsimp only
      by_cases heq : i' = i ∧ j' = j
      · obtain ⟨rfl, rfl⟩ := heq
        rw [if_pos (by omega), hwd'.2.2 k hk, hs'.hwd, hnow _ (nxt_lt hk), Function.iterate_succ_apply]
      · have hne : C.W * i' + j' ≠ C.W * i + j := fun hh => heq (idx_inj hj' hj hh)
        rw [hwd'.2.1 _ hne, hs'.hwd, hsw i' hi' j' hj' k hk]
        have : (i' < i ∨ i' = i ∧ j' < j + 1) ↔ (i' < i ∨ i' = i ∧ j' < j) := by omega
        simp only [this]
    · have hkey := rel_scatter_multi h hP hb0 h64 hL hR hi hj (fun n hn => proper_nodup h hT hi hj hn hE.1)
        (w := s.wd.getD (C.W * i + j) 0) (act := actOf C Es N) ?_ ?_ hs'
      · exact ⟨hkey.hd, hkey.hp, hkey.hm, hkey.h0⟩
      · intro k k' hk hk' hw1 hw2 ho
        obtain ⟨a, b, hg, h1, h2⟩ := grp_exists (offs C (Es i j) j) (Es i j).length k hk
        obtain ⟨k0, _, _, _, k4⟩ := hg.one N
        obtain ⟨m1, m2⟩ := grp_mem hE hg h1 h2 hk' (by rw [offs_get hk, offs_get hk']; exact ho.symm)
        rw [k4 k h1 h2 ((hnow k hk).1 hw1), k4 k' m1 m2 ((hnow k' hk').1 hw2)]
      · intro n hn k hk
        rw [actOf_iff h hT hL hi hj hn hk N]
        exact (hnow k hk).symm

theorem update_turn {s : St} {f : Soft} {N : Nat} (hs : StOK C s) (hsw : Turn C Es N 0 0 s.wd) (hR : Rel C Es s f) :
    Ok (update C X s) fun s' => StOK C s' ∧ Turn C Es (N + 1) 0 0 s'.wd ∧ Rel C Es s' (turnIteration C.T C.BETA C.D (actOf C Es N) f) := by
  let row : Nat → Nat → List (List Nat) := fun i m => (List.range m).map fun j => layerChecks C.T C.D i j
  let sch : Nat → Nat → List (List Nat) := fun i j => ((List.range i).flatMap fun i => row i C.W) ++ row i j
  have := update_inv h hX hs (fun i j s' => Turn C Es N i j s'.wd ∧
      Rel C Es s' ((sch i j).foldl (layerStep C.T C.BETA (actOf C Es N)) f))
    ⟨hsw, by simpa [sch, row] using hR⟩ (fun i s' hs' => by
      have e : sch (i + 1) 0 = sch i C.W := by
        simp only [sch]
        rw [List.range_succ, List.flatMap_append]
        simp [row]
      rw [e]
      refine ⟨fun i' hi' j' hj' k hk => ?_, hs'.2⟩
      rw [hs'.1 i' hi' j' hj' k hk]
      have : (i' < i ∨ i' = i ∧ j' < C.W) ↔ (i' < i + 1 ∨ i' = i + 1 ∧ j' < 0) := by omega
      simp only [this])
    (fun i j s' hi hj hok hs' => by
      refine Ok.mono (layer_turn h hP hb0 h64 hT hF hX hL hok hi hj hs'.1 hs'.2) fun s2 hs2 => ⟨hs2.1, ?_⟩
      have e : sch i (j + 1) = sch i j ++ [layerChecks C.T C.D i j] := by
        simp only [sch, row]
        rw [List.range_succ, List.map_append, List.append_assoc]
        simp
      rw [e, List.foldl_append]
      exact hs2.2)
  refine Ok.mono this ?_
  rintro s' ⟨g1, g2, g3⟩
  refine ⟨g1, fun i' hi' j' hj' k hk => ?_, ?_⟩
  · rw [g2 i' hi' j' hj' k hk]
    simp only [if_pos (show i' < C.T.q ∨ i' = C.T.q ∧ j' < 0 from Or.inl hi'), if_neg (show ¬ (i' < 0 ∨ i' = 0 ∧ j' < 0) by omega)]
  · have e : sch C.T.q 0 = (List.range C.T.q).flatMap fun i => (List.range (C.T.M / C.D)).map fun j => layerChecks C.T C.D i j := by
      simp only [sch, row]
      rw [List.range_zero, List.map_nil, List.append_nil]
      rfl
    rw [e] at g3
    exact g3

omit h hP hb0 h64 hT hF hX hL in
theorem turns_succ (T : Table) (β : Int) (D : Nat) (act : Nat → Nat → Nat → Prop) (N : Nat) (f : Soft) (m : Nat) :
    turns T β D act N f (m + 1) = turns T β D act (N + 1) (turnIteration T β D (act N) f) m := by
  induction m with
  | zero => rfl
  | succ m ih => rw [turns, ih, turns, show N + (m + 1) = N + 1 + m by omega]

theorem iter_turn : ∀ (fuel : Nat) (s : St) (t : Int) (f : Soft) (N : Nat), StOK C s → Turn C Es N 0 0 s.wd → Rel C Es s f → 0 ≤ t →
    t.toNat < fuel →
    Ok (iter C X fuel s t) fun r => StOK C r.1 ∧ ∃ n : Nat, Turn C Es (N + n) 0 0 r.1.wd ∧ (n : Int) ≤ t ∧
      (∀ m < n, ¬ Word C.T (turns C.T C.BETA C.D (actOf C Es) N f m)) ∧ Rel C Es r.1 (turns C.T C.BETA C.D (actOf C Es) N f n) ∧
      ((Word C.T (turns C.T C.BETA C.D (actOf C Es) N f n) ∧ r.2 = t - n) ∨
        (¬ Word C.T (turns C.T C.BETA C.D (actOf C Es) N f n) ∧ (n : Int) = t ∧ r.2 = -1)) := by
  intro fuel
  induction fuel with
  | zero => intro s t f N _ _ _ _ hh; omega
  | succ fuel ih =>
    intro s t f N hs hsw hR ht hf
    unfold iter
    refine Ok.bind' (bad_ok h hX hs.hsh) fun b hb => ?_
    have hall : Word C.T f ↔ b = false := by
      rw [← Bool.not_eq_true, hb]
      unfold Word
      push Not
      refine forall_congr' fun c => ⟨fun hh hc => ?_, fun hh hc => ?_⟩
      · exact (checkOk_congr h.hT hR.hd hR.hp hc).2 (hh hc)
      · exact (checkOk_congr h.hT hR.hd hR.hp hc).1 (hh hc)
    cases b with
    | false =>
      rw [if_neg (by simp)]
      exact Ok.some ⟨hs, 0, hsw, by simpa using ht, fun m hm => by omega, hR, Or.inl ⟨hall.2 rfl, by simp⟩⟩
    | true =>
      have ha : ¬ Word C.T f := fun hh => by simpa using hall.1 hh
      rw [if_pos rfl]
      by_cases ht1 : t - 1 ≥ 0
      · rw [if_pos ht1]
        refine Ok.bind' (update_turn h hP hb0 h64 hT hF hX hL hs hsw hR) fun s' hs' => ?_
        have hf' : (t - 1).toNat < fuel := by
          clear hall hb ha
          omega
        refine Ok.mono (ih s' (t - 1) _ (N + 1) hs'.1 hs'.2.1 hs'.2.2 ht1 hf') ?_
        rintro r ⟨g1, n, g2, g3, g4, g5, g6⟩
        simp only [← turns_succ] at g4 g5 g6
        refine ⟨g1, n + 1, by rw [show N + (n + 1) = N + 1 + n by omega]; exact g2, by omega, fun m hm => ?_, g5, ?_⟩
        · rcases m with _ | m
          · exact ha
          · exact g4 m (by omega)
        · rcases g6 with ⟨k1, k2⟩ | ⟨k1, k2, k3⟩
          · exact Or.inl ⟨k1, by rw [k2]; push_cast; omega⟩
          · exact Or.inr ⟨k1, by push_cast; omega, k3⟩
      · rw [if_neg ht1]
        have ht0 : t = 0 := by
          clear hall hb ha
          omega
        exact Ok.some ⟨hs, 0, hsw, by omega, fun m hm => by omega, hR, Or.inr ⟨ha, by rw [ht0]; rfl, by dsimp only; rw [ht0]; rfl⟩⟩

end

/-- The result of decoding with at most `trials` iterations by an object that has made `N` iterations before, when the checks take
turns according to `act`: message passing runs until all checks are satisfied for the first time, or for `trials` iterations.  `n` is
the number of iterations. -/
def DecodedTurns (T : Table) (β : Int) (D : Nat) (act : Nat → Nat → Nat → Prop) (N : Nat) (message parity : List Int) (trials : Int)
    (n : Nat) (message' parity' : List Int) (ret : Int) : Prop :=
  (n : Int) ≤ trials ∧ (∀ m < n, ¬ Word T (turns T β D act N (start message parity) m)) ∧
    message'.length = T.K ∧ (∀ i < T.K, message'.getD i 0 = (turns T β D act N (start message parity) n).val (.data i)) ∧
    parity'.length = T.R ∧ (∀ i < T.R, parity'.getD i 0 = (turns T β D act N (start message parity) n).val (.par i)) ∧
    ((Word T (turns T β D act N (start message parity) n) ∧ ret = trials - n) ∨
      (¬ Word T (turns T β D act N (start message parity) n) ∧ (n : Int) = trials ∧ ret = -1))

/-- For every well-formed table without repeated data bits that is fair for the word size, every offset from 0 to 64 and every behaviour
of `std::sort`, there is a way of taking turns such that every call of the decoder returns exactly the result of message passing with
these turns, counted from the construction of the object: `At N` holds of the masks of an object that has made `N` iterations. -/
theorem C51_decode (C : Cfg) (h : C.WF) (hDR : C.D < C.T.R) (hT : C.T.Proper) (hF : C.T.Fair C.D) (hb0 : 0 ≤ C.BETA) (h64 : C.BETA ≤ 64)
    (srt : List Loc → List Loc) (hsrt : IsSort srt) (pos0 cnc0 : List Nat) (loc0 : List Loc) (wd0 : List Nat)
    (hp : pos0.length = C.T.q * C.T.CNC) (hcn : cnc0.length = C.T.q) (hl : loc0.length = C.LOC) (hw : wd0.length = C.PTY) :
    ∃ X wd act, ∃ At : Nat → List Nat → Prop, mkDec C srt pos0 cnc0 loc0 wd0 = some (X, wd) ∧ wd.length = C.PTY ∧ At 0 wd ∧
      RoundRobin C.T C.D act ∧
      ∀ (N : Nat) (s : St) (message parity : List Int) (trials : Int), StOK C s → At N s.wd → message.length = C.T.K →
        parity.length = C.T.R → 0 ≤ trials →
        ∃ r n, decode C X s message parity trials = some r ∧ StOK C r.s ∧ At (N + n) r.s.wd ∧
          DecodedTurns C.T C.BETA C.D act N message parity trials n r.message r.parity r.trials := by
  obtain ⟨⟨X, wd⟩, he, hX, hwl, hE⟩ := mkDec_ok h srt hsrt pos0 cnc0 loc0 wd0 hp hcn hl hw
  dsimp only at hX hwl hE
  have hP : 2 ≤ C.PTY := by
    have h1 := h.hT.hR
    rw [h.hDM] at h1
    rw [h.pty_eq]
    by_contra hc
    have : C.W * C.T.q ≤ 1 := by omega
    have h2 : C.T.q * (C.W * C.D) ≤ 1 * C.D := by
      rw [← Nat.mul_assoc, Nat.mul_comm C.T.q]; exact Nat.mul_le_mul_right _ this
    omega
  have hch : ∀ ij : Nat × Nat, ∃ E, ij.1 < C.T.q → ij.2 < C.W → Slice C X.loc ij.1 ij.2 E ∧ WdInit C E ij.2 (wd.getD (C.W * ij.1 + ij.2) 0) := by
    rintro ⟨i, j⟩
    by_cases hi : i < C.T.q
    · by_cases hj : j < C.W
      · obtain ⟨E, h1⟩ := hE i hi j hj
        exact ⟨E, fun _ _ => h1⟩
      · exact ⟨[], fun _ hj' => absurd hj' hj⟩
    · exact ⟨[], fun hi' => absurd hi' hi⟩
  choose Es0 hEs0 using hch
  let Es : Nat → Nat → List (Nat × Nat) := fun i j => Es0 (i, j)
  have hL : Links C X Es := fun i hi j hj => (hEs0 (i, j) hi hj).1
  refine ⟨X, wd, actOf C Es, fun N => Turn C Es N 0 0, he, hwl, fun i hi j hj k hk => ?_, actOf_roundRobin h hT hL,
    fun N s message parity trials hs hsw hm hpa ht => ?_⟩
  · have h1 : WdInit C (Es i j) j (wd.getD (C.W * i + j) 0) := (hEs0 (i, j) hi hj).2
    rw [if_neg (by omega), Function.iterate_zero, id]
    unfold IsLast
    rw [← h1 k, Bool.not_eq_true]
  obtain ⟨s1, e1, hs1, hw1, hb1, hd1, hp1⟩ := load_ok h hs message parity hm hpa
  obtain ⟨⟨s2, t⟩, e2, hs2, n, g1, g2, g3, g4, g5⟩ := iter_turn h hP hb0 h64 hT hF hX hL (trials.toNat + 1) s1 trials _ N hs1
    (by rw [hw1]; exact hsw) (rel_start h hL hb1 hd1 hp1) ht (by omega)
  obtain ⟨⟨m', p'⟩, e3, k1, k2, k3, k4⟩ := unload_ok h hs2 message parity hm hpa
  dsimp only at g1 g2 g3 g4 g5 k1 k2 k3 k4
  refine ⟨⟨s2, m', p', t⟩, n, ?_, hs2, g1, g2, g3, k1, fun i hi => ?_, k2, fun i hi => ?_, g5⟩
  · unfold decode
    rw [e1, sb, e2, sb, e3, sb]
    rfl
  · dsimp only; rw [k3 i hi]; exact g4.hd i hi
  · dsimp only; rw [k4 i hi]; exact g4.hp i hi

/-! #### The tables of the regression test -/

theorem proper_of_classes {T : Table} (h : T.WF) (hc : ∀ i < T.q, ((T.ent i).map fun e => (e.1, sh T e)).Nodup) : T.Proper := by
  intro c hcR
  have ht : c / T.q < T.M := by
    rw [Nat.div_lt_iff_lt_mul h.hq, Nat.mul_comm, ← h.hR]; exact hcR
  have hn : c % T.q < T.q := Nat.mod_lt _ h.hq
  rw [← Nat.div_add_mod c T.q, feeds_eq h ht hn]
  have h1 := hc _ hn
  rw [List.nodup_iff_injective_getElem] at h1 ⊢
  rintro ⟨k, hk⟩ ⟨k', hk'⟩ he
  simp only [List.length_map] at hk hk'
  have := @h1 ⟨k, by simpa using hk⟩ ⟨k', by simpa using hk'⟩ (by
    simp only [List.getElem_map, Prod.mk.injEq] at he ⊢
    unfold bitAt at he
    obtain ⟨e1, e2⟩ := idx_inj (Nat.mod_lt _ h.hM) (Nat.mod_lt _ h.hM) he
    refine ⟨e1, ?_⟩
    have h3 := Nat.ModEq.add_right_cancel' (c / T.q) (show _ ≡ _ [MOD T.M] from e2)
    unfold Nat.ModEq at h3
    rwa [Nat.mod_eq_of_lt (sh_lt h.hM _), Nat.mod_eq_of_lt (sh_lt h.hM _)] at h3)
  simpa using this

/-- The register of entry `e` in the layers `j`. -/
def Table.regE (T : Table) (D j : Nat) (e : Nat × Nat) : Nat := T.M / D * e.1 + (sh T e + j) % (T.M / D)

/-- No two entries of layer row `i` share a register, or the condition of `Table.Fair` holds in it (executable). -/
def Table.fairB (T : Table) (D i : Nat) : Bool :=
  decide ((T.ent i).map fun e => (e.1, sh T e % (T.M / D))).Nodup ||
  (List.range (T.M / D)).all fun j => (T.ent i).all fun e1 => (T.ent i).all fun e2 =>
    decide (e1 = e2) || decide (T.regE D j e1 ≠ T.regE D j e2) || (T.ent i).all fun e3 => decide (T.regE D j e3 ≤ T.regE D j e2) ||
      (T.ent i).any fun u => decide ((u.1, sh T u) ≠ (e3.1, sh T e3)) && decide (T.regE D j e2 < T.regE D j u)

theorem fairB_spec {T : Table} {D i : Nat} (hb : T.fairB D i = true) : ((T.ent i).map fun e => (e.1, sh T e % (T.M / D))).Nodup ∨
    ∀ j < T.M / D, ∀ e1 ∈ T.ent i, ∀ e2 ∈ T.ent i, e1 ≠ e2 →
      T.regE D j e1 = T.regE D j e2 → ∀ e3 ∈ T.ent i, T.regE D j e2 < T.regE D j e3 →
      ∃ u ∈ T.ent i, (u.1, sh T u) ≠ (e3.1, sh T e3) ∧ T.regE D j e2 < T.regE D j u := by
  unfold Table.fairB at hb
  rw [Bool.or_eq_true] at hb
  rcases hb with hb | hb
  · exact Or.inl (of_decide_eq_true hb)
  · refine Or.inr fun j hj e1 m1 e2 m2 hne he e3 m3 hlt => ?_
    have h1 := List.all_eq_true.1 (List.all_eq_true.1 (List.all_eq_true.1 hb j (List.mem_range.2 hj)) e1 m1) e2 m2
    rw [Bool.or_eq_true, Bool.or_eq_true] at h1
    rcases h1 with (h1 | h1) | h1
    · exact absurd (of_decide_eq_true h1) hne
    · exact absurd he (of_decide_eq_true h1)
    · have h2 := List.all_eq_true.1 h1 e3 m3
      rw [Bool.or_eq_true] at h2
      rcases h2 with h2 | h2
      · exact absurd (of_decide_eq_true h2) (by omega)
      · obtain ⟨u, mu, hu⟩ := List.any_eq_true.1 h2
        rw [Bool.and_eq_true] at hu
        exact ⟨u, mu, of_decide_eq_true hu.1, of_decide_eq_true hu.2⟩

theorem fair_of_classes {T : Table} (h : T.WF) {D : Nat} (hD : T.M = T.M / D * D)
    (hb : ∀ i < T.q, T.fairB D i = true) : T.Fair D := by
  have hc := fun i hi => fairB_spec (hb i hi)
  intro c hcR x hx y hy z hz hxy h1 h2
  have ht : c / T.q < T.M := by
    rw [Nat.div_lt_iff_lt_mul h.hq, Nat.mul_comm, ← h.hR]; exact hcR
  have hn : c % T.q < T.q := Nat.mod_lt _ h.hq
  have hM := h.hM
  have hW : 0 < T.M / D := by
    rcases Nat.eq_zero_or_pos (T.M / D) with h0 | h0
    · rw [h0] at hD; omega
    · exact h0
  have hf := feeds_eq h ht hn
  rw [Nat.div_add_mod] at hf
  have hdvd : T.M / D ∣ T.M := ⟨D, hD⟩
  have key : ∀ e : Nat × Nat, T.reg D (bitAt T (c / T.q) e) = T.regE D (c / T.q % (T.M / D)) e := by
    intro e
    unfold Table.reg Table.regE bitAt
    rw [(divmod_mul (Nat.mod_lt _ hM)).1]
    congr 1
    rw [← Nat.mod_mod_of_dvd _ hdvd, (divmod_mul (Nat.mod_lt _ hM)).2, Nat.mod_mod_of_dvd _ hdvd, Nat.add_mod_mod]
  rw [hf] at hx hy hz ⊢
  obtain ⟨e1, m1, rfl⟩ := List.mem_map.1 hx
  obtain ⟨e2, m2, rfl⟩ := List.mem_map.1 hy
  obtain ⟨e3, m3, rfl⟩ := List.mem_map.1 hz
  have hne : e1 ≠ e2 := fun hh => hxy (by rw [hh])
  rw [key, key] at h1 h2
  rcases hc _ hn with hc | hc
  · exfalso
    unfold Table.regE at h1
    obtain ⟨g1, g2⟩ := idx_inj (Nat.mod_lt _ hW) (Nat.mod_lt _ hW) h1
    have g3 : sh T e1 % (T.M / D) = sh T e2 % (T.M / D) := Nat.ModEq.add_right_cancel' _ (show _ ≡ _ [MOD T.M / D] from g2)
    obtain ⟨a, ha, rfl⟩ := List.getElem_of_mem m1
    obtain ⟨b, hb, rfl⟩ := List.getElem_of_mem m2
    rw [List.nodup_iff_injective_getElem] at hc
    have := @hc ⟨a, by simpa using ha⟩ ⟨b, by simpa using hb⟩ (by
      simp only [List.getElem_map, Prod.mk.injEq]
      exact ⟨g1, g3⟩)
    simp only [Fin.mk.injEq] at this
    subst this
    exact hne rfl
  · obtain ⟨u, mu, u1, u2⟩ := hc _ (Nat.mod_lt _ hW) e1 m1 e2 m2 hne h1 e3 m3 h2
    refine ⟨_, List.mem_map.2 ⟨u, mu, rfl⟩, fun hh => u1 ?_, by rw [key, key]; exact u2⟩
    unfold bitAt at hh
    obtain ⟨k1, k2⟩ := idx_inj (Nat.mod_lt _ hM) (Nat.mod_lt _ hM) hh
    have h3 := Nat.ModEq.add_right_cancel' (c / T.q) (show _ ≡ _ [MOD T.M] from k2)
    unfold Nat.ModEq at h3
    rw [Nat.mod_eq_of_lt (sh_lt h.hM _), Nat.mod_eq_of_lt (sh_lt h.hM _)] at h3
    rw [k1, h3]

theorem dvb_proper : ∀ T ∈ [dvb_t2_table_a1, dvb_t2_table_a3, dvb_t2_table_a6, dvb_t2_table_b7], T.Proper := by
  intro T hT
  have hwf := (C44_tables T hT).1.hT
  simp only [List.mem_cons, List.not_mem_nil, or_false] at hT
  rcases hT with rfl | rfl | rfl | rfl
  · exact proper_of_classes hwf (by decide +kernel)
  · exact proper_of_classes hwf (by decide +kernel)
  · exact proper_of_classes hwf (by decide +kernel)
  · exact proper_of_classes hwf (by decide +kernel)

/-- All tables of the regression test are fair for 15 lanes, and all but `DVB_T2_TABLE_A3` for 30 lanes. -/
theorem C51_tables : (∀ T ∈ [dvb_t2_table_a1, dvb_t2_table_a3, dvb_t2_table_a6, dvb_t2_table_b7],
      (sse T).WF ∧ (sse T).D < T.R ∧ T.Proper ∧ T.Fair (sse T).D) ∧
    ∀ T ∈ [dvb_t2_table_a1, dvb_t2_table_a6, dvb_t2_table_b7], (avx2 T).WF ∧ (avx2 T).D < T.R ∧ T.Proper ∧ T.Fair (avx2 T).D := by
  constructor
  · intro T hT
    have hwf := C44_tables T hT
    have hpr := dvb_proper T hT
    refine ⟨hwf.2, ?_⟩
    simp only [List.mem_cons, List.not_mem_nil, or_false] at hT
    rcases hT with rfl | rfl | rfl | rfl
    · exact ⟨by decide +kernel, hpr, fair_of_classes hwf.1.hT (by decide +kernel) (by decide +kernel)⟩
    · exact ⟨by decide +kernel, hpr, fair_of_classes hwf.1.hT (by decide +kernel) (by decide +kernel)⟩
    · exact ⟨by decide +kernel, hpr, fair_of_classes hwf.1.hT (by decide +kernel) (by decide +kernel)⟩
    · exact ⟨by decide +kernel, hpr, fair_of_classes hwf.1.hT (by decide +kernel) (by decide +kernel)⟩
  · intro T hT
    have hT4 : T ∈ [dvb_t2_table_a1, dvb_t2_table_a3, dvb_t2_table_a6, dvb_t2_table_b7] := by
      simp only [List.mem_cons, List.not_mem_nil, or_false] at hT ⊢
      rcases hT with rfl | rfl | rfl <;> simp
    have hwf := C44_tables T hT4
    have hpr := dvb_proper T hT4
    refine ⟨hwf.1, ?_⟩
    simp only [List.mem_cons, List.not_mem_nil, or_false] at hT
    rcases hT with rfl | rfl | rfl
    · exact ⟨by decide +kernel, hpr, fair_of_classes hwf.1.hT (by decide +kernel) (by decide +kernel)⟩
    · exact ⟨by decide +kernel, hpr, fair_of_classes hwf.1.hT (by decide +kernel) (by decide +kernel)⟩
    · exact ⟨by decide +kernel, hpr, fair_of_classes hwf.1.hT (by decide +kernel) (by decide +kernel)⟩

/-- `DVB_T2_TABLE_A3` is not fair for 30 lanes (builds with AVX2): check 22 has two data bits in one register below the highest. -/
theorem C51_a3 : (avx2 dvb_t2_table_a3).WF ∧ ¬ dvb_t2_table_a3.Fair (avx2 dvb_t2_table_a3).D := by
  refine ⟨(C44_tables _ (by simp)).1, ?_⟩
  have hc : ∃ x ∈ dvb_t2_table_a3.feeds 22, ∃ y ∈ dvb_t2_table_a3.feeds 22, ∃ z ∈ dvb_t2_table_a3.feeds 22, x ≠ y ∧
      dvb_t2_table_a3.reg 30 x = dvb_t2_table_a3.reg 30 y ∧ dvb_t2_table_a3.reg 30 y < dvb_t2_table_a3.reg 30 z ∧
      ∀ u ∈ dvb_t2_table_a3.feeds 22, u = z ∨ dvb_t2_table_a3.reg 30 u ≤ dvb_t2_table_a3.reg 30 y := by decide +kernel
  intro hF
  obtain ⟨x, hx, y, hy, z, hz, h1, h2, h3, h4⟩ := hc
  obtain ⟨u, hu, h5, h6⟩ := hF 22 (by decide) x hx y hy z hz h1 h2 h3
  rcases h4 u hu with h7 | h7
  · exact h5 h7
  · exact absurd (show dvb_t2_table_a3.reg 30 y < dvb_t2_table_a3.reg 30 u from h6) (by omega)

/-! #### Small codes -/

/-- A small code whose four checks have both data bits in the same register.  It meets the hypotheses of `C51_decode`, not those of
`C50_decode`. -/
def twin : Table := ⟨2, 6, 2, 4, 15, [4, 0], [1, 0], [0, 2, 1, 3]⟩
def twinC : Cfg := ⟨twin, 2, 3, 0, [7, 7, 7]⟩

theorem twin_wf : twinC.WF := by
  refine ⟨?_, by decide, by decide, by decide, by decide, rfl⟩
  constructor <;> decide +kernel

theorem twin_fair : twin.Fair 2 := fair_of_classes twin_wf.hT (by decide +kernel) (by decide +kernel)

example : (List.range 4).map twin.feeds = [[0, 1], [0, 1], [1, 0], [1, 0]] := by decide +kernel
example : twinC.WF ∧ twinC.D < twinC.T.R ∧ twin.Proper ∧ twin.Fair twinC.D :=
  ⟨twin_wf, by decide, by unfold Table.Proper; decide +kernel, twin_fair⟩
example : ¬ twin.Spread 2 := by
  unfold Table.Spread; decide +kernel

/-- The same input decoded twice by the same new object. -/
def twinTwice (message parity : List Int) (trials : Int) : Option ((List Int × List Int × Int) × List Int × List Int × Int) := do
  let x ← mkDec twinC insSort [0, 0, 0, 0] [0, 0] (List.replicate 4 ⟨0, 0⟩) [0, 0]
  let r ← decode twinC x.1 ⟨List.replicate 8 [0, 0, 0], List.replicate 1 [0, 0, 0], List.replicate 2 [0, 0, 0], x.2⟩ message parity trials
  let r' ← decode twinC x.1 r.s message parity trials
  return ((r.message, r.parity, r.trials), (r'.message, r'.parity, r'.trials))

/-- Results depend on earlier calls: a word that could not be decoded is decoded when the call is repeated. -/
theorem C51_history : twinTwice [3, -2] [4, -1, 5, 6] 5 = some (([-1, 0], [1, 0, 5, 6], -1), ([1, 3], [2, 1, 6, 7], 0)) := by decide +kernel

/-- A small code like `twin`, but checks 0 and 2 also have a single data bit in the highest register. -/
def lop : Table := ⟨2, 8, 4, 5, 17, [4, 1, 0], [1, 1, 0], [0, 2, 1, 3, 0]⟩
def lopC : Cfg := ⟨lop, 2, 3, 0, [7, 7, 7]⟩

theorem lop_wf : lopC.WF := by
  refine ⟨?_, by decide, by decide, by decide, by decide, rfl⟩
  constructor <;> decide +kernel

/-- The masks after `n` iterations of a new object. -/
def lopMasks (n : Nat) : Option (List Nat) := do
  let x ← mkDec lopC insSort (List.replicate 6 0) [0, 0] (List.replicate 5 ⟨0, 0⟩) [0, 0]
  let s ← forUp 0 n (⟨List.replicate 9 [0, 0, 0], List.replicate 2 [0, 0, 0], List.replicate 2 [0, 0, 0], x.2⟩ : St) fun _ s =>
    update lopC x.1 s
  return s.wd

/-- Without fairness the turns go wrong: the links of the first layer are two in one register and one in another, and the bit of a
link is set when it may not write.  A new object lets link 1 and link 2 write; after one iteration links 0 and 1 write the same
register, one undoing the other, and link 2, the only one of its register, may not write. -/
theorem C51_unfair : lopC.WF ∧ ¬ lop.Fair 2 ∧ lopMasks 0 = some [0b001, 0b01] ∧ lopMasks 1 = some [0b100, 0b10] ∧
    lopMasks 2 = some [0b010, 0b01] := by
  refine ⟨lop_wf, ?_, by decide +kernel, by decide +kernel, by decide +kernel⟩
  intro hF
  obtain ⟨u, hu, h1, h2⟩ := hF 0 (by decide) 0 (by decide +kernel) 1 (by decide +kernel) 2 (by decide +kernel) (by decide) (by decide)
    (by decide)
  have : ∀ u ∈ lop.feeds 0, u = 2 ∨ lop.reg 2 u ≤ lop.reg 2 1 := by decide +kernel
  rcases this u hu with h3 | h3
  · exact h1 h3
  · omega

end Verif.LDPC
