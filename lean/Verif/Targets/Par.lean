import Verif.Targets.List
/- The parity-aided decoder on the registers of a target. -/
namespace Verif.Targets
open Verif.SIMD Verif.Polar
open Verif.PolarHelper (I8)
open Verif.RS (sb)
variable {R : Type} {T : Target R}

/-- The node functions on lists. -/
def parNT (T : Target R) (stride : Nat) : Nodes R R (PXT R) where
  r0 M x s := do
    let m ← chargeAll (2 ^ M) (s.map T.reg) x.metric
    return ({ x with metric := m }, List.replicate (2 ^ M) T.ph.one, T.setU (idMap T.n))
  r1 M x s := match M, s with
    | 0, [v] => do
      let r ← T.parFork stride x v
      return (r.1, [r.2.1], r.2.2)
    | _, _ => none

theorem parAgreeT (stride : Nat) (d : R) : Agree d (T.parWalk stride) (parNT T stride) where
  len0 := by
    intro M x s r hs h
    obtain ⟨m, _, h⟩ := bind_some h
    cases h; simp
  len1 := by
    intro M x s r hs h
    simp only [parNT] at h
    split at h
    · obtain ⟨m, _, h⟩ := bind_some h
      cases h; rfl
    · cases h
  eff0 := by
    intro M off m s r hM hs hH hh h
    obtain ⟨mm, hmm, h⟩ := bind_some h
    cases h
    show Ok (T.parRate0 M off m) _
    unfold Target.parRate0
    refine Ok.bind' (fill_upd (d := d) (l := List.replicate (2 ^ M) T.ph.one) (by simp) hh fun i a' hi _ => ?_) fun a' ha => ?_
    · rw [getD_replicate' _ _ _ hi]
    · rw [chargeLoopT_eq d hs hH, hmm, sb]
      exact Ok.some ⟨rfl, rfl, ha, rfl, fun i _ => rfl⟩
  eff1 := by
    intro M off m s r hM _ hs hH hh h
    cases M with
    | succ M => cases h
    | zero =>
    obtain ⟨v, rfl⟩ : ∃ v, s = [v] := List.length_eq_one_iff.1 hs
    obtain ⟨q, hq, h⟩ := bind_some h
    cases h
    obtain ⟨h1, h2⟩ := hH
    have hv : m.soft.getD 1 d = v := h2 0 (by simp)
    show Ok (T.parRate1 stride 0 off m) _
    unfold Target.parRate1
    simp only [List.length_singleton, pow_zero] at h1
    rw [rd_of_lt (by omega), sb, getElem_eq_getD _ d, hv, hq, sb, wr_of_lt (by simpa using hh), sb]
    refine Ok.some ⟨rfl, rfl, ⟨by simp, fun i => ?_⟩, rfl, fun i _ => rfl⟩
    dsimp only
    rw [getD_set]
    have hh' : off < m.hard.length := by simpa using hh
    by_cases hi : off = i
    · subst hi; rw [if_pos ⟨rfl, hh'⟩, if_pos (by simp)]; simp
    · rw [if_neg (by tauto), if_neg (by simp; omega)]

def parRels (T : Target R) : Rels R R (PXT R) (Reg T.n) (LMap T.n) (PX T.n) where
  S a a' := T.reg a = a'
  H := HardOf T
  M := MapOf T
  X x x' := x.metric = x'.metric ∧ x.message.map T.reg = x'.message ∧ x.maps.map T.map = x'.maps ∧ x.index = x'.index ∧ HardOf T x.parity x'.parity ∧
    x.count = x'.count ∧ x.metric.length = T.n ∧ ValidMaps x'.maps x'.index

theorem rdZ_some {α : Type} {a : List α} {i : Int} {v : α} (h : rdZ a i = some v) : 0 ≤ i ∧ ∃ h : i.toNat < a.length, a[i.toNat] = v := by
  unfold rdZ at h
  split at h
  · cases h
  · exact ⟨by omega, List.getElem?_eq_some_iff.1 h⟩

theorem wrZ_some {α : Type} {a r : List α} {i : Int} {v : α} (h : wrZ a i v = some r) : r = a.set i.toNat v := by
  unfold wrZ at h
  split at h
  · cases h
  · exact (wr_some h).2

theorem rdZ_of {α : Type} {a : List α} {i : Int} (h0 : 0 ≤ i) (h : i.toNat < a.length) : rdZ a i = some a[i.toNat] := by
  unfold rdZ; rw [if_neg (by omega), List.getElem?_eq_getElem h]
theorem wrZ_of {α : Type} {a : List α} {i : Int} {v : α} (h0 : 0 ≤ i) (h : i.toNat < a.length) : wrZ a i v = some (a.set i.toNat v) := by
  unfold wrZ; rw [if_neg (by omega), wr_of_lt h]

theorem parFork_sim (h : T.Ok) (h0 : 0 < T.n) (hn : T.n ≤ 256) {stride : Nat} {x : PXT R} {x' : PX T.n} (hx : (parRels T).X x x') {v : R} {r' : PX T.n × Reg T.n × LMap T.n}
    (hr : parFork stride x' (T.reg v) = some r') : Verif.Ok (T.parFork stride x v) fun r => (parRels T).X r.1 r'.1 ∧ HardOf T r.2.1 r'.2.1 ∧ MapOf T r.2.2 r'.2.2 := by
  obtain ⟨x1, x2, x3, x4, xp, xc, x5, x6⟩ := hx
  unfold parFork at hr
  unfold Target.parFork
  obtain ⟨f, hf, hr⟩ := bind_some hr
  obtain ⟨f2, hf2, hr⟩ := bind_some hr
  obtain ⟨p, hp, hr⟩ := bind_some hr
  have fl : f2.length = 2 * T.n := by
    split at hf2
    · rw [forbid_len hf2, fork_len hf]
    · cases hf2; exact fork_len hf
  obtain ⟨p1, p2, p3⟩ := prune_facts h0 hn fl (by rw [← x1, x5]) hp
  have hh := hrd_rel h p3
  have hm := map_rel h hn p2
  rw [x1, xc, xp.1, hf, sb, hf2, sb]
  dsimp only at hr ⊢
  rw [hp, sb]
  by_cases hc : x'.count = 0
  · have hc' : ¬ x'.count ≠ 0 := by omega
    rw [if_neg hc'] at hr ⊢
    obtain ⟨m, e1, hr⟩ := bind_some hr
    obtain ⟨ms, e2, hr⟩ := bind_some hr
    obtain ⟨q, e3, hr⟩ := bind_some hr
    obtain ⟨mp, e4, hr⟩ := bind_some hr
    cases hr
    obtain ⟨i0, i1, rfl⟩ := rdZ_some e1
    obtain ⟨-, i2, rfl⟩ := rdZ_some e3
    obtain rfl := wrZ_some e2
    obtain rfl := wrZ_some e4
    have g1 : ((x'.index : Int) - 1).toNat < x.message.length := by rw [← x2, List.length_map] at i1; exact i1
    have g2 : ((x'.index : Int) - 1).toNat < x.maps.length := by rw [← x3, List.length_map] at i2; exact i2
    rw [x4, rdZ_of i0 g1, sb, wrZ_of i0 g1, sb, rdZ_of i0 g2, sb, wrZ_of i0 g2, sb]
    have ei : ((x'.index : Int) - 1).toNat = x'.index - 1 := by omega
    have hmv : ∀ k, x'.maps[((x'.index : Int) - 1).toNat] k < T.n := by
      intro k
      have := x6.2 (x'.index - 1) (by omega) k
      rw [← ei, ← getElem_eq_getD i2] at this
      exact this
    have hq : MapOf T x.maps[((x'.index : Int) - 1).toNat] x'.maps[((x'.index : Int) - 1).toNat] := by
      refine ⟨?_, hmv⟩
      have : (x.maps.map T.map)[((x'.index : Int) - 1).toNat]'(by rw [List.length_map]; exact g2) = x'.maps[((x'.index : Int) - 1).toNat] := by simp only [x3]
      rwa [List.getElem_map] at this
    have hq2 : T.reg x.message[((x'.index : Int) - 1).toNat] = x'.message[((x'.index : Int) - 1).toNat] := by
      have : (x.message.map T.reg)[((x'.index : Int) - 1).toNat]'(by rw [List.length_map]; exact g1) = x'.message[((x'.index : Int) - 1).toNat] := by simp only [x2]
      rwa [List.getElem_map] at this
    have hcm := map_comp h hq hm
    refine Ok.some ⟨⟨rfl, ?_, ?_, by simp only [x4], ?_, rfl, p1, ?_⟩, hh, hm⟩
    · dsimp only
      rw [List.map_set, x2, reg_shuf h _ _ hm.lt, hm.1, hq2]
    · dsimp only
      rw [List.map_set, x3, hcm.1]
    · dsimp only
      rw [if_pos hc, if_pos hc]
      exact ⟨reg_one h, fun k => Or.inl rfl⟩
    · have := x6.set (i := ((x'.index : Int) - 1).toNat) (by omega) i2 (by omega) hcm.2
      rw [max_eq_left (by omega)] at this
      exact this
  · rw [if_pos hc] at hr ⊢
    obtain ⟨ms, e1, hr⟩ := bind_some hr
    obtain ⟨mp, e2, hr⟩ := bind_some hr
    cases hr
    obtain ⟨l1, rfl⟩ := wr_some e1
    obtain ⟨l2, rfl⟩ := wr_some e2
    have g1 : x.index < x.message.length := by rw [x4]; rw [← x2, List.length_map] at l1; exact l1
    have g2 : x.index < x.maps.length := by rw [x4]; rw [← x3, List.length_map] at l2; exact l2
    rw [wr_of_lt g1, sb, wr_of_lt g2, sb]
    refine Ok.some ⟨⟨rfl, ?_, ?_, by simp only [x4], ?_, by simp only, p1, ?_⟩, hh, hm⟩
    · dsimp only; rw [List.map_set, hh.1, x2, x4]
    · dsimp only; rw [List.map_set, hm.1, x3, x4]
    · dsimp only
      rw [if_neg hc, if_neg hc]
      exact hard_qmul h (hard_shuf h xp hm) hh
    · have := x6.set (i := x'.index) (by omega) l2 (Or.inl rfl) p2
      dsimp only
      rwa [max_eq_right (by omega)] at this

theorem parSim (h : T.Ok) (h0 : 0 < T.n) (hn : T.n ≤ 256) (stride : Nat) : Sim (parRels T) (T.parWalk stride) (parNT T stride) (parWalk T.n stride) (parN T.n stride) where
  prod := by rintro a _ b _ rfl rfl; exact reg_prod h a b
  madd := by rintro g _ a _ b _ hg rfl rfl; obtain ⟨rfl, hs⟩ := hg; exact reg_madd h g a b hs
  qmul := fun _ _ _ _ ha hb => hard_qmul h ha hb
  shufS := by rintro a _ m m' rfl hm; show T.reg _ = _; rw [← hm.1]; exact reg_shuf h a m hm.lt
  shufH := fun _ _ _ _ ha hm => hard_shuf h ha hm
  comp := fun _ _ _ _ ha hm => map_comp h ha hm
  sc1 := rfl
  r0 := by
    rintro M x x' s s' r' ⟨x1, x2, x3, x4, xp, xc, x5, x6⟩ hs hr
    obtain ⟨m, hm, hr⟩ := bind_some hr
    cases hr
    show Ok (do
      let m ← chargeAll (2 ^ M) (s.map T.reg) x.metric
      return ({ x with metric := m }, List.replicate (2 ^ M) T.ph.one, T.setU (idMap T.n))) _
    rw [forall2_map hs, x1, hm, sb]
    refine Ok.some ⟨⟨rfl, x2, x3, x4, xp, xc, ?_, x6⟩, ones_rel h _, idMap_rel h hn⟩
    dsimp only
    rw [chargeAll_len hm, ← x1, x5]
  r1 := by
    rintro M x x' s s' r' hx hs hr
    simp only [parN] at hr
    split at hr
    · rename_i v'
      obtain ⟨v, rfl⟩ : ∃ v, s = [v] := List.length_eq_one_iff.1 (by rw [hs.length_eq]; rfl)
      have hv : T.reg v = v' := by cases hs; assumption
      obtain ⟨t', ht, hr⟩ := bind_some hr
      cases hr
      subst hv
      refine Ok.bind' (parFork_sim h h0 hn hx ht) ?_
      rintro t ⟨t1, t2, t3⟩
      exact Ok.some ⟨t1, .cons t2 .nil, t3⟩
    · cases hr

end Verif.Targets
