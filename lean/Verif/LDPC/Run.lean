import Verif.LDPC.Check
/- Loading, storing, the iteration, and the absence of undefined behaviour in `update`. -/
namespace Verif.LDPC
open Verif.RS (sb)
open Verif.PolarHelper (t8 sgn vsign)
open Verif.Rotate (rotate)

/-- All members have the right sizes. -/
structure StOK (C : Cfg) (s : St) : Prop where
  hsh : Shape C s.msg s.pty
  hb : s.bnl.length = C.BNL
  hbr : ∀ r ∈ s.bnl, r.length = C.S
  hw : s.wd.length = C.PTY

/-! #### `update` -/

theorem mem_set_len {l : List Reg} {S k : Nat} {v : Reg} (h : ∀ r ∈ l, r.length = S) (hv : v.length = S) : ∀ r ∈ l.set k v, r.length = S := by
  intro r hr
  rcases List.mem_or_eq_of_mem_set hr with h1 | h1
  · exact h r h1
  · rw [h1]; exact hv

/-- Where the messages of layer `(i, j)` start in `bnl`. -/
def bl0 (C : Cfg) (i j : Nat) : Nat := C.W * (pre C.T i + 2 * i) + j * ((C.T.ent i).length + 2)

theorem bl0_le {C : Cfg} (h : C.WF) {i j : Nat} (hi : i < C.T.q) (hj : j < C.W) : bl0 C i j + ((C.T.ent i).length + 2) ≤ C.BNL := by
  rw [h.bnl_eq, ← pre_total h.hT]
  have h1 : pre C.T (i + 1) + 2 * (i + 1) ≤ pre C.T C.T.q + 2 * C.T.q := by
    have := pre_mono (T := C.T) (show i + 1 ≤ C.T.q from hi)
    omega
  have h2 := Nat.mul_le_mul_left C.W h1
  have h3 : (j + 1) * ((C.T.ent i).length + 2) ≤ C.W * ((C.T.ent i).length + 2) := Nat.mul_le_mul_right _ hj
  unfold bl0
  rw [pre, show pre C.T i + (C.T.ent i).length + 2 * (i + 1) = (pre C.T i + 2 * i) + ((C.T.ent i).length + 2) by ring, Nat.mul_add] at h2
  rw [Nat.add_mul, Nat.one_mul] at h3
  omega

theorem ix_lt {C : Cfg} (h : C.WF) {i j : Nat} (hi : i < C.T.q) (hj : j < C.W) : C.W * i + j < C.PTY := by
  rw [h.pty_eq]
  have : C.W * i + C.W ≤ C.W * C.T.q := by rw [← Nat.mul_succ]; exact Nat.mul_le_mul_left _ hi
  omega

/-- The registers gathered from the links. -/
structure AccOK (C : Cfg) (cnt : Nat) (a : Acc) : Prop where
  h1 : a.mags.length = cnt + 2
  h2 : a.inps.length = cnt + 2
  h3 : ∀ r ∈ a.mags, r.length = C.S
  h4 : ∀ r ∈ a.inps, r.length = C.S
  h5 : a.min0.length = C.S
  h6 : a.min1.length = C.S
  h7 : a.signs.length = C.S

theorem gather_shape {C : Cfg} (h : C.WF) {X : Dec} (hX : DecOK C X) {s : St} (hs : StOK C s) {i j : Nat}
    (hi : i < C.T.q) (hj : j < C.W) : Ok (gather C X s (lo0 C i j) (bl0 C i j) (C.T.ent i).length i j) (AccOK C (C.T.ent i).length) := by
  obtain ⟨E, hE⟩ := hX.hs i hi j hj
  have hlen : E.length = (C.T.ent i).length := hE.1.length_eq
  have hbl := bl0_le h hi hj
  unfold gather
  refine forUp_inv (fun _ a => AccOK C (C.T.ent i).length a) (Nat.zero_le _) ?_ ?_
  · have hr : ∀ r ∈ List.replicate ((C.T.ent i).length + 2) C.junk, r.length = C.S := by
      intro r hr; rw [List.eq_of_mem_replicate hr]; exact h.hjunk
    exact ⟨by simp, by simp, hr, hr, by simp, by simp, by simp⟩
  · rintro k a _ hk ⟨h1, h2, h3, h4, h5, h6, h7⟩
    have := link_ok h hX hs.hsh hi hj hE k (by omega)
    rw [hlen] at this
    refine Ok.bind' this fun v hv => ?_
    have hkb : bl0 C i j + k < s.bnl.length := by rw [hs.hb]; omega
    rw [rd_of_lt hkb, sb]
    have hbl2 : (s.bnl[bl0 C i j + k]).length = C.S := hs.hbr _ (List.getElem_mem _)
    dsimp only
    rw [wr_of_lt (by omega), sb, wr_of_lt (by omega), sb]
    refine Ok.some ⟨by simpa using h1, by simpa using h2, mem_set_len h3 (by simp [hv.1, hbl2]), mem_set_len h4 (by simp [hv.1, hbl2]),
      by simp [h5, hv.1, hbl2], by simp [h5, h6, hv.1, hbl2], by simp [h7, hv.1, hbl2]⟩

theorem outOf_len {C : Cfg} {cnt : Nat} {a : Acc} (ha : AccOK C cnt a) {mag inp b : Reg} (h1 : mag.length = C.S) (h2 : inp.length = C.S)
    (h3 : b.length = C.S) : (outOf a mag inp b).length = C.S := by
  unfold outOf
  simp [ha.h5, ha.h6, ha.h7, h1, h2, h3]

theorem store_shape {C : Cfg} (h : C.WF) {X : Dec} (hX : DecOK C X) {s : St} (hs : StOK C s) {i j : Nat}
    (hi : i < C.T.q) (hj : j < C.W) {k : Nat} (hk : k < (C.T.ent i).length + 2) {out tmp : Reg} (ho : out.length = C.S)
    (ht : tmp.length = C.S) : Ok (store C X s (lo0 C i j) (bl0 C i j) (C.T.ent i).length i j k out tmp) (StOK C) := by
  obtain ⟨E, hE⟩ := hX.hs i hi j hj
  have hlen : E.length = (C.T.ent i).length := hE.1.length_eq
  have hbl := bl0_le h hi hj
  have hkb : bl0 C i j + k < s.bnl.length := by rw [hs.hb]; omega
  have hW := h.hW
  have hD := h.hD
  have hDS := h.hDS
  have hix := ix_lt h hi hj
  have hbok : ∀ s', s'.bnl = s.bnl.set (bl0 C i j + k) out → s'.wd = s.wd → Shape C s'.msg s'.pty → StOK C s' := by
    intro s' h1 h2 h3
    exact ⟨h3, by rw [h1, List.length_set]; exact hs.hb, by rw [h1]; exact mem_set_len hs.hbr ho, by rw [h2]; exact hs.hw⟩
  have hpok : ∀ ix r, r.length = C.S → Shape C s.msg (s.pty.set ix r) := fun ix r hr =>
    ⟨hs.hsh.hm, by rw [List.length_set]; exact hs.hsh.hp, hs.hsh.hmr, mem_set_len hs.hsh.hpr hr⟩
  unfold store
  by_cases h1 : k < (C.T.ent i).length
  · rw [if_pos h1, rd_of_lt (by rw [hs.hw]; exact hix), sb]
    split
    · exact Ok.some hs
    · have hlo := lo0_le h hi hj
      rw [wr_of_lt hkb, sb, slice_get hE k (by omega) (by rw [hX.hl]; exact hlo), sb]
      have hmem : E[k] ∈ C.T.entries := (ent_mem (n := i) (hE.1.subset (List.getElem_mem (by omega)))).1
      obtain ⟨hb1, hb2⟩ := locOf_bound h hmem j
      refine Ok.bind' (rotate_pos C.D C.junk tmp _ hb2.le (by rw [h.hjunk]; exact hDS) (by rw [ht]; exact hDS)) fun r hr => ?_
      rw [wr_of_lt (by rw [hs.hsh.hm]; exact hb1), sb]
      exact Ok.some (hbok _ rfl rfl ⟨by rw [List.length_set]; exact hs.hsh.hm, hs.hsh.hp,
        mem_set_len hs.hsh.hmr (hr.1.trans h.hjunk), hs.hsh.hpr⟩)
  · rw [if_neg h1]
    by_cases h2 : k = (C.T.ent i).length
    · rw [if_pos h2, wr_of_lt hkb, sb, wr_of_lt (by rw [hs.hsh.hp]; exact hix), sb]
      exact Ok.some (hbok _ rfl rfl (hpok _ _ ht))
    · rw [if_neg h2, wr_of_lt hkb, sb]
      by_cases h3 : i ≠ 0
      · rw [if_pos h3, wr_of_lt (by rw [hs.hsh.hp]; exact ix_lt h (by omega) hj), sb]
        exact Ok.some (hbok _ rfl rfl (hpok _ _ ht))
      · rw [if_neg h3]
        by_cases h4 : j ≠ 0
        · rw [if_pos h4, show C.W * (C.T.q - 1) + j - 1 = C.W * (C.T.q - 1) + (j - 1) by omega,
            wr_of_lt (by rw [hs.hsh.hp]; exact ix_lt h (by omega) (by omega)), sb]
          exact Ok.some (hbok _ rfl rfl (hpok _ _ ht))
        · rw [if_neg h4]
          have hp1 : C.PTY - 1 < s.pty.length := by rw [hs.hsh.hp]; omega
          have e1 : rdZ s.pty ((C.PTY : Int) - 1) = some s.pty[C.PTY - 1] := by
            unfold rdZ
            rw [if_neg (by omega), show ((C.PTY : Int) - 1).toNat = C.PTY - 1 by omega, List.getElem?_eq_getElem hp1]
          have hr1 : (s.pty[C.PTY - 1]).length = C.S := hs.hsh.hpr _ (List.getElem_mem _)
          have e2 : rdZ s.pty[C.PTY - 1] ((C.D : Int) - 1) = some ((s.pty[C.PTY - 1])[C.D - 1]'(by omega)) := by
            unfold rdZ
            rw [if_neg (by omega), show ((C.D : Int) - 1).toNat = C.D - 1 by omega, List.getElem?_eq_getElem]
          rw [e1, sb, e2, sb, wr_of_lt (by omega), sb]
          have hl' : (tmp.set 0 ((s.pty[C.PTY - 1])[C.D - 1]'(by omega))).length = C.S := by rw [List.length_set]; exact ht
          refine Ok.bind' (rotate_neg C.D C.junk _ 1 (by omega) (by rw [h.hjunk]; exact hDS) (by rw [hl']; exact hDS)) fun r hr => ?_
          unfold wrZ
          rw [if_neg (by omega), show ((C.PTY : Int) - 1).toNat = C.PTY - 1 by omega, wr_of_lt hp1, sb]
          exact Ok.some (hbok _ rfl rfl (hpok _ _ (hr.1.trans h.hjunk)))

theorem scatter_shape {C : Cfg} (h : C.WF) {X : Dec} (hX : DecOK C X) {a : Acc} {s : St} (hs : StOK C s) {i j : Nat}
    (hi : i < C.T.q) (hj : j < C.W) (ha : AccOK C (C.T.ent i).length a) :
    Ok (scatter C X a s (lo0 C i j) (bl0 C i j) (C.T.ent i).length i j) (StOK C) := by
  have hbl := bl0_le h hi hj
  unfold scatter
  refine forUp_inv (fun _ s => StOK C s) (Nat.zero_le _) hs ?_
  rintro k s _ hk hs
  have hkb : bl0 C i j + k < s.bnl.length := by rw [hs.hb]; omega
  rw [rd_of_lt (by rw [ha.h1]; exact hk), sb, rd_of_lt (by rw [ha.h2]; exact hk), sb, rd_of_lt hkb, sb]
  have e1 : (a.mags[k]'(by rw [ha.h1]; exact hk)).length = C.S := ha.h3 _ (List.getElem_mem _)
  have e2 : (a.inps[k]'(by rw [ha.h2]; exact hk)).length = C.S := ha.h4 _ (List.getElem_mem _)
  have e3 := outOf_len ha e1 e2 (hs.hbr _ (List.getElem_mem hkb))
  exact store_shape h hX hs hi hj hk e3 (by simp [e2, e3])

theorem rorField_ok (cur first last : Nat) (h1 : first < last) (h2 : last < 30) : Ok (rorField cur first last) fun _ => True := by
  unfold rorField
  dsimp only
  have hm : ((1 <<< (last - first + 1)) - 1) <<< first < 2 ^ 32 := by
    rw [Nat.shiftLeft_eq, Nat.shiftLeft_eq, Nat.one_mul]
    have : (2 ^ (last - first + 1) - 1) * 2 ^ first < 2 ^ (last - first + 1) * 2 ^ first :=
      Nat.mul_lt_mul_of_pos_right (by have := Nat.two_pow_pos (last - first + 1); omega) (Nat.two_pow_pos _)
    refine lt_of_lt_of_le this ?_
    rw [← Nat.pow_add]
    exact Nat.pow_le_pow_right (by omega) (by omega)
  rw [show assertUB (last - first + 1 ≤ 30) = some () from if_pos (by omega), sb,
    show assertUB (((1 <<< (last - first + 1)) - 1) <<< first < 2 ^ 32) = some () from if_pos hm, sb]
  exact Ok.some trivial

theorem wdNext_shape {C : Cfg} {X : Dec} (wd : List Nat) (ix lo cnt : Nat) (h1 : ix < wd.length)
    (h2 : lo + cnt ≤ X.loc.length) (h3 : cnt ≤ 30) (hl : wd.length = C.PTY) :
    Ok (wdNext X wd ix lo cnt) fun w => w.length = C.PTY := by
  unfold wdNext
  rw [rd_of_lt h1, sb]
  by_cases hw : wd[ix] ≠ 0
  swap
  · rw [if_neg hw]; exact Ok.some hl
  rw [if_pos hw]
  by_cases hc : cnt < 1
  · rw [forUp_ge (by omega), sb]; exact Ok.some hl
  refine Ok.bind' (P := fun (s : Nat × List Nat) => s.2.length = C.PTY) ?_ (fun s hs => Ok.some hs)
  refine Ok.mono (forUp_inv (fun c (s : Nat × List Nat) => s.1 < c ∧ s.2.length = C.PTY) (by omega) ⟨by simp, hl⟩ ?_) fun s hs => hs.2
  rintro c ⟨first, w⟩ hc1 hc2 ⟨g1, g2⟩
  dsimp only at g1 g2 ⊢
  rw [rd_of_lt (by omega), sb, rd_of_lt (by omega), sb]
  have hlast : first ≤ (if c = cnt - 1 then c else c - 1) ∧ (if c = cnt - 1 then c else c - 1) < cnt := by split <;> omega
  generalize (if c = cnt - 1 then c else c - 1) = last at hlast ⊢
  split
  · split
    · rename_i hlf
      rw [rd_of_lt (by omega), sb]
      refine Ok.bind' (rorField_ok _ _ _ (by omega) (by omega)) fun v _ => ?_
      rw [wr_of_lt (by omega), sb]
      exact Ok.some ⟨by dsimp only; omega, by simpa using g2⟩
    · exact Ok.some ⟨by dsimp only; omega, g2⟩
  · exact Ok.some ⟨by dsimp only; omega, g2⟩

theorem layer_shape {C : Cfg} (h : C.WF) {X : Dec} (hX : DecOK C X) {s : St} (hs : StOK C s) {i j : Nat}
    (hi : i < C.T.q) (hj : j < C.W) : Ok (layer C X s (lo0 C i j) (bl0 C i j) (C.T.ent i).length i j) (StOK C) := by
  unfold layer
  refine Ok.bind' (gather_shape h hX hs hi hj) fun a ha => ?_
  refine Ok.bind' (scatter_shape h hX hs hi hj ha) fun s hs => ?_
  have hE := ent_len h.hT hi
  have hlo := lo0_le h hi hj
  refine Ok.bind' (wdNext_shape (C := C) s.wd _ _ _ (by rw [hs.hw]; exact ix_lt h hi hj) (by rw [hX.hl]; exact hlo)
    (by have := h.hT.hCNC; omega) hs.hw) fun w hw => ?_
  exact Ok.some ⟨hs.hsh, hs.hb, hs.hbr, hw⟩

theorem update_inv {C : Cfg} (h : C.WF) {X : Dec} (hX : DecOK C X) {s : St} (hs : StOK C s) (P : Nat → Nat → St → Prop)
    (h0 : P 0 0 s) (hrow : ∀ i s, P i C.W s → P (i + 1) 0 s)
    (hstep : ∀ i j s, i < C.T.q → j < C.W → StOK C s → P i j s →
      Ok (layer C X s (lo0 C i j) (bl0 C i j) (C.T.ent i).length i j) (P i (j + 1))) :
    Ok (update C X s) fun s' => StOK C s' ∧ P C.T.q 0 s' := by
  unfold update
  let Inv : Nat → Nat → Up → Prop := fun i j u => StOK C u.s ∧ u.lo = lo0 C i j ∧ u.bl = bl0 C i j ∧ P i j u.s
  refine Ok.bind' (P := Inv C.T.q 0) ?_ (fun u hu => Ok.some ⟨hu.1, hu.2.2.2⟩)
  refine forUp_inv (fun i u => Inv i 0 u) (Nat.zero_le _) ⟨hs, by simp [lo0, pre], by simp [bl0, pre], h0⟩ ?_
  rintro i u _ hi hu
  rw [rd_of_lt (by rw [hX.hl2]; exact hi), sb, getElem_eq_getD _ 0, hX.hc i hi]
  refine Ok.mono (forUp_inv (fun j u => Inv i j u) (Nat.zero_le _) hu ?_) ?_
  · rintro j u _ hj ⟨g1, g2, g3, g4⟩
    rw [g2, g3]
    obtain ⟨s1, e1, k1⟩ := layer_shape h hX g1 hi hj
    obtain ⟨s2, e2, k2⟩ := hstep i j u.s hi hj g1 g4
    rw [e1] at e2
    injection e2 with e2
    subst e2
    rw [e1, sb]
    refine Ok.some ⟨k1, ?_, ?_, k2⟩
    · dsimp only [lo0]; rw [Nat.add_mul, Nat.one_mul, Nat.add_assoc]
    · dsimp only [bl0]; rw [Nat.add_mul, Nat.one_mul, Nat.add_assoc]
  · rintro u ⟨g1, g2, g3, g4⟩
    refine ⟨g1, ?_, ?_, hrow _ _ g4⟩
    · rw [g2]; simp only [lo0, pre]; ring
    · rw [g3]; simp only [bl0, pre]; ring

theorem update_shape {C : Cfg} (h : C.WF) {X : Dec} (hX : DecOK C X) {s : St} (hs : StOK C s) : Ok (update C X s) (StOK C) :=
  Ok.mono (update_inv h hX hs (fun _ _ _ => True) trivial (fun _ _ _ => trivial)
    (fun _ _ _ hi hj hs _ => Ok.mono (layer_shape h hX hs hi hj) fun _ _ => trivial)) fun _ h => h.1

/-! #### Loading and storing -/

theorem for3_inv {σ : Type} (I J N : Nat) (s : σ) (f : Nat → Nat → Nat → σ → Option σ) (Inv : Nat → σ → Prop) (h0 : Inv 0 s)
    (hs : ∀ i j n s, i < I → j < J → n < N → Inv ((i * J + j) * N + n) s → Ok (f i j n s) (Inv ((i * J + j) * N + n + 1))) :
    Ok (for3 I J N s f) (Inv (I * J * N)) := by
  unfold for3
  refine forUp_inv (fun i s => Inv (i * J * N) s) (Nat.zero_le _) (by simpa using h0) ?_
  intro i s _ hi h1
  have := forUp_inv (f := fun j s => forUp 0 N s fun n s => f i j n s) (lo := 0) (hi := J) (s := s)
    (fun j s => Inv ((i * J + j) * N) s) (Nat.zero_le _) (by simpa using h1) ?_
  · rw [show (i + 1) * J = i * J + J by ring]; exact this
  intro j s _ hj h2
  have := forUp_inv (f := fun n s => f i j n s) (lo := 0) (hi := N) (s := s)
    (fun n s => Inv ((i * J + j) * N + n) s) (Nat.zero_le _) (by simpa using h2) ?_
  · rw [show (i * J + (j + 1)) * N = (i * J + j) * N + N by ring]; exact this
  intro n s _ hn h3
  exact hs i j n s hi hj hn h3

theorem lane_inj {W D i j n i' j' n' : Nat} (hj : j < W) (hj' : j' < W) (hn : n < D) (hn' : n' < D)
    (h : (i * W + j) * D + n = (i' * W + j') * D + n') : i = i' ∧ j = j' ∧ n = n' := by
  rw [Nat.mul_comm (i * W + j), Nat.mul_comm (i' * W + j')] at h
  obtain ⟨h1, h2⟩ := idx_inj hn hn' h
  rw [Nat.mul_comm i, Nat.mul_comm i'] at h1
  obtain ⟨h3, h4⟩ := idx_inj hj hj' h1
  exact ⟨h3, h4, h2⟩

/-- Filling lanes `0 .. D-1` of all registers from `src`, register `W i + j`, lane `n` getting element `ix i j n`. -/
theorem load3_ok (I W D S : Nat) (regs : List Reg) (src : List Int) (ix : Nat → Nat → Nat → Nat) (hl : regs.length = W * I)
    (hr : ∀ r ∈ regs, r.length = S) (hDS : D ≤ S)
    (hix : ∀ i j n, i < I → j < W → n < D → ix i j n < src.length) :
    Ok (for3 I W D regs fun i j n regs => do
      let x ← rd src (ix i j n)
      wrLane regs (W * i + j) n x) fun r => r.length = W * I ∧ (∀ v ∈ r, v.length = S) ∧
      ∀ i j n, i < I → j < W → n < D → (r.getD (W * i + j) []).getD n 0 = src.getD (ix i j n) 0 := by
  refine Ok.mono (for3_inv I W D regs _ (fun m r => r.length = W * I ∧ (∀ v ∈ r, v.length = S) ∧
      ∀ i j n, i < I → j < W → n < D → (i * W + j) * D + n < m → (r.getD (W * i + j) []).getD n 0 = src.getD (ix i j n) 0)
    ⟨hl, hr, fun i j n _ _ _ h => by omega⟩ ?_) ?_
  · rintro i j n r hi hj hn ⟨h1, h2, h3⟩
    have hk : W * i + j < r.length := by
      rw [h1]
      have : W * i + W ≤ W * I := by rw [← Nat.mul_succ]; exact Nat.mul_le_mul_left _ hi
      omega
    have hrl : (r[W * i + j]).length = S := h2 _ (List.getElem_mem _)
    rw [rd_of_lt (hix i j n hi hj hn), sb, getElem_eq_getD _ 0]
    unfold wrLane
    rw [rd_of_lt hk, sb, wr_of_lt (by omega), sb, wr_of_lt hk]
    refine Ok.some ⟨by simpa using h1, mem_set_len h2 (by simpa using hrl), fun i' j' n' hi' hj' hn' hm => ?_⟩
    rw [getD_set]
    by_cases hreg : W * i + j = W * i' + j'
    · obtain ⟨rfl, rfl⟩ := idx_inj hj hj' hreg
      rw [if_pos ⟨rfl, hk⟩, getD_set]
      by_cases hnn : n = n'
      · subst hnn; rw [if_pos ⟨rfl, by omega⟩]
      · rw [if_neg (fun hh => hnn hh.1), getElem_eq_getD hk []]
        exact h3 i j n' hi hj hn' (by omega)
    · rw [if_neg (fun hh => hreg hh.1)]
      refine h3 i' j' n' hi' hj' hn' ?_
      have : (i' * W + j') * D + n' ≠ (i * W + j) * D + n := by
        intro hh
        obtain ⟨rfl, rfl, _⟩ := lane_inj hj' hj hn' hn hh
        exact hreg rfl
      omega
  · rintro r ⟨h1, h2, h3⟩
    refine ⟨h1, h2, fun i j n hi hj hn => h3 i j n hi hj hn ?_⟩
    have e1 : i * W + j + 1 ≤ I * W := by
      have : (i + 1) * W ≤ I * W := Nat.mul_le_mul_right _ hi
      rw [Nat.add_mul, Nat.one_mul] at this
      omega
    have e2 := Nat.mul_le_mul_right D e1
    rw [Nat.add_mul, Nat.one_mul] at e2
    omega

/-- The opposite direction. -/
theorem store3_ok (I W D S : Nat) (regs : List Reg) (dst : List Int) (ix : Nat → Nat → Nat → Nat) (hl : regs.length = W * I)
    (hr : ∀ r ∈ regs, r.length = S) (hDS : D ≤ S)
    (hix : ∀ i j n, i < I → j < W → n < D → ix i j n < dst.length)
    (hinj : ∀ i j n i' j' n', i < I → j < W → n < D → i' < I → j' < W → n' < D → ix i j n = ix i' j' n' → i = i' ∧ j = j' ∧ n = n') :
    Ok (for3 I W D dst fun i j n dst => do
      let x ← rdLane regs (W * i + j) n
      wr dst (ix i j n) x) fun r => r.length = dst.length ∧
      ∀ i j n, i < I → j < W → n < D → r.getD (ix i j n) 0 = (regs.getD (W * i + j) []).getD n 0 := by
  refine Ok.mono (for3_inv I W D dst _ (fun m r => r.length = dst.length ∧
      ∀ i j n, i < I → j < W → n < D → (i * W + j) * D + n < m → r.getD (ix i j n) 0 = (regs.getD (W * i + j) []).getD n 0)
    ⟨rfl, fun i j n _ _ _ h => by omega⟩ ?_) ?_
  · rintro i j n r hi hj hn ⟨h1, h3⟩
    have hk : W * i + j < regs.length := by
      rw [hl]
      have : W * i + W ≤ W * I := by rw [← Nat.mul_succ]; exact Nat.mul_le_mul_left _ hi
      omega
    have hrl : (regs[W * i + j]).length = S := hr _ (List.getElem_mem _)
    unfold rdLane
    rw [rd_of_lt hk, sb, rd_of_lt (by omega), sb, wr_of_lt (by rw [h1]; exact hix i j n hi hj hn)]
    refine Ok.some ⟨by simpa using h1, fun i' j' n' hi' hj' hn' hm => ?_⟩
    rw [getD_set]
    by_cases he : ix i j n = ix i' j' n'
    · obtain ⟨rfl, rfl, rfl⟩ := hinj i j n i' j' n' hi hj hn hi' hj' hn' he
      rw [if_pos ⟨rfl, by rw [h1]; exact hix i j n hi hj hn⟩, getElem_eq_getD _ 0, getElem_eq_getD hk []]
    · rw [if_neg (fun hh => he hh.1)]
      refine h3 i' j' n' hi' hj' hn' ?_
      have : (i' * W + j') * D + n' ≠ (i * W + j) * D + n := by
        intro hh
        obtain ⟨rfl, rfl, rfl⟩ := lane_inj hj' hj hn' hn hh
        exact he rfl
      omega
  · rintro r ⟨h1, h3⟩
    refine ⟨h1, fun i j n hi hj hn => h3 i j n hi hj hn ?_⟩
    have e1 : i * W + j + 1 ≤ I * W := by
      have : (i + 1) * W ≤ I * W := Nat.mul_le_mul_right _ hi
      rw [Nat.add_mul, Nat.one_mul] at this
      omega
    have e2 := Nat.mul_le_mul_right D e1
    rw [Nat.add_mul, Nat.one_mul] at e2
    omega

theorem t_lt {C : Cfg} (h : C.WF) {j n : Nat} (hj : j < C.W) (hn : n < C.D) : C.W * n + j < C.T.M := by
  have : C.W * n + C.W ≤ C.W * C.D := by rw [← Nat.mul_succ]; exact Nat.mul_le_mul_left _ hn
  rw [h.hDM]; omega

theorem msgIx {C : Cfg} (h : C.WF) : (∀ i j n, i < C.T.K / C.T.M → j < C.W → n < C.D → C.T.M * i + C.W * n + j < C.T.K) ∧
    (∀ i j n i' j' n', i < C.T.K / C.T.M → j < C.W → n < C.D → i' < C.T.K / C.T.M → j' < C.W → n' < C.D →
      C.T.M * i + C.W * n + j = C.T.M * i' + C.W * n' + j' → i = i' ∧ j = j' ∧ n = n') ∧
    ∀ x < C.T.K, ∃ i j n, i < C.T.K / C.T.M ∧ j < C.W ∧ n < C.D ∧ x = C.T.M * i + C.W * n + j := by
  refine ⟨fun i j n hi hj hn => ?_, fun i j n i' j' n' hi hj hn hi' hj' hn' he => ?_, fun x hx => ?_⟩
  · have h1 := t_lt h hj hn
    have h5 : C.T.M * i + C.T.M ≤ C.T.M * (C.T.K / C.T.M) := by rw [← Nat.mul_succ]; exact Nat.mul_le_mul_left _ hi
    rw [← h.hT.hK] at h5
    omega
  · rw [Nat.add_assoc, Nat.add_assoc] at he
    obtain ⟨h1, h2⟩ := idx_inj (t_lt h hj hn) (t_lt h hj' hn') he
    obtain ⟨h3, h4⟩ := idx_inj hj hj' h2
    exact ⟨h1, h4, h3⟩
  · refine ⟨x / C.T.M, x % C.T.M % C.W, x % C.T.M / C.W, ?_, Nat.mod_lt _ h.hW, ?_, ?_⟩
    · rw [Nat.div_lt_iff_lt_mul h.hT.hM, Nat.mul_comm, ← h.hT.hK]; exact hx
    · rw [Nat.div_lt_iff_lt_mul h.hW, Nat.mul_comm, ← h.hDM]; exact Nat.mod_lt _ h.hT.hM
    · rw [Nat.add_assoc, Nat.div_add_mod, Nat.div_add_mod]

theorem ptyIx {C : Cfg} (h : C.WF) : (∀ i j n, i < C.T.q → j < C.W → n < C.D → C.T.q * (C.W * n + j) + i < C.T.R) ∧
    (∀ i j n i' j' n', i < C.T.q → j < C.W → n < C.D → i' < C.T.q → j' < C.W → n' < C.D →
      C.T.q * (C.W * n + j) + i = C.T.q * (C.W * n' + j') + i' → i = i' ∧ j = j' ∧ n = n') ∧
    ∀ x < C.T.R, ∃ i j n, i < C.T.q ∧ j < C.W ∧ n < C.D ∧ x = C.T.q * (C.W * n + j) + i := by
  refine ⟨fun i j n hi hj hn => ?_, fun i j n i' j' n' hi hj hn hi' hj' hn' he => ?_, fun x hx => ?_⟩
  · have h1 := t_lt h hj hn
    have : C.T.q * (C.W * n + j) + C.T.q ≤ C.T.q * C.T.M := by rw [← Nat.mul_succ]; exact Nat.mul_le_mul_left _ h1
    rw [h.hT.hR]; omega
  · obtain ⟨h1, h2⟩ := idx_inj hi hi' he
    obtain ⟨h3, h4⟩ := idx_inj hj hj' h1
    exact ⟨h2, h4, h3⟩
  · have ht : x / C.T.q < C.W * C.D := by
      rw [Nat.div_lt_iff_lt_mul h.hT.hq, ← h.hDM, Nat.mul_comm, ← h.hT.hR]; exact hx
    refine ⟨x % C.T.q, x / C.T.q % C.W, x / C.T.q / C.W, Nat.mod_lt _ h.hT.hq, Nat.mod_lt _ h.hW, ?_, ?_⟩
    · rw [Nat.div_lt_iff_lt_mul h.hW, Nat.mul_comm]; exact ht
    · rw [Nat.div_add_mod, Nat.div_add_mod]

theorem load_ok {C : Cfg} (h : C.WF) {s : St} (hs : StOK C s) (message parity : List Int) (hm : message.length = C.T.K)
    (hp : parity.length = C.T.R) :
    Ok (load C s message parity) fun s' => StOK C s' ∧ s'.wd = s.wd ∧ s'.bnl = List.replicate C.BNL (List.replicate C.S 0) ∧
      (∀ x < C.T.K, dOf C s'.msg x = message.getD x 0) ∧ ∀ c < C.T.R, pOf C s'.pty c = parity.getD c 0 := by
  unfold load
  obtain ⟨m1, m2, m3⟩ := msgIx h
  obtain ⟨p1, p2, p3⟩ := ptyIx h
  rw [forUp_fill (g := fun _ => List.replicate C.S 0) (by rw [hs.hb]) (fun j l hj hl => by rw [wr_of_lt (by rw [hl, hs.hb]; exact hj)]), sb,
    List.drop_eq_nil_of_le (by rw [hs.hb]), List.append_nil]
  refine Ok.bind' (load3_ok (C.T.K / C.T.M) C.W C.D C.S s.msg message (fun i j n => C.T.M * i + C.W * n + j)
    (hs.hsh.hm.trans h.msg_eq) hs.hsh.hmr h.hDS (by rw [hm]; exact m1)) fun msg hmsg => ?_
  refine Ok.bind' (load3_ok C.T.q C.W C.D C.S s.pty parity (fun i j n => C.T.q * (C.W * n + j) + i)
    (hs.hsh.hp.trans h.pty_eq) hs.hsh.hpr h.hDS (by rw [hp]; exact p1)) fun pty hpty => ?_
  refine Ok.some ⟨⟨⟨hmsg.1.trans h.msg_eq.symm, hpty.1.trans h.pty_eq.symm, hmsg.2.1, hpty.2.1⟩, by simp, ?_, hs.hw⟩, rfl, ?_, ?_, ?_⟩
  · intro r hr
    obtain ⟨_, _, rfl⟩ := List.mem_map.1 hr
    simp
  · simp
  · intro x hx
    obtain ⟨i, j, n, hi, hj, hn, rfl⟩ := m3 x hx
    rw [← hmsg.2.2 i j n hi hj hn, Nat.add_assoc, dOf_at h _ _ _ _ hn hj]
  · intro x hx
    obtain ⟨i, j, n, hi, hj, hn, rfl⟩ := p3 x hx
    rw [← hpty.2.2 i j n hi hj hn, pOf_at _ _ _ _ hi hj]

theorem unload_ok {C : Cfg} (h : C.WF) {s : St} (hs : StOK C s) (message parity : List Int) (hm : message.length = C.T.K)
    (hp : parity.length = C.T.R) :
    Ok (unload C s message parity) fun o => o.1.length = C.T.K ∧ o.2.length = C.T.R ∧
      (∀ x < C.T.K, o.1.getD x 0 = dOf C s.msg x) ∧ ∀ c < C.T.R, o.2.getD c 0 = pOf C s.pty c := by
  unfold unload
  obtain ⟨m1, m2, m3⟩ := msgIx h
  obtain ⟨p1, p2, p3⟩ := ptyIx h
  refine Ok.bind' (store3_ok (C.T.K / C.T.M) C.W C.D C.S s.msg message (fun i j n => C.T.M * i + C.W * n + j)
    (hs.hsh.hm.trans h.msg_eq) hs.hsh.hmr h.hDS (by rw [hm]; exact m1) m2) fun msg hmsg => ?_
  refine Ok.bind' (store3_ok C.T.q C.W C.D C.S s.pty parity (fun i j n => C.T.q * (C.W * n + j) + i)
    (hs.hsh.hp.trans h.pty_eq) hs.hsh.hpr h.hDS (by rw [hp]; exact p1) p2) fun pty hpty => ?_
  refine Ok.some ⟨hmsg.1.trans hm, hpty.1.trans hp, fun x hx => ?_, fun x hx => ?_⟩
  · obtain ⟨i, j, n, hi, hj, hn, rfl⟩ := m3 x hx
    dsimp only
    rw [hmsg.2 i j n hi hj hn, Nat.add_assoc, dOf_at h _ _ _ _ hn hj]
  · obtain ⟨i, j, n, hi, hj, hn, rfl⟩ := p3 x hx
    dsimp only
    rw [hpty.2 i j n hi hj hn, pOf_at _ _ _ _ hi hj]

/-! #### The iteration -/

/-- All checks are satisfied. -/
def AllOk (T : Table) (d p : Nat → Int) : Prop := ∀ c < T.R, T.checkOk d p c

theorem iter_ok {C : Cfg} (h : C.WF) {X : Dec} (hX : DecOK C X) : ∀ (f : Nat) (s : St) (t : Int), StOK C s → t.toNat < f →
    Ok (iter C X f s t) fun r => StOK C r.1 ∧ r.2 ≤ t ∧ (0 ≤ t → -1 ≤ r.2) ∧
      (AllOk C.T (dOf C s.msg) (pOf C s.pty) → r = (s, t)) ∧
      (¬ AllOk C.T (dOf C s.msg) (pOf C s.pty) → r.2 < t) ∧
      (0 ≤ t → (0 ≤ r.2 ↔ AllOk C.T (dOf C r.1.msg) (pOf C r.1.pty))) := by
  intro f
  induction f with
  | zero => intro s t _ h; omega
  | succ f ih =>
    intro s t hs hf
    unfold iter
    refine Ok.bind' (bad_ok h hX hs.hsh) fun b hb => ?_
    have hall : AllOk C.T (dOf C s.msg) (pOf C s.pty) ↔ b = false := by
      rw [← Bool.not_eq_true, hb]
      unfold AllOk
      push Not
      rfl
    cases b with
    | false =>
      have ha := hall.2 rfl
      rw [if_neg (by simp)]
      exact Ok.some ⟨hs, le_rfl, fun h0 => (by dsimp only; omega), fun _ => rfl, fun hn => absurd ha hn, fun h0 => ⟨fun _ => ha, fun _ => h0⟩⟩
    | true =>
      have ha : ¬ AllOk C.T (dOf C s.msg) (pOf C s.pty) := fun hh => by simpa using hall.1 hh
      rw [if_pos rfl]
      by_cases ht : t - 1 ≥ 0
      · rw [if_pos ht]
        refine Ok.bind' (update_shape h hX hs) fun s' hs' => ?_
        have hf' : (t - 1).toNat < f := by
          clear hall hb ha
          omega
        refine Ok.mono (ih s' (t - 1) hs' hf') ?_
        rintro r ⟨g1, g2, g3, _, _, g6⟩
        exact ⟨g1, by omega, fun _ => g3 ht, fun hh => absurd hh ha, fun _ => by omega, fun _ => g6 ht⟩
      · rw [if_neg ht]
        refine Ok.some ⟨hs, by dsimp only; omega, fun h0 => by dsimp only; omega, fun hh => absurd hh ha,
          fun _ => by dsimp only; omega, fun h0 => ⟨fun hh => ?_, fun hh => absurd hh ha⟩⟩
        dsimp only at hh; omega

end Verif.LDPC
