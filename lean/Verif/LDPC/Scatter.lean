import Verif.LDPC.Layer
/- The second loop over the links. -/
namespace Verif.LDPC
open Verif.RS (sb)
open Verif.PolarHelper (t8 sgn vqabs vqadd vsign vmin vmax)
open Verif.Rotate (rotate)

/-- The check in lane `n` of layer `(i, j)`. -/
def chk (C : Cfg) (i j n : Nat) : Nat := C.T.q * (C.W * n + j) + i

/-- After the first `m` links of layer `(i, j)` have been stored; `w` is the write disable mask. -/
structure ScatEx (C : Cfg) (s : St) (E : List (Nat × Nat)) (i j w m : Nat) (s' : St) : Prop where
  ok : StOK C s'
  hwd : s'.wd = s.wd
  hbin : ∀ k < E.length + 2, ∀ n < C.D, lane s'.bnl (bl0 C i j + k) n =
    if k < m ∧ ¬ (k < E.length ∧ w.testBit k = true) then newOut C s E i j n k else lane s.bnl (bl0 C i j + k) n
  hbout : ∀ a, (a < bl0 C i j ∨ bl0 C i j + (E.length + 2) ≤ a) → s'.bnl.getD a [] = s.bnl.getD a []
  hdsame : ∀ x < C.T.K, (∀ k (hk : k < E.length), k < m → w.testBit k = false → ∀ n < C.D, x ≠ bitAt C.T (C.W * n + j) E[k]) →
    dOf C s'.msg x = dOf C s.msg x
  hdnew : ∀ k (hk : k < E.length), k < m → w.testBit k = false →
    (∀ k' (hk' : k' < E.length), k' < m → k < k' → w.testBit k' = false → (locOf C j E[k']).off ≠ (locOf C j E[k]).off) →
    ∀ n < C.D, dOf C s'.msg (bitAt C.T (C.W * n + j) E[k]) = newVal C s E i j n k
  hp1 : E.length < m → ∀ n < C.D, pOf C s'.pty (chk C i j n) = newVal C s E i j n E.length
  hp2 : E.length + 1 < m → ∀ n < C.D, chk C i j n ≠ 0 → pOf C s'.pty (chk C i j n - 1) = newVal C s E i j n (E.length + 1)
  hp0 : ∀ c < C.T.R, (E.length < m → ∀ n < C.D, c ≠ chk C i j n) → (E.length + 1 < m → ∀ n < C.D, c + 1 ≠ chk C i j n) →
    pOf C s'.pty c = pOf C s.pty c

/-- The register that holds the previous parity bits of layer `(i, j)`, as `(a, b)` for register `W a + b`. -/
def prevReg (C : Cfg) (i j : Nat) : Nat × Nat :=
  if i ≠ 0 then (i - 1, j) else if j ≠ 0 then (C.T.q - 1, j - 1) else (C.T.q - 1, C.W - 1)

theorem prevReg_lt {C : Cfg} (h : C.WF) {i j : Nat} (hi : i < C.T.q) (hj : j < C.W) :
    (prevReg C i j).1 < C.T.q ∧ (prevReg C i j).2 < C.W := by
  unfold prevReg
  have := h.hW
  split
  · exact ⟨by dsimp only; omega, hj⟩
  · split
    · exact ⟨by dsimp only; omega, by dsimp only; omega⟩
    · exact ⟨by dsimp only; omega, by dsimp only; omega⟩

theorem prevReg_ne {C : Cfg} (h : C.WF) (hP : 2 ≤ C.PTY) {i j : Nat} (hj : j < C.W) :
    (prevReg C i j).1 ≠ i ∨ (prevReg C i j).2 ≠ j := by
  unfold prevReg
  have := h.hW
  rw [h.pty_eq] at hP
  split
  · left; dsimp only; omega
  · split
    · right; dsimp only; omega
    · dsimp only
      by_contra hc
      push Not at hc
      obtain ⟨h1, h2⟩ := hc
      have e1 : C.W = 1 := by omega
      have e2 : C.T.q ≤ 1 := by omega
      rw [e1] at hP
      omega

/-- Lane `n` of that register belongs to check number `n`, except that in layer `(0, 0)` it belongs to check number `n + 1`. -/
theorem prevReg_chk {C : Cfg} (h : C.WF) {i j : Nat} (hi : i < C.T.q) (hj : j < C.W) (n : Nat) :
    C.T.q * (C.W * n + (prevReg C i j).2) + (prevReg C i j).1 + 1 = chk C i j (if i = 0 ∧ j = 0 then n + 1 else n) := by
  unfold prevReg chk
  have hW := h.hW
  have hq := h.hT.hq
  by_cases h1 : i ≠ 0
  · rw [if_pos h1, if_neg (by omega)]
    dsimp only; omega
  · rw [if_neg h1]
    by_cases h2 : j ≠ 0
    · rw [if_pos h2, if_neg (by omega)]
      dsimp only
      rw [show C.W * n + j = C.W * n + (j - 1) + 1 by omega, Nat.mul_succ]
      omega
    · rw [if_neg h2, if_pos ⟨by omega, by omega⟩]
      dsimp only
      rw [show C.W * (n + 1) + j = C.W * n + (C.W - 1) + 1 by rw [Nat.mul_succ]; omega, Nat.mul_succ]
      omega

theorem chk_pos_iff {C : Cfg} (h : C.WF) {i j n : Nat} : chk C i j n = 0 ↔ i = 0 ∧ j = 0 ∧ n = 0 := by
  unfold chk
  have hW := h.hW
  have hq := h.hT.hq
  constructor
  · intro hh
    have h1 : i = 0 := by omega
    have h2 : C.T.q * (C.W * n + j) = 0 := by omega
    rcases Nat.mul_eq_zero.1 h2 with h3 | h3
    · omega
    · have h4 : C.W * n = 0 := by omega
      rcases Nat.mul_eq_zero.1 h4 with h5 | h5
      · omega
      · exact ⟨h1, by omega, h5⟩
  · rintro ⟨rfl, rfl, rfl⟩; simp

/-- Storing link `k`. -/
theorem store_ex {C : Cfg} (h : C.WF) (hP : 2 ≤ C.PTY) {X : Dec} (hX : DecOK C X) {s s1 : St} {i j : Nat}
    (hi : i < C.T.q) (hj : j < C.W) {E : List (Nat × Nat)} (hE : Slice C X.loc i j E) {k : Nat} (hk : k < E.length + 2)
    (hs1 : ScatEx C s E i j (s.wd.getD (C.W * i + j) 0) k s1) {out tmp : Reg} (ho : out.length = C.S) (ht : tmp.length = C.S)
    (hov : ∀ n < C.D, out.getD n 0 = newOut C s E i j n k) (htv : ∀ n < C.D, tmp.getD n 0 = newVal C s E i j n k) :
    Ok (store C X s1 (lo0 C i j) (bl0 C i j) E.length i j k out tmp) (ScatEx C s E i j (s.wd.getD (C.W * i + j) 0) (k + 1)) := by
  have hlen : E.length = (C.T.ent i).length := hE.1.length_eq
  have hbl := bl0_le h hi hj
  have hs := hs1.ok
  have hkb : bl0 C i j + k < s1.bnl.length := by rw [hs.hb]; omega
  have hW := h.hW
  have hD := h.hD
  have hDS := h.hDS
  have hix := ix_lt h hi hj
  have hshape := store_shape h hX hs hi hj (k := k) (by omega) ho ht
  rw [← hlen] at hshape
  have hbin : ∀ b', b' = s1.bnl.set (bl0 C i j + k) out → ¬ (k < E.length ∧ (s.wd.getD (C.W * i + j) 0).testBit k = true) →
      (∀ k' < E.length + 2, ∀ n < C.D, lane b' (bl0 C i j + k') n =
        if k' < k + 1 ∧ ¬ (k' < E.length ∧ (s.wd.getD (C.W * i + j) 0).testBit k' = true) then newOut C s E i j n k'
        else lane s.bnl (bl0 C i j + k') n) ∧
      ∀ a, (a < bl0 C i j ∨ bl0 C i j + (E.length + 2) ≤ a) → b'.getD a [] = s.bnl.getD a [] := by
    rintro b' rfl hnd
    refine ⟨fun k' hk' n hn => ?_, fun a ha => ?_⟩
    · unfold lane
      rw [getD_set]
      by_cases hkk : k = k'
      · subst hkk
        rw [if_pos ⟨rfl, hkb⟩, if_pos ⟨by omega, hnd⟩, hov n hn]
      · rw [if_neg (by omega)]
        have := hs1.hbin k' hk' n hn
        unfold lane at this
        rw [this]
        by_cases hc : k' < k ∧ ¬ (k' < E.length ∧ (s.wd.getD (C.W * i + j) 0).testBit k' = true)
        · rw [if_pos hc, if_pos ⟨by omega, hc.2⟩]
        · rw [if_neg hc, if_neg]
          rintro ⟨h1, h2⟩
          exact hc ⟨by omega, h2⟩
    · rw [getD_set, if_neg (by omega)]
      exact hs1.hbout a ha
  unfold store at hshape ⊢
  by_cases h1 : k < E.length
  · rw [if_pos h1] at hshape ⊢
    have hw1 : C.W * i + j < s1.wd.length := by rw [hs.hw]; exact hix
    rw [rd_of_lt hw1, sb] at hshape ⊢
    have hw : s1.wd[C.W * i + j] = s.wd.getD (C.W * i + j) 0 := by rw [getElem_eq_getD hw1 0, hs1.hwd]
    rw [hw] at hshape ⊢
    generalize s.wd.getD (C.W * i + j) 0 = w at hshape hs1 hbin ⊢
    by_cases htb : w.testBit k = true
    · rw [if_pos htb]
      refine Ok.some ⟨hs, hs1.hwd, fun k' hk' n hn => ?_, hs1.hbout, fun x hx hh => ?_, fun k' hk' hkm hb hne n hn => ?_,
        fun hh => by omega, fun hh => by omega, fun c hc _ _ => ?_⟩
      · rw [hs1.hbin k' hk' n hn]
        by_cases hc : k' < k ∧ ¬ (k' < E.length ∧ w.testBit k' = true)
        · rw [if_pos hc, if_pos ⟨by omega, hc.2⟩]
        · rw [if_neg hc, if_neg]
          rintro ⟨h1', h2⟩
          by_cases hkk : k' = k
          · subst hkk; exact h2 ⟨h1, htb⟩
          · exact hc ⟨by omega, h2⟩
      · exact hs1.hdsame x hx fun k' hk' hkm hb => hh k' hk' (by omega) hb
      · have hkk : k' ≠ k := fun hh => by subst hh; rw [htb] at hb; cases hb
        exact hs1.hdnew k' hk' (by omega) hb (fun k2 hk2 hkm2 => hne k2 hk2 (by omega)) n hn
      · exact hs1.hp0 c hc (fun hh => by omega) (fun hh => by omega)
    · rw [if_neg htb] at hshape ⊢
      have hlo := lo0_le h hi hj
      rw [wr_of_lt hkb, sb, slice_get hE k h1 (by rw [hX.hl]; exact hlo), sb] at hshape ⊢
      have hmem : E[k] ∈ C.T.entries := (ent_mem (n := i) (hE.1.subset (List.getElem_mem (by omega)))).1
      obtain ⟨hb1, hb2⟩ := locOf_bound h hmem j
      obtain ⟨r, hr, hr1, hr2⟩ := rotate_pos C.D C.junk tmp _ hb2.le (by rw [h.hjunk]; exact hDS) (by rw [ht]; exact hDS)
      rw [hr, sb] at hshape ⊢
      have hb1' : (locOf C j E[k]).off < s1.msg.length := by rw [hs.hsh.hm]; exact hb1
      rw [wr_of_lt hb1', sb] at hshape ⊢
      obtain ⟨s2, es2, hs2⟩ := hshape
      injection es2 with es2
      obtain ⟨hbA, hbB⟩ := hbin _ rfl (fun hh => htb hh.2)
      subst es2
      have htf : w.testBit k = false := by simpa using htb
      refine Ok.some ⟨hs2, hs1.hwd, hbA, hbB, fun x hx hh => ?_, fun k' hk' hkm hb hne n hn => ?_,
        fun hh => by omega, fun hh => by omega, fun c hc _ _ => ?_⟩
      · dsimp only
        rw [dOf_set_old h _ hb2 x fun n hn => hh k h1 (by omega) htf n hn]
        exact hs1.hdsame x hx fun k' hk' hkm hb => hh k' hk' (by omega) hb
      · dsimp only
        by_cases hkk : k' = k
        · subst hkk
          rw [dOf_set_new h r tmp hb1' hr2 n hn, htv n hn]
        · rw [dOf_set_ne]
          · exact hs1.hdnew k' hk' (by omega) hb (fun k2 hk2 hkm2 => hne k2 hk2 (by omega)) n hn
          · rw [(reg_of_bit h n j hn).1]
            exact (hne k h1 (by omega) (by omega) htf).symm
      · exact hs1.hp0 c hc (fun hh => by omega) (fun hh => by omega)
  · rw [if_neg h1] at hshape ⊢
    have hnd : ¬ (k < E.length ∧ (s.wd.getD (C.W * i + j) 0).testBit k = true) := fun hh => h1 hh.1
    obtain ⟨p1, p2, p3⟩ := ptyIx h
    by_cases h2 : k = E.length
    · have hp1' : C.W * i + j < s1.pty.length := by rw [hs.hsh.hp]; exact hix
      rw [if_pos h2, wr_of_lt hkb, sb, wr_of_lt hp1', sb] at hshape ⊢
      obtain ⟨s2, es2, hs2⟩ := hshape
      injection es2 with es2
      obtain ⟨hbA, hbB⟩ := hbin _ rfl hnd
      subst es2
      obtain ⟨q1, q2⟩ := pOf_set (C := C) tmp hp1' hi hj
      refine Ok.some ⟨hs2, hs1.hwd, hbA, hbB, fun x hx hh => ?_, fun k' hk' hkm hb hne n hn => ?_, fun _ n hn => ?_,
        fun hh => by omega, fun c hc hh _ => ?_⟩
      · exact hs1.hdsame x hx fun k' hk' hkm hb => hh k' hk' (by omega) hb
      · exact hs1.hdnew k' hk' (by omega) hb (fun k2 hk2 hkm2 => hne k2 hk2 (by omega)) n hn
      · dsimp only
        rw [← h2]
        exact (q1 n).trans (htv n hn)
      · dsimp only
        obtain ⟨i', j', n', hi', hj', hn', rfl⟩ := p3 c hc
        rw [q2 i' n' j' hi' hj' (by
          by_contra hcon
          push Not at hcon
          exact hh (by omega) n' hn' (by unfold chk; rw [hcon.1, hcon.2]))]
        exact hs1.hp0 _ hc (fun hh => by omega) (fun hh => by omega)
    · have hk2 : k = E.length + 1 := by omega
      rw [if_neg h2, wr_of_lt hkb, sb] at hshape ⊢
      -- one of the three cases writes register `prevReg` with `r`
      obtain ⟨hq1, hq2⟩ := prevReg_lt h hi hj
      have hpl : C.W * (prevReg C i j).1 + (prevReg C i j).2 < s1.pty.length := by rw [hs.hsh.hp]; exact ix_lt h hq1 hq2
      have key : ∃ r : Reg, (∀ n < C.D, (i = 0 ∧ j = 0 ∧ n + 1 = C.D → r.getD n 0 =
            pOf C s1.pty (C.T.q * (C.W * n + (prevReg C i j).2) + (prevReg C i j).1)) ∧
            ((i = 0 ∧ j = 0) → n + 1 < C.D → r.getD n 0 = tmp.getD (n + 1) 0) ∧ (¬ (i = 0 ∧ j = 0) → r.getD n 0 = tmp.getD n 0)) ∧
          (if i ≠ 0 then do
              let pty ← wr s1.pty (C.W * (i - 1) + j) tmp
              return { s1 with bnl := s1.bnl.set (bl0 C i j + k) out, pty := pty }
            else if j ≠ 0 then do
              let pty ← wr s1.pty (C.W * (C.T.q - 1) + j - 1) tmp
              return { s1 with bnl := s1.bnl.set (bl0 C i j + k) out, pty := pty }
            else do
              let t ← rdZ s1.pty ((C.PTY : Int) - 1)
              let x ← rdZ t ((C.D : Int) - 1)
              let tmp ← wr tmp 0 x
              let r ← rotate C.D C.junk tmp (-1)
              let pty ← wrZ s1.pty ((C.PTY : Int) - 1) r
              return ({ s1 with bnl := s1.bnl.set (bl0 C i j + k) out, pty := pty } : St)) =
            some { s1 with bnl := s1.bnl.set (bl0 C i j + k) out, pty := s1.pty.set (C.W * (prevReg C i j).1 + (prevReg C i j).2) r } := by
        by_cases h3 : i ≠ 0
        · have hpr : prevReg C i j = (i - 1, j) := by unfold prevReg; rw [if_pos h3]
          rw [hpr] at hpl ⊢
          refine ⟨tmp, fun n hn => ⟨fun hh => by omega, fun hh => by omega, fun _ => rfl⟩, ?_⟩
          rw [if_pos h3, wr_of_lt hpl, sb]
          rfl
        · by_cases h4 : j ≠ 0
          · have hpr : prevReg C i j = (C.T.q - 1, j - 1) := by unfold prevReg; rw [if_neg h3, if_pos h4]
            rw [hpr] at hpl ⊢
            dsimp only at hpl
            refine ⟨tmp, fun n hn => ⟨fun hh => by omega, fun hh => by omega, fun _ => rfl⟩, ?_⟩
            rw [if_neg h3, if_pos h4, show C.W * (C.T.q - 1) + j - 1 = C.W * (C.T.q - 1) + (j - 1) by omega, wr_of_lt hpl, sb]
            rfl
          · have hpr : prevReg C i j = (C.T.q - 1, C.W - 1) := by unfold prevReg; rw [if_neg h3, if_neg h4]
            rw [hpr] at hpl hq1 hq2 ⊢
            dsimp only at hpl hq1 hq2 ⊢
            have hlast : C.PTY - 1 = C.W * (C.T.q - 1) + (C.W - 1) := by
              rw [h.pty_eq]
              have : C.T.q = C.T.q - 1 + 1 := by omega
              rw [this, Nat.mul_succ]; simp only [Nat.add_sub_cancel]; omega
            have hp1 : C.PTY - 1 < s1.pty.length := by rw [hlast]; exact hpl
            have e1 : rdZ s1.pty ((C.PTY : Int) - 1) = some s1.pty[C.PTY - 1] := by
              unfold rdZ
              rw [if_neg (by omega), show ((C.PTY : Int) - 1).toNat = C.PTY - 1 by omega, List.getElem?_eq_getElem hp1]
            have hr1 : (s1.pty[C.PTY - 1]).length = C.S := hs.hsh.hpr _ (List.getElem_mem _)
            have e2 : rdZ s1.pty[C.PTY - 1] ((C.D : Int) - 1) = some ((s1.pty[C.PTY - 1])[C.D - 1]'(by omega)) := by
              unfold rdZ
              rw [if_neg (by omega), show ((C.D : Int) - 1).toNat = C.D - 1 by omega, List.getElem?_eq_getElem]
            have hl' : (tmp.set 0 ((s1.pty[C.PTY - 1])[C.D - 1]'(by omega))).length = C.S := by rw [List.length_set]; exact ht
            by_cases hD1 : C.D = 1
            · -- a single lane
              obtain ⟨r, hr, hr1', hr2, _⟩ := Rotate.rotate_ok C.D C.junk (tmp.set 0 ((s1.pty[C.PTY - 1])[C.D - 1]'(by omega))) 0 (by omega)
                (by rw [h.hjunk]; exact hDS) (by rw [hl']; exact hDS)
              have hn : rotate C.D C.junk (tmp.set 0 ((s1.pty[C.PTY - 1])[C.D - 1]'(by omega))) (-1) = some r := by
                rw [Rotate.rotate_norm _ _ _ _ (by omega)]
                unfold Rotate.norm
                rw [if_pos (by omega), show (-1 : Int) + (C.D : Int) = ((0 : Nat) : Int) by omega]
                exact hr
              refine ⟨r, fun n hn => ⟨fun _ => ?_, fun _ hh => by omega, fun hh => absurd ⟨by omega, by omega⟩ hh⟩, ?_⟩
              · have hn0 : n = 0 := by omega
                subst hn0
                have := (Rotate.isRotation_iff (by omega)).1 hr2 0 hn
                rw [pOf_at _ _ _ _ hq1 hq2, ← hlast, List.getD_eq_getElem?_getD, this, hD1]
                simp only [Nat.zero_add, Nat.sub_zero, Nat.mod_self]
                rw [List.getElem?_set_self (by omega), ← getElem_eq_getD hp1 [], Option.getD_some, getElem_eq_getD _ 0]
              · rw [if_neg h3, if_neg h4, e1, sb, e2, sb, wr_of_lt (by omega), sb, hn, sb]
                unfold wrZ
                rw [if_neg (by omega), show ((C.PTY : Int) - 1).toNat = C.PTY - 1 by omega, wr_of_lt hp1, sb, hlast]
                rfl
            · obtain ⟨r, hr, hr1', hr2⟩ := rotate_neg C.D C.junk (tmp.set 0 ((s1.pty[C.PTY - 1])[C.D - 1]'(by omega))) 1 (by omega)
                (by rw [h.hjunk]; exact hDS) (by rw [hl']; exact hDS)
              refine ⟨r, fun n hn => ⟨fun hh => ?_, fun _ hh => ?_, fun hh => absurd ⟨by omega, by omega⟩ hh⟩, ?_⟩
              · rw [pOf_at _ _ _ _ hq1 hq2, ← hlast, hr2 n hn, hh.2.2, Nat.mod_self, getD_set, if_pos ⟨rfl, by omega⟩,
                  ← getElem_eq_getD hp1 [], getElem_eq_getD _ 0]
                congr 1; omega
              · rw [hr2 n hn, Nat.mod_eq_of_lt hh, getD_set, if_neg (by omega)]
              · rw [if_neg h3, if_neg h4, e1, sb, e2, sb, wr_of_lt (by omega), sb, show (-1 : Int) = -((1 : Nat) : Int) from rfl, hr, sb]
                unfold wrZ
                rw [if_neg (by omega), show ((C.PTY : Int) - 1).toNat = C.PTY - 1 by omega, wr_of_lt hp1, sb, hlast]
                rfl
      obtain ⟨r, hr, er⟩ := key
      rw [er] at hshape ⊢
      obtain ⟨s2, es2, hs2⟩ := hshape
      injection es2 with es2
      obtain ⟨hbA, hbB⟩ := hbin _ rfl hnd
      subst es2
      obtain ⟨q1, q2⟩ := pOf_set (C := C) r hpl hq1 hq2
      have hprev := prevReg_chk h hi hj
      refine Ok.some ⟨hs2, hs1.hwd, hbA, hbB, fun x hx hh => ?_, fun k' hk' hkm hb hne n hn => ?_, fun _ n hn => ?_,
        fun _ n hn hne0 => ?_, fun c hc hh1 hh2 => ?_⟩
      · exact hs1.hdsame x hx fun k' hk' hkm hb => hh k' hk' (by omega) hb
      · exact hs1.hdnew k' hk' (by omega) hb (fun k2 hk2 hkm2 => hne k2 hk2 (by omega)) n hn
      · dsimp only
        have := q2 i n j hi hj (by rcases prevReg_ne h hP (i := i) hj with g | g <;> omega)
        unfold chk
        rw [this]
        exact hs1.hp1 (by omega) n hn
      · dsimp only
        rw [← hk2, ← htv n hn]
        by_cases h00 : i = 0 ∧ j = 0
        · have hn1 : n ≠ 0 := fun hh => hne0 ((chk_pos_iff h).2 ⟨h00.1, h00.2, hh⟩)
          have e := hprev (n - 1)
          rw [if_pos h00, show n - 1 + 1 = n by omega] at e
          rw [← e, Nat.add_sub_cancel, q1, (hr (n - 1) (by omega)).2.1 h00 (by omega), show n - 1 + 1 = n by omega]
        · have e := hprev n
          rw [if_neg h00] at e
          rw [← e, Nat.add_sub_cancel, q1, (hr n hn).2.2 h00]
      · dsimp only
        have hold := hs1.hp0 c hc (fun hh => hh1 (by omega)) (fun hh => by omega)
        obtain ⟨i', j', n', hi', hj', hn', rfl⟩ := p3 c hc
        by_cases hreg : i' = (prevReg C i j).1 ∧ j' = (prevReg C i j).2
        · rw [hreg.1, hreg.2] at hh2 hold ⊢
          have e := hprev n'
          by_cases h00 : i = 0 ∧ j = 0
          · rw [if_pos h00] at e
            by_cases hlast : n' + 1 < C.D
            · exact absurd e (hh2 (by omega) (n' + 1) hlast)
            · rw [q1, (hr n' hn').1 ⟨h00.1, h00.2, by omega⟩]
              exact hold
          · rw [if_neg h00] at e
            exact absurd e (hh2 (by omega) n' hn')
        · rw [q2 i' n' j' hi' hj' (by omega)]
          exact hold

theorem scatter_ex {C : Cfg} (h : C.WF) (hP : 2 ≤ C.PTY) {X : Dec} (hX : DecOK C X) {s : St} (hs : StOK C s) {i j : Nat}
    (hi : i < C.T.q) (hj : j < C.W) {E : List (Nat × Nat)} (hE : Slice C X.loc i j E) (h0 : 0 ≤ C.BETA) {a : Acc}
    (ha : AccEx C s E i j (E.length + 2) a) :
    Ok (scatter C X a s (lo0 C i j) (bl0 C i j) E.length i j) (ScatEx C s E i j (s.wd.getD (C.W * i + j) 0) (E.length + 2)) := by
  have hlen : E.length = (C.T.ent i).length := hE.1.length_eq
  have hbl := bl0_le h hi hj
  have hDS := h.hDS
  unfold scatter
  refine forUp_inv (fun k s' => ScatEx C s E i j (s.wd.getD (C.W * i + j) 0) k s') (Nat.zero_le _) ?_ ?_
  · exact ⟨hs, rfl, fun k _ n _ => by rw [if_neg (by omega)], fun _ _ => rfl, fun _ _ _ => rfl, fun k _ hk => by omega,
      fun hk => by omega, fun hk => by omega, fun _ _ _ _ => rfl⟩
  · intro k s1 _ hk hs1
    have hkb : bl0 C i j + k < s1.bnl.length := by rw [hs1.ok.hb]; omega
    have hk1 : k < a.mags.length := by rw [ha.ok.h1]; exact hk
    have hk2 : k < a.inps.length := by rw [ha.ok.h2]; exact hk
    rw [rd_of_lt hk1, sb, rd_of_lt hk2, sb, rd_of_lt hkb, sb]
    have hbL : (s1.bnl[bl0 C i j + k]).length = C.S := hs1.ok.hbr _ (List.getElem_mem hkb)
    have hbv : ∀ n < C.D, (s1.bnl[bl0 C i j + k]).getD n 0 = lane s.bnl (bl0 C i j + k) n := by
      intro n hn
      have := hs1.hbin k hk n hn
      rw [if_neg (by omega)] at this
      rw [← this]
      unfold lane
      rw [getElem_eq_getD hkb []]
    have hov := outOf_ex hDS h0 ha hk (getElem_eq_getD hk1 []) (getElem_eq_getD hk2 []) hbL hbv
    have e1 : (a.mags[k]).length = C.S := ha.ok.h3 _ (List.getElem_mem _)
    have e2 : (a.inps[k]).length = C.S := ha.ok.h4 _ (List.getElem_mem _)
    have e3 := outOf_len ha.ok e1 e2 hbL
    refine store_ex h hP hX hi hj hE hk hs1 e3 (by simp [e2, e3]) hov fun n hn => ?_
    rw [getD_zipWith _ _ _ _ 0 0 0 (by omega) (by omega), hov n hn, vqadd_eq, getElem_eq_getD hk2 []]
    unfold newVal
    have := ha.hinp k hk n hn
    unfold lane at this
    rw [this]

end Verif.LDPC
