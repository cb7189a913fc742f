import Verif.LDPC.MinSum
/- What one layer of `update` does to the variables and messages. -/
namespace Verif.LDPC
open Verif.RS (sb)
open Verif.PolarHelper (t8 sgn vqabs vqadd vsign vmin vmax)
open Verif.Rotate (rotate)

/-- Lane `n` of register `a`. -/
def lane (l : List Reg) (a n : Nat) : Int := (l.getD a []).getD n 0

section writes
variable {C : Cfg} (h : C.WF)
include h

theorem reg_of_bit {e : Nat × Nat} (n j : Nat) (hn : n < C.D) :
    C.W * (bitAt C.T (C.W * n + j) e / C.T.M) + bitAt C.T (C.W * n + j) e % C.T.M % C.W = (locOf C j e).off ∧
    bitAt C.T (C.W * n + j) e % C.T.M / C.W = (n + (locOf C j e).shi) % C.D := by
  have hW := h.hW
  rw [bitAt_split h]
  have hr : (sh C.T e + j) % C.T.M % C.W < C.W := Nat.mod_lt _ hW
  have hb := t_lt h hr (Nat.mod_lt (n + (sh C.T e + j) % C.T.M / C.W) (show 0 < C.D by omega))
  obtain ⟨e1, e2⟩ := divmod_mul (a := e.1) hb
  rw [e1, e2]
  obtain ⟨e3, e4⟩ := divmod_mul (a := (n + (sh C.T e + j) % C.T.M / C.W) % C.D) hr
  rw [e3, e4]
  exact ⟨rfl, rfl⟩

theorem bit_of_reg {e : Nat × Nat} (j x : Nat) (hx : C.W * (x / C.T.M) + x % C.T.M % C.W = (locOf C j e).off)
    (hs : (locOf C j e).shi < C.D) : ∃ n < C.D, x = bitAt C.T (C.W * n + j) e := by
  have hW := h.hW
  have hM := h.hT.hM
  have hr : (sh C.T e + j) % C.T.M % C.W < C.W := Nat.mod_lt _ hW
  obtain ⟨h1, h2⟩ := idx_inj (Nat.mod_lt _ hW) hr hx
  have hl : x % C.T.M / C.W < C.D := by
    rw [Nat.div_lt_iff_lt_mul hW, Nat.mul_comm, ← h.hDM]; exact Nat.mod_lt _ hM
  set shi := (locOf C j e).shi with hshi
  refine ⟨(x % C.T.M / C.W + C.D - shi) % C.D, Nat.mod_lt _ (by omega), ?_⟩
  rw [bitAt_split h]
  have e1 : ((x % C.T.M / C.W + C.D - shi) % C.D + (sh C.T e + j) % C.T.M / C.W) % C.D = x % C.T.M / C.W := by
    generalize x % C.T.M / C.W = y at hl
    rw [show (sh C.T e + j) % C.T.M / C.W = shi from rfl, Nat.mod_add_mod,
      show y + C.D - shi + shi = y + C.D by omega, Nat.add_mod_right, Nat.mod_eq_of_lt hl]
  rw [e1, ← h1, ← h2, Nat.div_add_mod, Nat.div_add_mod]

theorem dOf_set_new {msg : List Reg} {e : Nat × Nat} {j : Nat} (r tmp : Reg) (hl : (locOf C j e).off < msg.length)
    (hr : ∀ n < C.D, r.getD ((n + (locOf C j e).shi) % C.D) 0 = tmp.getD n 0) (n : Nat) (hn : n < C.D) :
    dOf C (msg.set (locOf C j e).off r) (bitAt C.T (C.W * n + j) e) = tmp.getD n 0 := by
  obtain ⟨h1, h2⟩ := reg_of_bit h (e := e) n j hn
  unfold dOf
  rw [h1, h2, getD_set, if_pos ⟨rfl, hl⟩, hr n hn]

theorem dOf_set_old {msg : List Reg} {e : Nat × Nat} {j : Nat} (r : Reg) (hs : (locOf C j e).shi < C.D) (x : Nat)
    (hx : ∀ n < C.D, x ≠ bitAt C.T (C.W * n + j) e) : dOf C (msg.set (locOf C j e).off r) x = dOf C msg x := by
  unfold dOf
  rw [getD_set, if_neg]
  rintro ⟨h1, _⟩
  obtain ⟨n, hn, hh⟩ := bit_of_reg h j x h1.symm hs
  exact hx n hn hh

omit h in
theorem dOf_set_ne {msg : List Reg} {a : Nat} (r : Reg) (x : Nat) (hx : C.W * (x / C.T.M) + x % C.T.M % C.W ≠ a) :
    dOf C (msg.set a r) x = dOf C msg x := by
  unfold dOf
  rw [getD_set, if_neg]
  rintro ⟨h1, _⟩
  exact hx h1.symm

omit h in
theorem pOf_set {pty : List Reg} {a b : Nat} (r : Reg) (hl : C.W * a + b < pty.length) (ha : a < C.T.q) (hb : b < C.W) :
    (∀ n, pOf C (pty.set (C.W * a + b) r) (C.T.q * (C.W * n + b) + a) = r.getD n 0) ∧
    ∀ i n j, i < C.T.q → j < C.W → (i ≠ a ∨ j ≠ b) → pOf C (pty.set (C.W * a + b) r) (C.T.q * (C.W * n + j) + i) =
      pOf C pty (C.T.q * (C.W * n + j) + i) := by
  refine ⟨fun n => ?_, fun i n j hi hj hne => ?_⟩
  · rw [pOf_at _ _ _ _ ha hb, getD_set, if_pos ⟨rfl, hl⟩]
  · rw [pOf_at _ _ _ _ hi hj, pOf_at _ _ _ _ hi hj, getD_set, if_neg]
    rintro ⟨h1, _⟩
    obtain ⟨g1, g2⟩ := idx_inj hb hj h1
    omega

end writes

/-- What the variables on the first `m` links tell the check of lane `n`. -/
def inL (C : Cfg) (s : St) (E : List (Nat × Nat)) (i j n m : Nat) : List Int :=
  (List.range m).map fun k => sat (linkVal C.T (dOf C s.msg) (pOf C s.pty) E i (C.W * n + j) k - lane s.bnl (bl0 C i j + k) n)

theorem inL_length (C : Cfg) (s : St) (E : List (Nat × Nat)) (i j n m : Nat) : (inL C s E i j n m).length = m := by simp [inL]

theorem inL_succ (C : Cfg) (s : St) (E : List (Nat × Nat)) (i j n m : Nat) : inL C s E i j n (m + 1) = inL C s E i j n m ++
    [sat (linkVal C.T (dOf C s.msg) (pOf C s.pty) E i (C.W * n + j) m - lane s.bnl (bl0 C i j + m) n)] := by
  unfold inL; rw [List.range_succ, List.map_append]; rfl

theorem inL_I8 (C : Cfg) (s : St) (E : List (Nat × Nat)) (i j n m : Nat) : ∀ x ∈ inL C s E i j n m, I8 x := by
  intro x hx
  obtain ⟨k, _, rfl⟩ := List.mem_map.1 hx
  exact sat_I8 _

theorem getD_map {α β : Type} (f : α → β) (a : List α) (n : Nat) (da : α) (db : β) (ha : n < a.length) :
    (a.map f).getD n db = f (a.getD n da) := by
  rw [← getElem_eq_getD (by simpa using ha), List.getElem_map, getElem_eq_getD ha da]

/-- The accumulated registers hold what they should. -/
structure AccEx (C : Cfg) (s : St) (E : List (Nat × Nat)) (i j m : Nat) (a : Acc) : Prop where
  ok : AccOK C E.length a
  hinp : ∀ k < m, ∀ n < C.D, lane a.inps k n = (inL C s E i j n m).getD k 0
  hmag : ∀ k < m, ∀ n < C.D, lane a.mags k n = mag C.BETA ((inL C s E i j n m).getD k 0)
  hmin0 : ∀ n < C.D, a.min0.getD n 0 = (two ((inL C s E i j n m).map (mag C.BETA))).1
  hmin1 : ∀ n < C.D, a.min1.getD n 0 = (two ((inL C s E i j n m).map (mag C.BETA))).2
  hsgn : ∀ n < C.D, a.signs.getD n 0 = sgns (inL C s E i j n m)

theorem gather_ex {C : Cfg} (h : C.WF) {X : Dec} (hX : DecOK C X) {s : St} (hs : StOK C s) {i j : Nat}
    (hi : i < C.T.q) (hj : j < C.W) {E : List (Nat × Nat)} (hE : Slice C X.loc i j E) (h0 : 0 ≤ C.BETA) (h1 : C.BETA ≤ 127) :
    Ok (gather C X s (lo0 C i j) (bl0 C i j) E.length i j) (AccEx C s E i j (E.length + 2)) := by
  have hlen : E.length = (C.T.ent i).length := hE.1.length_eq
  have hbl := bl0_le h hi hj
  have hDS := h.hDS
  unfold gather
  refine forUp_inv (fun m a => AccEx C s E i j m a) (Nat.zero_le _) ?_ ?_
  · have hr : ∀ r ∈ List.replicate (E.length + 2) C.junk, r.length = C.S := by
      intro r hr; rw [List.eq_of_mem_replicate hr]; exact h.hjunk
    have hd : ∀ n < C.D, (List.replicate C.S (127 : Int)).getD n 0 = 127 := by
      intro n hn
      rw [← getElem_eq_getD (by rw [List.length_replicate]; omega)]; simp
    exact ⟨⟨by simp, by simp, hr, hr, by simp, by simp, by simp⟩, fun k hk => by omega, fun k hk => by omega, hd, hd, hd⟩
  · rintro k a _ hk ⟨⟨g1, g2, g3, g4, g5, g6, g7⟩, e1, e2, e3, e4, e5⟩
    refine Ok.bind' (link_ok h hX hs.hsh hi hj hE k (by omega)) fun v hv => ?_
    have hkb : bl0 C i j + k < s.bnl.length := by rw [hs.hb]; omega
    rw [rd_of_lt hkb, sb]
    have hbl2 : (s.bnl[bl0 C i j + k]).length = C.S := hs.hbr _ (List.getElem_mem _)
    dsimp only
    rw [wr_of_lt (by omega), sb, wr_of_lt (by omega), sb]
    have hin : ∀ n < C.D, (List.zipWith vqsub v s.bnl[bl0 C i j + k]).getD n 0 =
        sat (linkVal C.T (dOf C s.msg) (pOf C s.pty) E i (C.W * n + j) k - lane s.bnl (bl0 C i j + k) n) := by
      intro n hn
      rw [getD_zipWith _ _ _ _ 0 0 0 (by omega) (by omega), vqsub_eq, hv.2 n hn]
      unfold lane
      rw [getElem_eq_getD hkb []]
    have hinl : (List.zipWith vqsub v s.bnl[bl0 C i j + k]).length = C.S := by simp [hv.1, hbl2]
    generalize List.zipWith vqsub v s.bnl[bl0 C i j + k] = inp at hin hinl
    have hml : (inp.map (magOf C.BETA)).length = C.S := by simpa using hinl
    have hmg : ∀ n < C.D, (inp.map (magOf C.BETA)).getD n 0 =
        mag C.BETA (sat (linkVal C.T (dOf C s.msg) (pOf C s.pty) E i (C.W * n + j) k - lane s.bnl (bl0 C i j + k) n)) := by
      intro n hn
      rw [getD_map _ _ _ 0 0 (by omega), hin n hn, magOf_eq h0 h1 (sat_I8 _)]
    generalize inp.map (magOf C.BETA) = mg at hml hmg
    refine Ok.some ⟨⟨by simpa using g1, by simpa using g2, mem_set_len g3 hml, mem_set_len g4 hinl,
      by simp [g5, hml], by simp [g5, g6, hml], by simp [g7, hinl]⟩, ?_, ?_, ?_, ?_, ?_⟩
    · intro k' hk' n hn
      unfold lane
      dsimp only
      rw [getD_set, inL_succ]
      by_cases hkk : k = k'
      · subst hkk
        rw [if_pos ⟨rfl, by omega⟩, hin n hn, List.getD_append_right _ _ _ _ (by rw [inL_length]), inL_length, Nat.sub_self]
        rfl
      · rw [if_neg (fun hh => hkk hh.1), List.getD_append _ _ _ _ (by rw [inL_length]; omega)]
        exact e1 k' (by omega) n hn
    · intro k' hk' n hn
      unfold lane
      dsimp only
      rw [getD_set, inL_succ]
      by_cases hkk : k = k'
      · subst hkk
        rw [if_pos ⟨rfl, by omega⟩, hmg n hn, List.getD_append_right _ _ _ _ (by rw [inL_length]), inL_length, Nat.sub_self]
        rfl
      · rw [if_neg (fun hh => hkk hh.1), List.getD_append _ _ _ _ (by rw [inL_length]; omega)]
        exact e2 k' (by omega) n hn
    · intro n hn
      dsimp only
      rw [getD_zipWith _ _ _ _ 0 0 0 (by omega) (by omega), hmg n hn, e3 n hn, inL_succ, List.map_append, List.map_singleton, two_snoc]
      rfl
    · intro n hn
      dsimp only
      rw [getD_zipWith _ _ _ _ 0 0 0 (by omega) (by simp; omega), getD_zipWith _ _ _ _ 0 0 0 (by omega) (by omega), hmg n hn, e3 n hn,
        e4 n hn, inL_succ, List.map_append, List.map_singleton, two_snoc]
      rfl
    · intro n hn
      dsimp only
      rw [getD_zipWith _ _ _ _ 0 0 0 (by omega) (by omega), hin n hn, e5 n hn, inL_succ, sgns_snoc]

/-- The new message of link `k` in lane `n`. -/
def newOut (C : Cfg) (s : St) (E : List (Nat × Nat)) (i j n k : Nat) : Int :=
  corr (lane s.bnl (bl0 C i j + k) n) (combine C.BETA ((inL C s E i j n (E.length + 2)).eraseIdx k))

/-- The new value of the variable on link `k` in lane `n`. -/
def newVal (C : Cfg) (s : St) (E : List (Nat × Nat)) (i j n k : Nat) : Int :=
  sat ((inL C s E i j n (E.length + 2)).getD k 0 + newOut C s E i j n k)

theorem outOf_ex {C : Cfg} (hDS : C.D ≤ C.S) {s : St} {E : List (Nat × Nat)} {i j : Nat} {a : Acc}
    (h0 : 0 ≤ C.BETA) (ha : AccEx C s E i j (E.length + 2) a) {k : Nat} (hk : k < E.length + 2) {mg inp b : Reg}
    (hm : mg = a.mags.getD k []) (hi : inp = a.inps.getD k []) (hb : b.length = C.S)
    (hbv : ∀ n < C.D, b.getD n 0 = lane s.bnl (bl0 C i j + k) n) (n : Nat) (hn : n < C.D) :
    (outOf a mg inp b).getD n 0 = newOut C s E i j n k := by
  have hml : mg.length = C.S := by rw [hm]; exact getD_mem_len ha.ok.h3 (by rw [ha.ok.h1]; exact hk)
  have hil : inp.length = C.S := by rw [hi]; exact getD_mem_len ha.ok.h4 (by rw [ha.ok.h2]; exact hk)
  have l5 := ha.ok.h5
  have l6 := ha.ok.h6
  have l7 := ha.ok.h7
  have hkl : k < (inL C s E i j n (E.length + 2)).length := by rw [inL_length]; exact hk
  unfold outOf
  dsimp only
  rw [getD_zipWith _ _ _ _ 0 0 0 (by omega) (by simp; omega), getD_map _ _ _ 0 0 (by simp; omega),
    getD_zipWith _ _ _ _ 0 0 0 (by simp; omega) (by simp; omega), getD_zipWith _ _ _ _ (0, 0) 0 0 (by simp; omega) (by omega),
    getD_zipWith _ _ _ _ 0 0 0 (by omega) (by omega)]
  have hz : (List.zip mg a.min0).getD n (0, 0) = (mg.getD n 0, a.min0.getD n 0) := by
    rw [List.zip]; exact getD_zipWith _ _ _ _ 0 0 _ (by omega) (by omega)
  rw [hz]
  dsimp only
  have e1 : mg.getD n 0 = mag C.BETA ((inL C s E i j n (E.length + 2))[k]'hkl) := by
    rw [hm]; exact (ha.hmag k hk n hn).trans (by rw [getElem_eq_getD hkl 0])
  have e2 : inp.getD n 0 = (inL C s E i j n (E.length + 2))[k]'hkl := by
    rw [hi]; exact (ha.hinp k hk n hn).trans (by rw [getElem_eq_getD hkl 0])
  rw [e1, e2, ha.hmin0 n hn, ha.hmin1 n hn, ha.hsgn n hn, out_lane C.BETA h0 _ (inL_I8 _ _ _ _ _ _ _) k hkl, hbv n hn, selfcorr_eq]
  · rfl
  · have := combine_bounds C.BETA h0 ((inL C s E i j n (E.length + 2)).eraseIdx k)
    exact ⟨by omega, by omega⟩

end Verif.LDPC
