import Verif.LDPC.Enc
import Mathlib.Data.List.Forall2
/- The constructor of the decoder. -/
namespace Verif.LDPC
open Verif.RS (sb)

/-- A table together with the decoder's parameters: the word size divides `M` and fits in the register, and `LINKS_TOTAL` is the
number of links of the code. -/
structure Cfg.WF (C : Cfg) : Prop where
  hT : C.T.WF
  hD : 2 ≤ C.D
  hDM : C.T.M = C.W * C.D
  hDS : C.D ≤ C.S
  hLT : C.T.LINKS_TOTAL = C.T.M * C.T.degs.sum + 2 * C.T.R - 1
  hjunk : C.junk.length = C.S

namespace Cfg.WF
variable {C : Cfg} (h : C.WF)
include h

theorem hW : 0 < C.W := by
  rcases Nat.eq_zero_or_pos C.W with h0 | h0
  · have := h.hDM; rw [h0, Nat.zero_mul] at this; have := h.hT.hM; omega
  · exact h0

theorem pty_eq : C.PTY = C.W * C.T.q := by
  unfold Cfg.PTY
  rw [h.hT.hR, h.hDM, ← Nat.mul_assoc, Nat.mul_div_cancel _ (by have := h.hD; omega), Nat.mul_comm]

theorem msg_eq : C.MSG = C.W * (C.T.K / C.T.M) := by
  unfold Cfg.MSG
  have : C.T.K = C.W * (C.T.K / C.T.M) * C.D := by
    rw [Nat.mul_right_comm, ← h.hDM]; exact h.hT.hK
  rw [this, Nat.mul_div_cancel _ (by have := h.hD; omega), Nat.mul_right_comm, ← h.hDM, Nat.mul_div_cancel_left _ h.hT.hM]

theorem loc_eq : C.LOC = C.W * C.T.degs.sum := by
  unfold Cfg.LOC
  have hR : 0 < C.T.R := by rw [h.hT.hR]; exact Nat.mul_pos h.hT.hq h.hT.hM
  have h2 := h.hD
  rw [h.hLT, show C.T.M * C.T.degs.sum + 2 * C.T.R - 1 - (2 * C.T.R - 1) = C.T.M * C.T.degs.sum by omega, h.hDM,
    show C.W * C.D * C.T.degs.sum + C.D - 1 = C.D * (C.W * C.T.degs.sum) + (C.D - 1) by
      rw [show C.W * C.D * C.T.degs.sum = C.D * (C.W * C.T.degs.sum) by ring]; omega,
    Nat.mul_add_div (by omega), Nat.div_eq_of_lt (by omega), Nat.add_zero]

theorem bnl_eq : C.BNL = C.W * (C.T.degs.sum + 2 * C.T.q) := by
  unfold Cfg.BNL
  have hR : 0 < C.T.R := by rw [h.hT.hR]; exact Nat.mul_pos h.hT.hq h.hT.hM
  have h2 := h.hD
  have hx : 0 < C.D * (C.W * (C.T.degs.sum + 2 * C.T.q)) := by
    have := h.hW
    have := h.hT.hq
    positivity
  rw [h.hLT, h.hT.hR, h.hDM,
    show C.W * C.D * C.T.degs.sum + 2 * (C.T.q * (C.W * C.D)) - 1 + C.D - 1 =
      C.D * (C.W * (C.T.degs.sum + 2 * C.T.q)) + (C.D - 2) by
      rw [show C.W * C.D * C.T.degs.sum + 2 * (C.T.q * (C.W * C.D)) = C.D * (C.W * (C.T.degs.sum + 2 * C.T.q)) by ring]; omega,
    Nat.mul_add_div (by omega), Nat.div_eq_of_lt (by omega), Nat.add_zero]

end Cfg.WF

/-- The number of entries in residue classes below `i`. -/
def pre (T : Table) : Nat → Nat
  | 0 => 0
  | i + 1 => pre T i + (T.ent i).length

theorem pre_add (T : Table) (es : List (Nat × Nat)) (i : Nat) (f : List (Nat × Nat) → Nat → Nat)
    (hf : ∀ es i, f es i = (List.range i).foldr (fun n a => (cls T n es).length + a) 0) :
    f es i = es.countP fun e => decide (e.2 % T.q < i) := by
  rw [hf]
  induction i with
  | zero => simp
  | succ i ih =>
    rw [List.range_succ, List.foldr_append]
    have hsplit : ∀ (l : List Nat) (b : Nat), l.foldr (fun n a => (cls T n es).length + a) b =
        l.foldr (fun n a => (cls T n es).length + a) 0 + b := by
      intro l b
      induction l with
      | nil => simp
      | cons x l ihl => simp only [List.foldr_cons, ihl]; omega
    rw [hsplit, ih]
    simp only [List.foldr_cons, List.foldr_nil, Nat.add_zero]
    unfold cls
    rw [← List.countP_eq_length_filter]
    clear hf hsplit ih
    induction es with
    | nil => rfl
    | cons e es ih =>
      simp only [List.countP_cons]
      rw [← ih]
      by_cases h1 : e.2 % T.q < i
      · have h2 : ¬ e.2 % T.q = i := by omega
        have h3 : e.2 % T.q < i + 1 := by omega
        simp [h1, h2, h3]; omega
      · by_cases h2 : e.2 % T.q = i
        · have h3 : e.2 % T.q < i + 1 := by omega
          simp [h1, h2]; omega
        · have h3 : ¬ e.2 % T.q < i + 1 := by omega
          simp [h1, h2, h3]

theorem pre_foldr (T : Table) (i : Nat) : pre T i = (List.range i).foldr (fun n a => (cls T n T.entries).length + a) 0 := by
  have hsplit : ∀ (l : List Nat) (b : Nat), l.foldr (fun n a => (cls T n T.entries).length + a) b =
      l.foldr (fun n a => (cls T n T.entries).length + a) 0 + b := by
    intro l b
    induction l with
    | nil => simp
    | cons x l ihl => simp only [List.foldr_cons, ihl]; omega
  induction i with
  | zero => rfl
  | succ i ih =>
    rw [pre, ih, List.range_succ, List.foldr_append, hsplit _ (List.foldr _ _ _)]
    rfl

theorem pre_total {T : Table} (h : T.WF) : pre T T.q = T.degs.sum := by
  rw [pre_foldr, pre_add T T.entries T.q (fun es i => (List.range i).foldr (fun n a => (cls T n es).length + a) 0)
    (fun _ _ => rfl)]
  have : T.entries.countP (fun e => decide (e.2 % T.q < T.q)) = T.entries.length := by
    rw [List.countP_eq_length]
    intro e _
    simpa using Nat.mod_lt _ h.hq
  rw [this]
  have h2 : T.entries.length = (T.POS.take T.degs.sum).length := by
    rw [← cut_snd T.degs 0 T.POS, List.length_map]; rfl
  rw [h2, List.length_take, Nat.min_eq_left h.hpos]

theorem pre_mono {T : Table} {a b : Nat} (h : a ≤ b) : pre T a ≤ pre T b := by
  induction b with
  | zero => rw [Nat.le_zero.1 h]
  | succ b ih =>
    by_cases hb : a = b + 1
    · rw [hb]
    · exact le_trans (ih (by omega)) (Nat.le_add_right _ _)

/-- The location of the data bits of entry `e` for the checks of layer `j`. -/
def locOf (C : Cfg) (j : Nat) (e : Nat × Nat) : Loc :=
  let s := (sh C.T e + j) % C.T.M
  ⟨C.W * e.1 + s % C.W, s / C.W⟩

/-- Where the links of layer `(i, j)` start in `loc`. -/
def lo0 (C : Cfg) (i j : Nat) : Nat := C.W * pre C.T i + j * (C.T.ent i).length

theorem lo0_le {C : Cfg} (h : C.WF) {i j : Nat} (hi : i < C.T.q) (hj : j < C.W) : lo0 C i j + (C.T.ent i).length ≤ C.LOC := by
  rw [h.loc_eq, ← pre_total h.hT]
  have h1 : pre C.T (i + 1) ≤ pre C.T C.T.q := pre_mono hi
  have h2 := Nat.mul_le_mul_left C.W h1
  have h3 : (j + 1) * (C.T.ent i).length ≤ C.W * (C.T.ent i).length := Nat.mul_le_mul_right _ hj
  unfold lo0
  rw [pre, Nat.mul_add] at h2
  rw [Nat.add_mul, Nat.one_mul] at h3
  omega

/-- The contract of `std::sort` with the comparison by `off`. -/
def IsSort (srt : List Loc → List Loc) : Prop :=
  ∀ l, (srt l).Perm l ∧ (srt l).Pairwise fun a b => a.off ≤ b.off

/-- The links of layer `(i, j)` in the decoder's tables: the entries of the class in some order. -/
def Slice (C : Cfg) (loc : List Loc) (i j : Nat) (E : List (Nat × Nat)) : Prop :=
  E.Perm (C.T.ent i) ∧ (loc.drop (lo0 C i j)).take (C.T.ent i).length = E.map (locOf C j) ∧
    (E.map (locOf C j)).Pairwise fun a b => a.off ≤ b.off

theorem perm_map_inv {α β : Type} (f : α → β) {l : List β} {E : List α} (h : l.Perm (E.map f)) : ∃ E' : List α, E'.Perm E ∧ l = E'.map f := by
  have h2 : List.Forall₂ (fun b a => b = f a) (E.map f) E := by
    rw [List.forall₂_map_left_iff]
    exact List.forall₂_same.2 fun _ _ => rfl
  obtain ⟨E', h3, h4⟩ := List.perm_comp_forall₂ h h2
  refine ⟨E', h4, ?_⟩
  clear h h2 h4
  induction h3 with
  | nil => rfl
  | cons hd _ ih => rw [List.map_cons, ← hd, ih]

theorem locOf_bound {C : Cfg} (h : C.WF) {e : Nat × Nat} (he : e ∈ C.T.entries) (j : Nat) :
    (locOf C j e).off < C.MSG ∧ (locOf C j e).shi < C.D := by
  have h1 := (entry_bounds h.hT he).1
  have hW := h.hW
  have h4 := Nat.mod_lt (sh C.T e + j) h.hT.hM
  unfold locOf
  dsimp only
  constructor
  · rw [h.msg_eq]
    have h5 : C.W * e.1 + C.W ≤ C.W * (C.T.K / C.T.M) := by rw [← Nat.mul_succ]; exact Nat.mul_le_mul_left _ h1
    have h6 := Nat.mod_lt ((sh C.T e + j) % C.T.M) hW
    omega
  · rw [Nat.div_lt_iff_lt_mul hW, Nat.mul_comm, ← h.hDM]; exact h4

theorem locFill_ok {C : Cfg} (h : C.WF) (i j lo : Nat) (hj : j < C.W) (loc : List Loc) (shift : List Nat)
    (hlo : lo + (C.T.ent i).length ≤ loc.length) (hs : shift = (C.T.ent i).map fun e => (sh C.T e + j) % C.T.M) :
    locFill C (C.T.ent i).length lo ((C.T.ent i).map fun e => C.T.M * e.1) (loc, shift) =
      some (loc.take lo ++ (C.T.ent i).map (locOf C j) ++ loc.drop (lo + (C.T.ent i).length),
        (C.T.ent i).map fun e => (sh C.T e + (j + 1)) % C.T.M) := by
  set E := C.T.ent i with hE
  subst hs
  unfold locFill
  have main := forUp_inv (lo := 0) (hi := E.length)
    (s := (loc, E.map fun e => (sh C.T e + j) % C.T.M)) (f := fun c s => do
      let o ← rd (E.map fun e => C.T.M * e.1) c
      let h ← rd s.2 c
      let loc ← wr s.1 (lo + c) ⟨(o / C.D + h % C.W) % 65536, h / C.W % 65536⟩
      let shift ← wr s.2 c ((h + 1) % C.T.M)
      return (loc, shift))
    (fun c s => s = (loc.take lo ++ (E.take c).map (locOf C j) ++ loc.drop (lo + c),
      ((E.take c).map fun e => (sh C.T e + (j + 1)) % C.T.M) ++ (E.drop c).map fun e => (sh C.T e + j) % C.T.M))
    (Nat.zero_le _) (by simp) (by
      rintro c s _ hc rfl
      have hcE : c < (E.map fun e => C.T.M * e.1).length := by simpa using hc
      have htk : (E.take c).length = c := by rw [List.length_take]; omega
      have htl : (loc.take lo).length = lo := by rw [List.length_take]; omega
      have hdrop : E.drop c = E[c] :: E.drop (c + 1) := List.drop_eq_getElem_cons hc
      have hdl : loc.drop (lo + c) = loc[lo + c] :: loc.drop (lo + c + 1) := List.drop_eq_getElem_cons (by omega)
      have hmem : E[c] ∈ C.T.entries := (ent_mem (n := i) (by rw [← hE]; exact List.getElem_mem _)).1
      have hlb := locOf_bound h hmem j
      have hK : C.MSG ≤ 65536 := by
        unfold Cfg.MSG
        exact le_trans (Nat.div_le_self _ _) h.hT.hK16
      have hDK : C.D ≤ 65536 := by
        have h1 := (entry_bounds h.hT hmem).1
        have h2 : C.T.M ≤ C.T.K := by
          rw [h.hT.hK]; exact Nat.le_mul_of_pos_right _ (by omega)
        have h3 : C.D ≤ C.T.M := by rw [h.hDM]; exact Nat.le_mul_of_pos_left _ h.hW
        have := h.hT.hK16
        omega
      dsimp only
      rw [rd_of_lt hcE, sb, List.getElem_map]
      have h2 : rd ((E.take c).map (fun e => (sh C.T e + (j + 1)) % C.T.M) ++ (E.drop c).map fun e => (sh C.T e + j) % C.T.M) c =
          some ((sh C.T E[c] + j) % C.T.M) := by
        unfold rd
        rw [List.getElem?_append_right (by simp), List.length_map, htk, Nat.sub_self, hdrop]
        rfl
      rw [h2, sb]
      have hv : (⟨(C.T.M * E[c].1 / C.D + (sh C.T E[c] + j) % C.T.M % C.W) % 65536,
          (sh C.T E[c] + j) % C.T.M / C.W % 65536⟩ : Loc) = locOf C j E[c] := by
        have e1 : C.T.M * E[c].1 / C.D = C.W * E[c].1 := by
          rw [h.hDM, Nat.mul_right_comm, Nat.mul_div_cancel _ (by have := h.hD; omega)]
        rw [e1]
        have h3 := hlb.1
        have h4 := hlb.2
        unfold locOf at h3 h4 ⊢
        dsimp only at h3 h4 ⊢
        rw [Nat.mod_eq_of_lt (show C.W * E[c].1 + (sh C.T E[c] + j) % C.T.M % C.W < 65536 by omega),
          Nat.mod_eq_of_lt (show (sh C.T E[c] + j) % C.T.M / C.W < 65536 by omega)]
      rw [hv, wr_of_lt (by simp; omega), sb, wr_of_lt (by simp; omega), sb]
      refine Ok.some ?_
      congr 1
      · rw [hdl, List.set_append_right _ _ (by simp; omega)]
        simp only [List.length_append, List.length_map, htk, htl, Nat.sub_self, List.set_cons_zero]
        rw [List.take_add_one, List.getElem?_eq_getElem hc, Option.toList_some, List.map_append]
        simp [Nat.add_assoc]
      · rw [hdrop, List.set_append_right _ _ (by simp)]
        simp only [List.length_map, htk, Nat.sub_self, List.map_cons, List.set_cons_zero]
        rw [List.take_add_one, List.getElem?_eq_getElem hc, Option.toList_some, List.map_append, Nat.mod_add_mod]
        simp [Nat.add_assoc])
  have := Ok.eq_some.1 main
  refine this.trans ?_
  simp

theorem slice_take {α : Type} (l : List α) (a n lo : Nat) (h : a + n ≤ lo) : ((l.take lo).drop a).take n = (l.drop a).take n := by
  rw [List.drop_take, List.take_take, Nat.min_eq_left (by omega)]

/-- The register of link `k` of a layer. -/
def offs (C : Cfg) (E : List (Nat × Nat)) (j k : Nat) : Nat := (locOf C j (E.getD k (0, 0))).off

/-- A freshly initialised write disable mask: every link is disabled whose successor is in the same register. -/
def WdInit (C : Cfg) (E : List (Nat × Nat)) (j w : Nat) : Prop :=
  ∀ k, w.testBit k = true ↔ k + 1 < E.length ∧ offs C E j k = offs C E j (k + 1)

theorem testBit_or_shift (w c k : Nat) : (w ||| 1 <<< c).testBit k = true ↔ w.testBit k = true ∨ k = c := by
  rw [Nat.testBit_or, Bool.or_eq_true, Nat.shiftLeft_eq, Nat.one_mul, Nat.testBit_two_pow, decide_eq_true_eq]
  exact or_congr_right ⟨fun h => h.symm, fun h => h.symm⟩

/-- The initial write disable mask is the only thing written to `wd`. -/
theorem wdInit_ok (wd : List Nat) (ix lo cnt : Nat) (loc : List Loc) (h1 : ix < wd.length) (h2 : lo + cnt ≤ loc.length) :
    Ok (wdInit wd ix lo cnt loc) fun w => w.length = wd.length ∧ (∀ a, a ≠ ix → w.getD a 0 = wd.getD a 0) ∧
      ∀ k, (w.getD ix 0).testBit k = true ↔ k + 1 < cnt ∧ (loc.getD (lo + k) ⟨0, 0⟩).off = (loc.getD (lo + k + 1) ⟨0, 0⟩).off := by
  unfold wdInit
  rw [wr_of_lt h1, sb]
  refine Ok.mono (forUp_inv (fun c (w : List Nat) => w.length = wd.length ∧ (∀ a, a ≠ ix → w.getD a 0 = wd.getD a 0) ∧
      ∀ k, (w.getD ix 0).testBit k = true ↔ k < c ∧ (loc.getD (lo + k) ⟨0, 0⟩).off = (loc.getD (lo + k + 1) ⟨0, 0⟩).off)
    (Nat.zero_le _) ⟨by simp, fun a ha => ?_, fun k => ?_⟩ ?_) ?_
  · rw [getD_set, if_neg (fun hh => ha hh.1.symm)]
  · rw [getD_set, if_pos ⟨rfl, h1⟩]; simp
  · rintro c w _ hc ⟨hw, hw2, hw3⟩
    rw [rd_of_lt (by omega), sb, rd_of_lt (by omega), sb, getElem_eq_getD _ ⟨0, 0⟩, getElem_eq_getD _ ⟨0, 0⟩]
    split
    · rename_i heq
      rw [rd_of_lt (by omega), sb]
      refine Ok.wr (by omega) ⟨by simpa using hw, fun a ha => ?_, fun k => ?_⟩
      · rw [getD_set, if_neg (fun hh => ha hh.1.symm)]; exact hw2 a ha
      · rw [getD_set, if_pos ⟨rfl, by omega⟩, getElem_eq_getD _ 0, testBit_or_shift, hw3]
        constructor
        · rintro (⟨g1, g2⟩ | rfl)
          · exact ⟨by omega, g2⟩
          · exact ⟨by omega, heq⟩
        · rintro ⟨g1, g2⟩
          by_cases hkc : k = c
          · exact Or.inr hkc
          · exact Or.inl ⟨by omega, g2⟩
    · rename_i heq
      refine Ok.some ⟨hw, hw2, fun k => ?_⟩
      rw [hw3]
      constructor
      · rintro ⟨g1, g2⟩; exact ⟨by omega, g2⟩
      · rintro ⟨g1, g2⟩
        by_cases hkc : k = c
        · subst hkc; exact absurd g2 heq
        · exact ⟨by omega, g2⟩
  · rintro w ⟨hw, hw2, hw3⟩
    refine ⟨hw, hw2, fun k => ?_⟩
    rw [hw3]
    constructor
    · rintro ⟨g1, g2⟩; exact ⟨by omega, g2⟩
    · rintro ⟨g1, g2⟩; exact ⟨by omega, g2⟩

structure DecOK (C : Cfg) (X : Dec) : Prop where
  hl : X.loc.length = C.LOC
  hl2 : X.cnc.length = C.T.q
  hc : ∀ n < C.T.q, X.cnc.getD n 0 = (C.T.ent n).length
  hs : ∀ i < C.T.q, ∀ j < C.W, ∃ E, Slice C X.loc i j E

theorem mkDec_ok {C : Cfg} (h : C.WF) (srt : List Loc → List Loc) (hsrt : IsSort srt) (pos0 cnc0 : List Nat) (loc0 : List Loc)
    (wd0 : List Nat) (hp : pos0.length = C.T.q * C.T.CNC) (hcn : cnc0.length = C.T.q) (hl : loc0.length = C.LOC)
    (hw : wd0.length = C.PTY) :
    Ok (mkDec C srt pos0 cnc0 loc0 wd0) fun r => DecOK C r.1 ∧ r.2.length = C.PTY ∧
      ∀ i < C.T.q, ∀ j < C.W, ∃ E, Slice C r.1.loc i j E ∧ WdInit C E j (r.2.getD (C.W * i + j) 0) := by
  unfold mkDec
  refine Ok.bind' (walk_ok h.hT pos0 cnc0 (by rw [hp, Nat.mul_comm]) hcn) fun w hw1 => ?_
  obtain ⟨hl1, hl2, hcn', hv⟩ := hw1
  dsimp only at hl1 hl2 hcn' hv
  unfold mkLoc
  -- invariant at (i, j)
  let Inv : Nat → Nat → Mk → Prop := fun i j m => m.loc.length = C.LOC ∧ m.wd.length = C.PTY ∧ m.lo = lo0 C i j ∧
    ∀ i' < C.T.q, ∀ j' < C.W, i' < i ∨ (i' = i ∧ j' < j) → ∃ E, Slice C m.loc i' j' E ∧ WdInit C E j' (m.wd.getD (C.W * i' + j') 0)
  refine Ok.bind' (P := fun m => Inv C.T.q 0 m) ?_ (fun m hm => by
    refine Ok.some ⟨⟨hm.1, hl2, hcn', fun i hi j hj => ?_⟩, hm.2.1, fun i hi j hj => hm.2.2.2 i hi j hj (Or.inl hi)⟩
    obtain ⟨E, hE, _⟩ := hm.2.2.2 i hi j hj (Or.inl hi)
    exact ⟨E, hE⟩)
  refine forUp_inv (fun i m => Inv i 0 m) (Nat.zero_le _) ?_ ?_
  · exact ⟨hl, hw, by simp [lo0, pre], fun i' _ j' _ h0 => by omega⟩
  rintro i m _ hi hm
  have hE := ent_len h.hT hi
  have hrow : C.T.CNC * i + (C.T.ent i).length ≤ pos0.length := by
    have : C.T.CNC * (i + 1) ≤ C.T.CNC * C.T.q := Nat.mul_le_mul_left _ hi
    rw [Nat.mul_add, Nat.mul_one, Nat.mul_comm C.T.CNC C.T.q, ← hp] at this
    omega
  rw [rd_of_lt (by omega), sb, getElem_eq_getD _ 0, hcn' i hi, show cls C.T i C.T.entries = C.T.ent i from rfl,
    offShift_ok h.hT.hM w.pos i (C.T.ent i) hE.1 (by omega) (fun c hc => hv i hi c hc), sb]
  dsimp only
  refine Ok.bind' (P := fun (s : Mk × List Nat) => Inv i C.W s.1) ?_ (fun s hs => Ok.some ?_)
  swap
  · refine ⟨hs.1, hs.2.1, ?_, fun i' hi' j' hj' h0 => hs.2.2.2 i' hi' j' hj' (by omega)⟩
    rw [hs.2.2.1]
    simp only [lo0, pre, Nat.zero_mul, Nat.add_zero, Nat.mul_add]
  refine Ok.mono (forUp_inv (fun j (s : Mk × List Nat) => Inv i j s.1 ∧ s.2 = (C.T.ent i).map fun e => (sh C.T e + j) % C.T.M)
    (Nat.zero_le _) ⟨hm, ?_⟩ ?_) fun s hs => hs.1
  · apply List.map_congr_left
    intro e _
    rw [Nat.add_zero, Nat.mod_eq_of_lt (sh_lt h.hT.hM _)]
  rintro j ⟨m, t⟩ _ hj ⟨⟨h1, h2, h3, h4⟩, h5⟩
  dsimp only at h1 h2 h3 h4 h5 ⊢
  have hlo := lo0_le h hi hj
  rw [locFill_ok h i j m.lo hj m.loc t (by rw [h1, h3]; exact hlo) h5, sb]
  set E := C.T.ent i with hEdef
  set loc1 := m.loc.take m.lo ++ E.map (locOf C j) ++ m.loc.drop (m.lo + E.length) with hloc1
  have htl : (m.loc.take m.lo).length = m.lo := by rw [List.length_take]; omega
  have hl1' : loc1.length = C.LOC := by
    rw [hloc1]; simp only [List.length_append, List.length_map, List.length_drop, htl]; omega
  have hmid : (loc1.drop m.lo).take E.length = E.map (locOf C j) := by
    rw [hloc1, List.append_assoc, List.drop_left' htl, List.take_left' (by simp)]
  have htake : loc1.take m.lo = m.loc.take m.lo := by
    rw [hloc1, List.append_assoc, List.take_left' htl]
  obtain ⟨hperm, hsorted⟩ := hsrt (E.map (locOf C j))
  have hsl : (srt (E.map (locOf C j))).length = E.length := by rw [hperm.length_eq, List.length_map]
  unfold sortRange
  rw [show assertUB (m.lo + E.length ≤ loc1.length) = some () from if_pos (by rw [hl1']; omega), sb, hmid, htake]
  dsimp only [pure]
  rw [sb]
  set loc2 := m.loc.take m.lo ++ srt (E.map (locOf C j)) ++ loc1.drop (m.lo + E.length) with hloc2
  have hl2' : loc2.length = C.LOC := by
    rw [hloc2]; simp only [List.length_append, List.length_drop, htl, hsl]; omega
  have hmid2 : (loc2.drop m.lo).take E.length = srt (E.map (locOf C j)) := by
    rw [hloc2, List.append_assoc, List.drop_left' htl, List.take_left' hsl]
  have htake2 : loc2.take m.lo = m.loc.take m.lo := by
    rw [hloc2, List.append_assoc, List.take_left' htl]
  have hix : C.W * i + j < C.PTY := by
    rw [h.pty_eq]
    have : C.W * i + C.W ≤ C.W * C.T.q := by rw [← Nat.mul_succ]; exact Nat.mul_le_mul_left _ hi
    omega
  refine Ok.bind' (wdInit_ok m.wd (C.W * i + j) m.lo E.length loc2 (by omega) (by omega)) fun wd' hwd' => ?_
  refine Ok.some ⟨⟨hl2', hwd'.1.trans h2, ?_, fun i' hi' j' hj' h0 => ?_⟩, rfl⟩
  · dsimp only
    rw [h3]; simp only [lo0]; rw [Nat.add_mul, Nat.one_mul, ← Nat.add_assoc]
  · dsimp only
    by_cases hcur : i' = i ∧ j' = j
    · obtain ⟨rfl, rfl⟩ := hcur
      obtain ⟨E', g1, g2⟩ := perm_map_inv (locOf C j') hperm
      have hsl2 : (loc2.drop (lo0 C i' j')).take (C.T.ent i').length = E'.map (locOf C j') := by rw [← h3, hmid2, g2]
      refine ⟨E', ⟨g1, hsl2, by rw [← g2]; exact hsorted⟩, fun k => ?_⟩
      rw [hwd'.2.2 k, show E.length = E'.length from g1.length_eq.symm]
      have hoff : ∀ k < E'.length, (loc2.getD (m.lo + k) ⟨0, 0⟩).off = offs C E' j' k := by
        intro k hk
        have hkl : k < (C.T.ent i').length := by rw [← g1.length_eq]; exact hk
        have e : ((loc2.drop (lo0 C i' j')).take (C.T.ent i').length)[k]? = (E'.map (locOf C j'))[k]? := by rw [hsl2]
        rw [List.getElem?_take_of_lt hkl, List.getElem?_drop, List.getElem?_map, List.getElem?_eq_getElem hk, ← h3] at e
        unfold offs
        rw [List.getD_eq_getElem?_getD, e, ← getElem_eq_getD hk]
        rfl
      constructor
      · rintro ⟨k1, k2⟩
        refine ⟨k1, ?_⟩
        rw [← hoff k (by omega), ← hoff (k + 1) k1]; exact k2
      · rintro ⟨k1, k2⟩
        refine ⟨k1, ?_⟩
        rw [hoff k (by omega), Nat.add_assoc, hoff (k + 1) k1]; exact k2
    · obtain ⟨E', ⟨g1, g2, g3⟩, g4⟩ := h4 i' hi' j' hj' (by omega)
      have hne : C.W * i' + j' ≠ C.W * i + j := fun hh => hcur (idx_inj hj' hj hh)
      refine ⟨E', ⟨g1, ?_, g3⟩, by rw [hwd'.2.1 _ hne]; exact g4⟩
      rw [← g2]
      have hend : lo0 C i' j' + (C.T.ent i').length ≤ m.lo := by
        rw [h3]
        unfold lo0
        by_cases hlt : i' < i
        · have h6 : pre C.T (i' + 1) ≤ pre C.T i := pre_mono hlt
          have h7 := Nat.mul_le_mul_left C.W h6
          have h8 : (j' + 1) * (C.T.ent i').length ≤ C.W * (C.T.ent i').length := Nat.mul_le_mul_right _ hj'
          rw [pre, Nat.mul_add] at h7
          rw [Nat.add_mul, Nat.one_mul] at h8
          omega
        · obtain ⟨rfl, hjj⟩ : i' = i ∧ j' < j := by omega
          have h8 : (j' + 1) * (C.T.ent i').length ≤ j * (C.T.ent i').length := Nat.mul_le_mul_right _ hjj
          rw [Nat.add_mul, Nat.one_mul] at h8
          omega
      rw [← slice_take loc2 _ _ _ hend, htake2, slice_take _ _ _ _ hend]

end Verif.LDPC
