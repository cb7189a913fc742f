import Verif.Targets.LdpcModel
import Verif.Targets.List
import Verif.Polar.EncSim
import Verif.Rotate.Props
import Verif.LDPC.Run
/- The decoder on the registers of a target does the same as the decoder on lists of lanes, as far as the lanes in use are concerned. -/
namespace Verif.Targets
open Verif.SIMD
open Verif.LDPC (Table Cfg Dec Loc St Acc Up)
open Verif.PolarHelper (I8 t8)
open Verif.RS (sb)
open Verif.Polar (forUp_sim bind_some')
open Verif.Rotate (IsRotation)
variable {R : Type}

/-- `Rotate<TYPE, D>` rotates the lanes below `D`. -/
def RotOk (T : Target R) (rot : Nat → R → R → Int → Option R) (D : Nat) : Prop :=
  ∀ ret0 a s, -(D : Int) ≤ s → s < D → ∃ r, rot D ret0 a s = some r ∧ IsRotation D s (T.bytes a) (T.bytes r)

/-- The parameters of the model on lists, with any contents of uninitialised registers. -/
def LdpcT.cfgJ (C : LdpcT R) (J : List Int) : Cfg := ⟨C.tab, C.D, C.T.n, C.BETA, J⟩

/-- The register `a` and the list `l` agree on the lanes in use. -/
structure Q (C : LdpcT R) (a : R) (l : List Int) : Prop where
  len : l.length = C.T.n
  val : ∀ k, k < C.D → l[k]? = some (C.T.O.int a k)

structure COk (C : LdpcT R) : Prop where
  ok : C.T.Ok
  hD : 2 ≤ C.D
  hn : C.D ≤ C.T.n
  rot : RotOk C.T C.rot C.D

theorem COk.lt {C : LdpcT R} (H : COk C) {k : Nat} (hk : k < C.D) : k < C.T.O.n := lt_of_lt_of_le hk H.hn

theorem bytes_get (T : Target R) (a : R) {k : Nat} (hk : k < T.n) : (T.bytes a)[k]? = some (T.O.v a k) := by
  unfold Target.bytes
  rw [List.getElem?_map, List.getElem?_range hk]; rfl

theorem bytes_len (T : Target R) (a : R) : (T.bytes a).length = T.n := by simp [Target.bytes]

/-! ### Lists of corresponding values -/

theorem f2_rd {α β : Type} {P : α → β → Prop} {l : List α} {l' : List β} (h : List.Forall₂ P l l') {i : Nat} {v' : β} (e : rd l' i = some v') :
    Verif.Ok (rd l i) (P · v') := by
  unfold rd at e ⊢
  obtain ⟨h1, h2⟩ := List.getElem?_eq_some_iff.1 e
  have h3 : i < l.length := by rw [h.length_eq]; exact h1
  subst h2
  exact ⟨l[i], List.getElem?_eq_getElem h3, h.get h3 h1⟩

theorem f2_set {α β : Type} {P : α → β → Prop} {l : List α} {l' : List β} (h : List.Forall₂ P l l') {v : α} {v' : β} (hv : P v v') :
    ∀ i, List.Forall₂ P (l.set i v) (l'.set i v') := by
  induction h with
  | nil => intro i; simp
  | cons h h' ih =>
    intro i
    cases i with
    | zero => exact .cons hv h'
    | succ i => exact .cons h (ih i)

theorem f2_wr {α β : Type} {P : α → β → Prop} {l : List α} {l' : List β} (h : List.Forall₂ P l l') {v : α} {v' : β} (hv : P v v') {i : Nat} {r' : List β}
    (e : wr l' i v' = some r') : Verif.Ok (wr l i v) (List.Forall₂ P · r') := by
  unfold wr at e ⊢
  split at e
  · cases e
    rw [if_pos (by rw [h.length_eq]; assumption)]
    exact Ok.some (f2_set h hv i)
  · cases e

theorem f2_rdZ {α β : Type} {P : α → β → Prop} {l : List α} {l' : List β} (h : List.Forall₂ P l l') {i : Int} {v' : β} (e : rdZ l' i = some v') :
    Verif.Ok (rdZ l i) (P · v') := by
  unfold rdZ at e ⊢
  split at e
  · cases e
  · rename_i h1; rw [if_neg h1]; exact f2_rd h e

theorem f2_wrZ {α β : Type} {P : α → β → Prop} {l : List α} {l' : List β} (h : List.Forall₂ P l l') {v : α} {v' : β} (hv : P v v') {i : Int} {r' : List β}
    (e : wrZ l' i v' = some r') : Verif.Ok (wrZ l i v) (List.Forall₂ P · r') := by
  unfold wrZ at e ⊢
  split at e
  · cases e
  · rename_i h1; rw [if_neg h1]; exact f2_wr h hv e

theorem f2_replicate {α β : Type} {P : α → β → Prop} {a : α} {b : β} (h : P a b) : ∀ n, List.Forall₂ P (List.replicate n a) (List.replicate n b)
  | 0 => .nil
  | n + 1 => .cons h (f2_replicate h n)

/-! ### Lane-wise operations -/

variable {C : LdpcT R} (H : COk C)
include H

theorem lanes_q (a : R) : Q C a (C.lanes a) := by
  refine ⟨by simp [LdpcT.lanes], fun k hk => ?_⟩
  have := H.hn
  unfold LdpcT.lanes
  rw [List.getElem?_map, List.getElem?_range (by omega)]; rfl

theorem q_dup (x : Int) : Q C (C.T.O.vdup (BitVec.ofInt 8 x)) (List.replicate C.T.n (t8 x)) := by
  have := H.hn
  refine ⟨by simp, fun k hk => ?_⟩
  rw [List.getElem?_replicate, if_pos (by omega)]
  unfold Ops.int
  rw [H.ok.ops.vdup _ _ (H.lt hk), Br.toInt_ofInt]

theorem q_zero (tmp : R) : Q C (C.T.O.vzero tmp) (List.replicate C.T.n 0) := by
  have := H.hn
  refine ⟨by simp, fun k hk => ?_⟩
  rw [List.getElem?_replicate, if_pos (by omega)]
  unfold Ops.int
  rw [H.ok.ops.vzero tmp _ (H.lt hk)]; rfl

theorem q_map {f : R → R} {g : Int → Int} (hf : ∀ a k, k < C.T.n → C.T.O.int (f a) k = g (C.T.O.int a k)) {a : R} {l : List Int} (h : Q C a l) : Q C (f a) (l.map g) := by
  have := H.hn
  refine ⟨by rw [List.length_map, h.len], fun k hk => ?_⟩
  rw [List.getElem?_map, h.val k hk, hf _ _ (H.lt hk)]; rfl

theorem q_zip {f : R → R → R} {g : Int → Int → Int} (hf : ∀ a b k, k < C.T.n → C.T.O.int (f a b) k = g (C.T.O.int a k) (C.T.O.int b k)) {a b : R} {l m : List Int} (h : Q C a l)
    (h' : Q C b m) : Q C (f a b) (List.zipWith g l m) := by
  have := H.hn
  refine ⟨by rw [List.length_zipWith, h.len, h'.len, Nat.min_self], fun k hk => ?_⟩
  rw [List.getElem?_zipWith, h.val k hk, h'.val k hk, hf _ _ _ (H.lt hk)]

theorem q_set {a : R} {l r' : List Int} (h : Q C a l) {n : Nat} {x : Int} (hx : I8 x) (e : wr l n x = some r') : Q C (C.T.setLane a n (BitVec.ofInt 8 x)) r' := by
  have := H.hn
  obtain ⟨h1, rfl⟩ := wr_some e
  refine ⟨by rw [List.length_set, h.len], fun k hk => ?_⟩
  unfold Target.setLane Ops.int
  rw [H.ok.wrt _ _ (H.lt hk)]
  rw [List.getElem?_set]
  by_cases hkn : n = k
  · rw [if_pos hkn, if_pos (by omega), if_pos hkn.symm, Br.toInt_ofInt, PolarHelper.t8_id hx.1 hx.2]
  · rw [if_neg hkn, if_neg (Ne.symm hkn)]; exact h.val k hk

theorem q_rot {ret0 : R} {ret0' : List Int} {a : R} {l r' : List Int} (h : Q C a l) (h0 : ret0'.length = C.T.n) {s : Int} (h1 : -(C.D : Int) ≤ s) (h2 : s < C.D)
    (e : Rotate.rotate C.D ret0' l s = some r') : Verif.Ok (C.rot C.D ret0 a s) (Q C · r') := by
  have hn := H.hn
  obtain ⟨r, h3, h4⟩ := H.rot ret0 a s h1 h2
  obtain ⟨r2, e2, h5, h6⟩ := Rotate.C48_generic C.D ret0' l s h1 (by omega) (by omega) (by rw [h.len]; exact hn)
  rw [e] at e2
  cases e2
  refine ⟨r, h3, ⟨by rw [h5, h0], fun j hj => ?_⟩⟩
  let n : Nat := (((j : Int) - s) % C.D).toNat
  have hW : (0 : Int) < C.D := by omega
  have g0 : 0 ≤ ((j : Int) - s) % C.D := Int.emod_nonneg _ (by omega)
  have g1 : ((j : Int) - s) % C.D < C.D := Int.emod_lt_of_pos _ hW
  have hn' : n < C.D := by omega
  have hc : (n : Int) = ((j : Int) - s) % C.D := Int.toNat_of_nonneg g0
  have e3 : (((n : Int) + s) % C.D).toNat = j := by
    rw [hc, Int.emod_add_emod, sub_add_cancel, Int.emod_eq_of_lt (by omega) (by omega), Int.toNat_natCast]
  have ha := h4 n hn'
  have hb := h6 n hn'
  rw [e3] at ha hb
  rw [hb, h.val n hn']
  rw [bytes_get _ _ (by omega), bytes_get _ _ (by omega)] at ha
  unfold Ops.int
  rw [Option.some.inj ha]

/-! ### Links -/

variable {J : List Int} (hJ : J.length = C.T.n)
include hJ

theorem link_sim {X : Dec} (hX : ∀ l ∈ X.loc, l.shi < C.D) {msg pty : List R} {msg' pty' : List (List Int)} (hm : List.Forall₂ (Q C) msg msg') (hp : List.Forall₂ (Q C) pty pty')
    {lo cnt i j k : Nat} {v' : List Int} (e : LDPC.link (C.cfgJ J) X msg' pty' lo cnt i j k = some v') : Verif.Ok (C.link X msg pty lo cnt i j k) (Q C · v') := by
  have hD := H.hD
  unfold LDPC.link at e
  unfold LdpcT.link
  split at e
  · rename_i hk
    rw [if_pos hk]
    obtain ⟨l, e1, e⟩ := bind_some' e
    obtain ⟨m, e2, e⟩ := bind_some' e
    have hl : l.shi < C.D := hX l (List.mem_of_getElem? e1)
    rw [e1, sb]
    refine Ok.bind (f2_rd hm e2) fun a ha => q_rot H ha hJ (by omega) (by omega) e
  · rename_i hk
    rw [if_neg hk]
    split at e
    · rename_i h1; rw [if_pos h1]; exact f2_rd hp e
    · rename_i h1
      rw [if_neg h1]
      split at e
      · rename_i h2; rw [if_pos h2]; exact f2_rd hp e
      · rename_i h2
        rw [if_neg h2]
        split at e
        · rename_i h3; rw [if_pos h3]; exact f2_rd hp e
        · rename_i h3
          rw [if_neg h3]
          obtain ⟨t, e1, e⟩ := bind_some' e
          obtain ⟨u, e2, e⟩ := bind_some' e
          refine Ok.bind (f2_rdZ hp e1) fun a ha => Ok.bind (q_rot H ha hJ (by omega) (by omega) e2) fun b hb => Ok.pure ?_
          exact q_set H hb ⟨by norm_num, by norm_num⟩ e

theorem cnvOf_sim {X : Dec} (hX : ∀ l ∈ X.loc, l.shi < C.D) {msg pty : List R} {msg' pty' : List (List Int)} (hm : List.Forall₂ (Q C) msg msg') (hp : List.Forall₂ (Q C) pty pty')
    {lo cnt i j : Nat} {v' : List Int} (e : LDPC.cnvOf (C.cfgJ J) X msg' pty' lo cnt i j = some v') : Verif.Ok (C.cnvOf X msg pty lo cnt i j) (Q C · v') := by
  unfold LDPC.cnvOf at e
  unfold LdpcT.cnvOf
  refine forUp_sim (fun _ a l => Q C a l) (Nat.zero_le _) (fun k _ _ a l r' ha e => ?_) ?_ e
  · obtain ⟨t, e1, e⟩ := bind_some' e
    cases e
    refine Ok.bind (link_sim H hJ hX hm hp e1) fun b hb => Ok.pure ?_
    exact q_zip H (fun a b k hk => (congrArg BitVec.toInt (H.ok.ops.vsign _ _ _ hk)).trans (Br.vsign _ _)) ha hb
  · exact q_dup H 1

/-- Mask registers. -/
structure QM (C : LdpcT R) (a : R) (l : List (BitVec 8)) : Prop where
  len : l.length = C.T.n
  val : ∀ k, k < C.D → l[k]? = some (C.T.O.v a k)

omit hJ in
theorem anyBad_sim {a : R} {l : List (BitVec 8)} (h : QM C a l) {b : Bool} (e : LDPC.anyBad (C.cfgJ J) l = some b) : C.anyBad a = some b := by
  unfold LDPC.anyBad at e
  unfold LdpcT.anyBad
  have key : Verif.Ok (forUp 0 C.D false fun n r => if r then some true else do
      let x ← rd (C.T.bytes a) n
      return x != 0#8) (· = b) := by
    refine forUp_sim (fun _ (x y : Bool) => x = y) (Nat.zero_le _) (fun n _ hn x y r' hxy e => ?_) rfl e
    subst hxy
    have hn : n < C.D := hn
    have := H.hn
    refine ⟨r', ?_, rfl⟩
    rw [← e]
    unfold rd
    rw [h.val n hn, bytes_get _ _ (by omega)]
  exact Ok.eq_some.1 key

theorem bad_sim {X : Dec} (hX : ∀ l ∈ X.loc, l.shi < C.D) {msg pty : List R} {msg' pty' : List (List Int)} (hm : List.Forall₂ (Q C) msg msg') (hp : List.Forall₂ (Q C) pty pty')
    {b : Bool} (e : LDPC.bad (C.cfgJ J) X msg' pty' = some b) : C.bad X msg pty = some b := by
  have hn := H.hn
  unfold LDPC.bad at e
  unfold LdpcT.bad
  obtain ⟨s', e1, e⟩ := bind_some' e
  have key : Verif.Ok (forUp 0 C.tab.q ((0, false) : Nat × Bool) fun i s => if s.2 then some s else do
      let cnt ← rd X.cnc i
      let r ← forUp 0 C.cfg.W ((s.1, C.T.O.vmask (C.T.O.vzero C.junk)) : Nat × R) fun j (r : Nat × R) => do
        let cnv ← C.cnvOf X msg pty r.1 cnt i j
        return (r.1 + cnt, C.T.O.vorr r.2 (C.T.O.vclez cnv))
      let b ← C.anyBad r.2
      return (r.1, b)) (· = s') := by
    refine forUp_sim (fun _ (x y : Nat × Bool) => x = y) (Nat.zero_le _) (fun i _ _ x y r' hxy e => ?_) rfl e1
    subst hxy
    split at e
    · rename_i h; rw [if_pos h]; exact ⟨r', e, rfl⟩
    · rename_i h
      rw [if_neg h]
      obtain ⟨cnt, e3, e⟩ := bind_some' e
      obtain ⟨r2, e4, e⟩ := bind_some' e
      obtain ⟨b2, e5, e⟩ := bind_some' e
      rw [e3, sb]
      refine Ok.bind (forUp_sim (fun _ (p : Nat × R) (p' : Nat × List (BitVec 8)) => p.1 = p'.1 ∧ QM C p.2 p'.2) (Nat.zero_le _) (fun j _ _ p p' q' hp2 e6 => ?_) ?_ e4)
        fun p hp2 => ?_
      · obtain ⟨cv, e7, e6⟩ := bind_some' e6
        cases e6
        rw [hp2.1]
        refine Ok.bind (cnvOf_sim H hJ hX hm hp e7) fun c hc => Ok.pure ⟨rfl, ?_, fun k hk => ?_⟩
        · rw [List.length_zipWith, List.length_map, hp2.2.len, hc.len, Nat.min_self]
        · rw [List.getElem?_zipWith, List.getElem?_map, hp2.2.val k hk, hc.val k hk, H.ok.ops.vorr _ _ _ (H.lt hk), H.ok.ops.vclez _ _ (H.lt hk), Br.vclez]
          rfl
      · refine ⟨rfl, by simp; rfl, fun k hk => ?_⟩
        rw [List.getElem?_replicate, if_pos (show k < (C.cfgJ J).S from H.lt hk), H.ok.ops.vmask _ _ (H.lt hk), H.ok.ops.vzero _ _ (H.lt hk)]
        rfl
      · rw [anyBad_sim H hp2.2 e5, sb]
        rw [hp2.1]
        exact ⟨_, rfl, by cases e; rfl⟩
  rw [Ok.eq_some.1 key, sb]; exact e

/-! ### The first pass -/

/-- The first `k` cells of two arrays of `n` correspond. -/
structure First {α β : Type} (P : α → β → Prop) (n k : Nat) (l : List α) (l' : List β) : Prop where
  len : l.length = n
  len' : l'.length = n
  val : ∀ i, i < k → ∀ v v', l[i]? = some v → l'[i]? = some v' → P v v'

omit H hJ in
theorem First.all {α β : Type} {P : α → β → Prop} {n : Nat} {l : List α} {l' : List β} (h : First P n n l l') : List.Forall₂ P l l' := by
  refine List.forall₂_iff_get.2 ⟨h.len.trans h.len'.symm, fun i h1 h2 => ?_⟩
  exact h.val i (by rw [← h.len]; exact h1) _ _ (List.getElem?_eq_getElem h1) (List.getElem?_eq_getElem h2)

omit H hJ in
theorem first_wr {α β : Type} {P : α → β → Prop} {n k : Nat} {l : List α} {l' r' : List β} (h : First P n k l l') {v : α} {v' : β} (hv : P v v') (hk : k < n)
    (e : wr l' k v' = some r') : Verif.Ok (wr l k v) (First P n (k + 1) · r') := by
  obtain ⟨_, rfl⟩ := wr_some e
  unfold wr
  rw [if_pos (by rw [h.len]; exact hk)]
  refine Ok.some ⟨by rw [List.length_set, h.len], by rw [List.length_set, h.len'], fun i hi a b ha hb => ?_⟩
  rw [List.getElem?_set] at ha hb
  by_cases hik : k = i
  · rw [if_pos hik, if_pos (by rw [h.len]; omega)] at ha
    rw [if_pos hik, if_pos (by rw [h.len']; omega)] at hb
    cases ha; cases hb; exact hv
  · rw [if_neg hik] at ha hb
    exact h.val i (by omega) a b ha hb

structure AccRel (C : LdpcT R) (n k : Nat) (a : AccT R) (a' : Acc) : Prop where
  mags : First (Q C) n k a.mags a'.mags
  inps : First (Q C) n k a.inps a'.inps
  min0 : Q C a.min0 a'.min0
  min1 : Q C a.min1 a'.min1
  signs : Q C a.signs a'.signs

structure AccAll (C : LdpcT R) (a : AccT R) (a' : Acc) : Prop where
  mags : List.Forall₂ (Q C) a.mags a'.mags
  inps : List.Forall₂ (Q C) a.inps a'.inps
  min0 : Q C a.min0 a'.min0
  min1 : Q C a.min1 a'.min1
  signs : Q C a.signs a'.signs

omit H hJ in
theorem AccRel.all {n : Nat} {a : AccT R} {a' : Acc} (h : AccRel C n n a a') : AccAll C a a' := ⟨h.mags.all, h.inps.all, h.min0, h.min1, h.signs⟩

structure StRel (C : LdpcT R) (s : StT R) (s' : St) : Prop where
  bnl : List.Forall₂ (Q C) s.bnl s'.bnl
  msg : List.Forall₂ (Q C) s.msg s'.msg
  pty : List.Forall₂ (Q C) s.pty s'.pty
  wd : s.wd = s'.wd

theorem gather_sim {X : Dec} (hX : ∀ l ∈ X.loc, l.shi < C.D) {s : StT R} {s' : St} (hs : StRel C s s') {lo bl cnt i j : Nat} {a' : Acc}
    (e : LDPC.gather (C.cfgJ J) X s' lo bl cnt i j = some a') : Verif.Ok (C.gather X s lo bl cnt i j) (AccAll C · a') := by
  have O := H.ok.ops
  unfold LDPC.gather at e
  unfold LdpcT.gather
  refine Ok.mono (forUp_sim (fun k a a' => AccRel C (cnt + 2) k a a') (Nat.zero_le _) (fun k _ hk a a' r' ha e => ?_) ?_ e) fun a ha => ha.all
  · obtain ⟨t', e1, e⟩ := bind_some' e
    obtain ⟨b', e2, e⟩ := bind_some' e
    dsimp only at e
    obtain ⟨n', e3, e⟩ := bind_some' e
    obtain ⟨m', e4, e⟩ := bind_some' e
    cases e
    refine Ok.bind (link_sim H hJ hX hs.msg hs.pty e1) fun t ht => Ok.bind (f2_rd hs.bnl e2) fun b hb => ?_
    have hi : Q C (C.T.O.vqsub t b) (List.zipWith LDPC.vqsub t' b') :=
      q_zip H (fun a b k hk => (congrArg BitVec.toInt (O.vqsub _ _ _ hk)).trans (Br.vqsub _ _)) ht hb
    have hg : Q C (C.T.O.magOf C.BETA (C.T.O.vqsub t b)) ((List.zipWith LDPC.vqsub t' b').map (LDPC.magOf C.BETA)) :=
      q_map H (fun a k hk => Ops.lane_magOf O _ _ hk) hi
    have hmin : ∀ a b k, k < C.T.n → C.T.O.int (C.T.O.vmin a b) k = PolarHelper.vmin (C.T.O.int a k) (C.T.O.int b k) :=
      fun a b k hk => (congrArg BitVec.toInt (O.vmin _ _ _ hk)).trans (Br.vmin _ _)
    have hmax : ∀ a b k, k < C.T.n → C.T.O.int (C.T.O.vmax a b) k = PolarHelper.vmax (C.T.O.int a k) (C.T.O.int b k) :=
      fun a b k hk => (congrArg BitVec.toInt (O.vmax _ _ _ hk)).trans (Br.vmax _ _)
    refine Ok.bind (first_wr ha.inps hi hk e3) fun n hn => Ok.bind (first_wr ha.mags hg hk e4) fun m hm => Ok.pure ⟨hm, hn, ?_, ?_, ?_⟩
    · exact q_zip H hmin ha.min0 hg
    · exact q_zip H hmin ha.min1 (q_zip H hmax ha.min0 hg)
    · exact q_zip H (fun a b k hk => Ops.lane_eor O _ _ hk) ha.signs hi
  · exact ⟨⟨by simp, by simp, fun i h => absurd h (Nat.not_lt_zero _)⟩, ⟨by simp, by simp, fun i h => absurd h (Nat.not_lt_zero _)⟩, q_dup H 127, q_dup H 127, q_dup H 127⟩

/-! ### The second pass -/

omit hJ in
theorem outOf_sim {a : AccT R} {a' : Acc} (ha : AccAll C a a') {mag inp b : R} {mag' inp' b' : List Int} (h1 : Q C mag mag') (h2 : Q C inp inp') (h3 : Q C b b') :
    Q C (C.T.O.outOf mag a.min0 a.min1 a.signs inp b) (LDPC.outOf a' mag' inp' b') := by
  have := H.hn
  refine ⟨?_, fun k hk => ?_⟩
  · simp [LDPC.outOf, h1.len, h2.len, h3.len, ha.min0.len, ha.min1.len, ha.signs.len]
  · rw [Ops.lane_outOf H.ok.ops _ _ _ _ _ _ (H.lt hk)]
    unfold LDPC.outOf
    simp only [List.getElem?_zipWith, List.getElem?_map, List.zip, h1.val k hk, h2.val k hk, h3.val k hk, ha.min0.val k hk, ha.min1.val k hk, ha.signs.val k hk, Option.map_some]

theorem store_sim {X : Dec} (hX : ∀ l ∈ X.loc, l.shi < C.D) {s : StT R} {s' r' : St} (hs : StRel C s s') {lo bl cnt i j k : Nat} {out tmp : R} {out' tmp' : List Int}
    (ho : Q C out out') (ht : Q C tmp tmp') (e : LDPC.store (C.cfgJ J) X s' lo bl cnt i j k out' tmp' = some r') :
    Verif.Ok (C.store X s lo bl cnt i j k out tmp) (StRel C · r') := by
  have hD := H.hD
  have hn := H.hn
  unfold LDPC.store at e
  unfold LdpcT.store
  split at e
  · rename_i hk
    rw [if_pos hk]
    obtain ⟨w, e1, e⟩ := bind_some' e
    change rd s'.wd (C.cfg.W * i + j) = some w at e1
    rw [hs.wd, e1, sb]
    split at e
    · rename_i h1; rw [if_pos h1]; cases e; exact ⟨s, rfl, hs⟩
    · rename_i h1
      rw [if_neg h1]
      obtain ⟨b', e2, e⟩ := bind_some' e
      obtain ⟨l, e3, e⟩ := bind_some' e
      obtain ⟨q', e4, e⟩ := bind_some' e
      obtain ⟨m', e5, e⟩ := bind_some' e
      cases e
      have hl : l.shi < C.D := hX l (List.mem_of_getElem? e3)
      refine Ok.bind (f2_wr hs.bnl ho e2) fun b hb => ?_
      rw [e3, sb]
      exact Ok.bind (q_rot H ht hJ (by omega) (by omega) e4) fun q hq => Ok.bind (f2_wr hs.msg hq e5) fun m hm => Ok.pure ⟨hb, hm, hs.pty, rfl⟩
  · rename_i hk
    rw [if_neg hk]
    split at e
    · rename_i h1
      rw [if_pos h1]
      obtain ⟨b', e2, e⟩ := bind_some' e
      obtain ⟨p', e3, e⟩ := bind_some' e
      cases e
      exact Ok.bind (f2_wr hs.bnl ho e2) fun b hb => Ok.bind (f2_wr hs.pty ht e3) fun p hp => Ok.pure ⟨hb, hs.msg, hp, hs.wd⟩
    · rename_i h1
      rw [if_neg h1]
      obtain ⟨b', e2, e⟩ := bind_some' e
      refine Ok.bind (f2_wr hs.bnl ho e2) fun b hb => ?_
      split at e
      · rename_i h2
        rw [if_pos h2]
        obtain ⟨p', e3, e⟩ := bind_some' e
        cases e
        exact Ok.bind (f2_wr hs.pty ht e3) fun p hp => Ok.pure ⟨hb, hs.msg, hp, hs.wd⟩
      · rename_i h2
        rw [if_neg h2]
        split at e
        · rename_i h3
          rw [if_pos h3]
          obtain ⟨p', e3, e⟩ := bind_some' e
          cases e
          exact Ok.bind (f2_wr hs.pty ht e3) fun p hp => Ok.pure ⟨hb, hs.msg, hp, hs.wd⟩
        · rename_i h3
          rw [if_neg h3]
          obtain ⟨t', e3, e⟩ := bind_some' e
          obtain ⟨x, e4, e⟩ := bind_some' e
          obtain ⟨u', e5, e⟩ := bind_some' e
          obtain ⟨q', e6, e⟩ := bind_some' e
          obtain ⟨p', e7, e⟩ := bind_some' e
          cases e
          refine Ok.bind (f2_rdZ hs.pty e3) fun t hh => ?_
          have e8 : rdZ (C.T.bytes t) ((C.D : Int) - 1) = some (C.T.O.v t (C.D - 1)) := by
            unfold rdZ
            rw [if_neg (by omega), show ((C.D : Int) - 1).toNat = C.D - 1 by omega, bytes_get _ _ (by omega)]
          have e9 : x = C.T.O.int t (C.D - 1) := by
            unfold rdZ at e4
            rw [show (((C.cfgJ J).D : Int) - 1) = ((C.D : Int) - 1) from rfl, if_neg (by omega), show ((C.D : Int) - 1).toNat = C.D - 1 by omega, hh.val _ (by omega)] at e4
            exact (Option.some.inj e4).symm
          rw [e8, sb]
          have hu := q_set H ht (n := 0) (x := x) (by rw [e9]; exact int_I8 _ _) e5
          rw [e9] at hu
          unfold Ops.int at hu
          rw [BitVec.ofInt_toInt] at hu
          exact Ok.bind (q_rot H hu hJ (by omega) (by omega) e6) fun q hq => Ok.bind (f2_wrZ hs.pty hq e7) fun p hp => Ok.pure ⟨hb, hs.msg, hp, hs.wd⟩

theorem scatter_sim {X : Dec} (hX : ∀ l ∈ X.loc, l.shi < C.D) {a : AccT R} {a' : Acc} (ha : AccAll C a a') {s : StT R} {s' r' : St} (hs : StRel C s s') {lo bl cnt i j : Nat}
    (e : LDPC.scatter (C.cfgJ J) X a' s' lo bl cnt i j = some r') : Verif.Ok (C.scatter X a s lo bl cnt i j) (StRel C · r') := by
  unfold LDPC.scatter at e
  unfold LdpcT.scatter
  refine forUp_sim (fun _ s s' => StRel C s s') (Nat.zero_le _) (fun k _ _ s s' r' hs e => ?_) hs e
  obtain ⟨m', e1, e⟩ := bind_some' e
  obtain ⟨i', e2, e⟩ := bind_some' e
  obtain ⟨b', e3, e⟩ := bind_some' e
  refine Ok.bind (f2_rd ha.mags e1) fun m hm => Ok.bind (f2_rd ha.inps e2) fun n hn => Ok.bind (f2_rd hs.bnl e3) fun b hb => ?_
  have ho := outOf_sim H ha hm hn hb
  exact store_sim H hJ hX hs ho (q_zip H (fun a b k hk => (congrArg BitVec.toInt (H.ok.ops.vqadd _ _ _ hk)).trans (Br.vqadd _ _)) hn ho) e

theorem layer_sim {X : Dec} (hX : ∀ l ∈ X.loc, l.shi < C.D) {s : StT R} {s' r' : St} (hs : StRel C s s') {lo bl cnt i j : Nat}
    (e : LDPC.layer (C.cfgJ J) X s' lo bl cnt i j = some r') : Verif.Ok (C.layer X s lo bl cnt i j) (StRel C · r') := by
  unfold LDPC.layer at e
  unfold LdpcT.layer
  obtain ⟨a', e1, e⟩ := bind_some' e
  obtain ⟨t', e2, e⟩ := bind_some' e
  obtain ⟨w', e3, e⟩ := bind_some' e
  cases e
  refine Ok.bind (gather_sim H hJ hX hs e1) fun a ha => Ok.bind (scatter_sim H hJ hX ha hs e2) fun t ht => ?_
  change LDPC.wdNext X t'.wd (C.cfg.W * i + j) lo cnt = some w' at e3
  rw [ht.wd, e3, sb]
  exact Ok.pure ⟨ht.bnl, ht.msg, ht.pty, rfl⟩

structure UpRel (C : LdpcT R) (u : UpT R) (u' : Up) : Prop where
  s : StRel C u.s u'.s
  lo : u.lo = u'.lo
  bl : u.bl = u'.bl

theorem update_sim {X : Dec} (hX : ∀ l ∈ X.loc, l.shi < C.D) {s : StT R} {s' r' : St} (hs : StRel C s s') (e : LDPC.update (C.cfgJ J) X s' = some r') :
    Verif.Ok (C.update X s) (StRel C · r') := by
  unfold LDPC.update at e
  unfold LdpcT.update
  obtain ⟨u', e1, e⟩ := bind_some' e
  cases e
  refine Ok.bind (forUp_sim (fun _ u u' => UpRel C u u') (Nat.zero_le _) (fun i _ _ u u' r' hu e => ?_) ⟨hs, rfl, rfl⟩ e1) fun u hu => Ok.pure hu.s
  obtain ⟨cnt, e2, e⟩ := bind_some' e
  rw [e2, sb]
  refine forUp_sim (fun _ u u' => UpRel C u u') (Nat.zero_le _) (fun j _ _ u u' r' hu e => ?_) hu e
  obtain ⟨t', e3, e⟩ := bind_some' e
  cases e
  rw [hu.lo, hu.bl]
  exact Ok.bind (layer_sim H hJ hX hu.s e3) fun t ht => Ok.pure ⟨ht, rfl, rfl⟩

/-! ### Loading, iterating, storing -/

omit H hJ in
theorem for3_sim {σ σ' : Type} {f : Nat → Nat → Nat → σ → Option σ} {g : Nat → Nat → Nat → σ' → Option σ'} (P : σ → σ' → Prop) {I J N : Nat} {s : σ} {s' r' : σ'}
    (hf : ∀ i j n, i < I → j < J → n < N → ∀ s s' r', P s s' → g i j n s' = some r' → Verif.Ok (f i j n s) (P · r')) (h : P s s') (e : LDPC.for3 I J N s' g = some r') :
    Verif.Ok (LDPC.for3 I J N s f) (P · r') := by
  unfold LDPC.for3 at e ⊢
  refine forUp_sim (fun _ => P) (Nat.zero_le _) (fun i _ hi s s' r' h e => ?_) h e
  refine forUp_sim (fun _ => P) (Nat.zero_le _) (fun j _ hj s s' r' h e => ?_) h e
  exact forUp_sim (fun _ => P) (Nat.zero_le _) (fun n _ hn s s' r' h e => hf i j n hi hj hn s s' r' h e) h e

omit hJ in
theorem wrLane_sim {a : List R} {a' r' : List (List Int)} (h : List.Forall₂ (Q C) a a') {ix n : Nat} {x : Int} (hx : I8 x) (e : LDPC.wrLane a' ix n x = some r') :
    Verif.Ok (C.wrLane a ix n x) (List.Forall₂ (Q C) · r') := by
  unfold LDPC.wrLane at e
  unfold LdpcT.wrLane
  obtain ⟨v', e1, e⟩ := bind_some' e
  obtain ⟨u', e2, e⟩ := bind_some' e
  refine Ok.bind (f2_rd h e1) fun v hv => ?_
  have hn : n < C.T.n := by rw [← hv.len]; exact (wr_some e2).1
  unfold assertUB
  rw [if_pos hn, sb]
  exact f2_wr h (q_set H hv hx e2) e

omit hJ in
theorem rdLane_sim {a : List R} {a' : List (List Int)} (h : List.Forall₂ (Q C) a a') {ix n : Nat} {x : Int} (hn : n < C.D) (e : LDPC.rdLane a' ix n = some x) :
    C.rdLane a ix n = some x := by
  unfold LDPC.rdLane at e
  unfold LdpcT.rdLane
  obtain ⟨v', e1, e⟩ := bind_some' e
  obtain ⟨v, e2, hv⟩ := f2_rd h e1
  rw [e2, sb]
  unfold rd at e ⊢
  rw [(lanes_q H v).val n hn, ← hv.val n hn]; exact e

/-- The cells below `c0`, and the first `m0` lanes of cell `c0`, correspond. -/
structure Lns (C : LdpcT R) (c0 m0 : Nat) (a : List R) (a' : List (List Int)) : Prop where
  len : a.length = a'.length
  regs : ∀ r ∈ a', r.length = C.T.n
  val : ∀ c v v', a[c]? = some v → a'[c]? = some v' → ∀ m, m < C.D → (c < c0 ∨ c = c0 ∧ m < m0) → v'[m]? = some (C.T.O.int v m)

omit hJ in
theorem lns_wr {a : List R} {a' r' : List (List Int)} {ix n : Nat} (h : Lns C ix n a a') {x : Int} (hx : I8 x) (hn : n < C.D) (e : LDPC.wrLane a' ix n x = some r') :
    Verif.Ok (C.wrLane a ix n x) (Lns C ix (n + 1) · r') := by
  have hnn := H.lt hn
  unfold LDPC.wrLane at e
  unfold LdpcT.wrLane
  obtain ⟨v', e1, e⟩ := bind_some' e
  obtain ⟨u', e2, e⟩ := bind_some' e
  obtain ⟨h1, rfl⟩ := wr_some e
  obtain ⟨h2, rfl⟩ := wr_some e2
  have h3 : ix < a.length := by rw [h.len]; exact h1
  have e3 : a[ix]? = some a[ix] := List.getElem?_eq_getElem h3
  unfold rd
  rw [e3, sb]
  unfold assertUB
  rw [if_pos hnn, sb]
  unfold wr
  rw [if_pos h3]
  refine Ok.some ⟨by rw [List.length_set, List.length_set, h.len], fun r hr => ?_, fun c w w' hw hw' m hm hc => ?_⟩
  · rcases List.mem_or_eq_of_mem_set hr with hr | rfl
    · exact h.regs r hr
    · rw [List.length_set]; exact h.regs _ (List.mem_of_getElem? e1)
  · rw [List.getElem?_set] at hw hw'
    by_cases hcx : ix = c
    · rw [if_pos hcx, if_pos (by omega)] at hw hw'
      cases hw; cases hw'
      unfold Target.setLane Ops.int
      rw [H.ok.wrt _ _ (H.lt hm), List.getElem?_set]
      by_cases hmn : n = m
      · rw [if_pos hmn, if_pos h2, if_pos hmn.symm, Br.toInt_ofInt, PolarHelper.t8_id hx.1 hx.2]
      · rw [if_neg hmn, if_neg (Ne.symm hmn)]
        exact h.val ix _ _ e3 e1 m hm (Or.inr ⟨rfl, by omega⟩)
    · rw [if_neg hcx] at hw hw'
      exact h.val c w w' hw hw' m hm (by omega)

omit hJ in
theorem lns_load {I J' : Nat} {a : List R} {a' r' : List (List Int)} (hl : a.length = a'.length) (hr : ∀ r ∈ a', r.length = C.T.n) (hlen : a.length = J' * I) {buf : List Int}
    (hx : ∀ x ∈ buf, I8 x) {ad : Nat → Nat → Nat → Nat}
    (e : LDPC.for3 I J' C.D a' (fun i j n a' => do
      let x ← rd buf (ad i j n)
      LDPC.wrLane a' (J' * i + j) n x) = some r') :
    Verif.Ok (LDPC.for3 I J' C.D a fun i j n a => do
      let x ← rd buf (ad i j n)
      C.wrLane a (J' * i + j) n x) (List.Forall₂ (Q C) · r') := by
  have step : Verif.Ok (LDPC.for3 I J' C.D a fun i j n a => do
      let x ← rd buf (ad i j n)
      C.wrLane a (J' * i + j) n x) (fun r => Lns C (J' * I) 0 r r' ∧ r.length = J' * I) := by
    unfold LDPC.for3 at e ⊢
    refine forUp_sim (fun i r r' => Lns C (J' * i) 0 r r' ∧ r.length = J' * I) (Nat.zero_le _) (fun i _ hi s s' r' h e => ?_) ⟨⟨hl, hr, fun c _ _ _ _ m _ h => by omega⟩, hlen⟩ e
    have := forUp_sim (fun j r r' => Lns C (J' * i + j) 0 r r' ∧ r.length = J' * I) (f := fun j s => forUp 0 C.D s fun n a => do
      let x ← rd buf (ad i j n)
      C.wrLane a (J' * i + j) n x) (Nat.zero_le _) (fun j _ hj s s' r' h e => ?_) h e
    · rw [Nat.mul_add, Nat.mul_one]; exact this
    · refine Ok.mono (forUp_sim (fun n r r' => Lns C (J' * i + j) n r r' ∧ r.length = J' * I) (Nat.zero_le _) (fun n _ hn s s' r' h e => ?_) h e) fun r hr => ?_
      · obtain ⟨x, e1, e⟩ := bind_some' e
        rw [e1, sb]
        obtain ⟨r, e2, h2⟩ := lns_wr H h.1 (hx x (List.mem_of_getElem? e1)) hn e
        refine ⟨r, e2, h2, ?_⟩
        unfold LdpcT.wrLane at e2
        obtain ⟨_, _, e2⟩ := bind_some' e2
        obtain ⟨_, _, e2⟩ := bind_some' e2
        rw [wr_len e2]; exact h.2
      · exact ⟨⟨hr.1.len, hr.1.regs, fun c v v' hv hv' m hm hc => hr.1.val c v v' hv hv' m hm (by omega)⟩, hr.2⟩
  refine Ok.mono step fun r hr => List.forall₂_iff_get.2 ⟨hr.1.len, fun i h1 h2 => ⟨hr.1.regs _ (List.getElem_mem h2), fun k hk => ?_⟩⟩
  exact hr.1.val i _ _ (List.getElem?_eq_getElem h1) (List.getElem?_eq_getElem h2) k hk (Or.inl (by rw [← hr.2]; exact h1))

/-- The arrays of the object have the right sizes. -/
structure StTOk (C : LdpcT R) (s : StT R) : Prop where
  bnl : s.bnl.length = C.cfg.BNL
  msg : s.msg.length = C.cfg.MSG
  pty : s.pty.length = C.cfg.PTY
  wd : s.wd.length = C.cfg.PTY

omit hJ in
theorem load_sim (hwf : C.cfg.WF) {s : StT R} {s' r' : St} (hs : StTOk C s) (hs' : LDPC.StOK (C.cfgJ J) s') (hw : s.wd = s'.wd) {message parity : List Int}
    (hm : ∀ x ∈ message, I8 x) (hp : ∀ x ∈ parity, I8 x)
    (e : LDPC.load (C.cfgJ J) s' message parity = some r') : Verif.Ok (C.load s message parity) (StRel C · r') := by
  unfold LDPC.load at e
  unfold LdpcT.load
  obtain ⟨b', e1, e⟩ := bind_some' e
  obtain ⟨m', e2, e⟩ := bind_some' e
  obtain ⟨p', e3, e⟩ := bind_some' e
  cases e
  have hb0 : Verif.Ok (forUp 0 C.cfg.BNL s.bnl fun i bnl => wr bnl i (C.T.O.vzero C.junk)) (First (Q C) C.cfg.BNL C.cfg.BNL · b') :=
    forUp_sim (fun i => First (Q C) C.cfg.BNL i) (Nat.zero_le _) (fun i _ hi s s' r' h e => first_wr h (q_zero H _) hi e)
      ⟨hs.bnl, hs'.hb, fun i h => absurd h (Nat.not_lt_zero _)⟩ e1
  refine Ok.bind hb0 fun b hb => ?_
  refine Ok.bind (lns_load H (hs.msg.trans hs'.hsh.hm.symm) hs'.hsh.hmr (hs.msg.trans hwf.msg_eq) hm e2) fun m hm' => ?_
  refine Ok.bind (lns_load H (hs.pty.trans hs'.hsh.hp.symm) hs'.hsh.hpr (hs.pty.trans hwf.pty_eq) hp e3) fun p hp' => ?_
  exact Ok.pure ⟨hb.all, hm', hp', hw⟩

omit hJ in
theorem unload_sim {s : StT R} {s' : St} (hs : StRel C s s') {message parity : List Int} {r' : List Int × List Int}
    (e : LDPC.unload (C.cfgJ J) s' message parity = some r') : C.unload s message parity = some r' := by
  unfold LDPC.unload at e
  unfold LdpcT.unload
  obtain ⟨m', e2, e⟩ := bind_some' e
  obtain ⟨p', e3, e⟩ := bind_some' e
  cases e
  have k1 : Verif.Ok (LDPC.for3 (C.tab.K / C.tab.M) C.cfg.W C.D message fun i j n message => do
      let x ← C.rdLane s.msg (C.cfg.W * i + j) n
      wr message (C.tab.M * i + C.cfg.W * n + j) x) (· = m') :=
    for3_sim (fun a b => a = b) (fun i j n _ _ hn s1 s1' r' h e => by
      subst h
      obtain ⟨x, e5, e⟩ := bind_some' e
      change LDPC.rdLane s'.msg (C.cfg.W * i + j) n = some x at e5
      refine ⟨r', ?_, rfl⟩
      rw [rdLane_sim H hs.msg hn e5, sb]; exact e) rfl e2
  have k2 : Verif.Ok (LDPC.for3 C.tab.q C.cfg.W C.D parity fun i j n parity => do
      let x ← C.rdLane s.pty (C.cfg.W * i + j) n
      wr parity (C.tab.q * (C.cfg.W * n + j) + i) x) (· = p') :=
    for3_sim (fun a b => a = b) (fun i j n _ _ hn s1 s1' r' h e => by
      subst h
      obtain ⟨x, e5, e⟩ := bind_some' e
      change LDPC.rdLane s'.pty (C.cfg.W * i + j) n = some x at e5
      refine ⟨r', ?_, rfl⟩
      rw [rdLane_sim H hs.pty hn e5, sb]; exact e) rfl e3
  rw [Ok.eq_some.1 k1, sb, Ok.eq_some.1 k2, sb]; rfl

theorem iter_sim {X : Dec} (hX : ∀ l ∈ X.loc, l.shi < C.D) : ∀ (f : Nat) {s : StT R} {s' : St} (_ : StRel C s s') {trials : Int} {r' : St × Int}
    (_ : LDPC.iter (C.cfgJ J) X f s' trials = some r'), Verif.Ok (C.iter X f s trials) fun r => StRel C r.1 r'.1 ∧ r.2 = r'.2 := by
  intro f
  induction f with
  | zero => intro s s' _ trials r' e; cases e
  | succ f ih =>
    intro s s' hs trials r' e
    unfold LDPC.iter at e
    unfold LdpcT.iter
    obtain ⟨b, e1, e⟩ := bind_some' e
    rw [bad_sim H hJ hX hs.msg hs.pty e1, sb]
    split at e
    · rename_i h1
      rw [if_pos h1]
      split at e
      · rename_i h2
        rw [if_pos h2]
        obtain ⟨t', e2, e⟩ := bind_some' e
        exact Ok.bind (update_sim H hJ hX hs e2) fun t ht => ih ht e
      · rename_i h2
        rw [if_neg h2]
        cases e
        exact ⟨_, rfl, hs, rfl⟩
    · rename_i h1
      rw [if_neg h1]
      cases e
      exact ⟨_, rfl, hs, rfl⟩

theorem decode_sim (hwf : C.cfg.WF) {X : Dec} (hX : ∀ l ∈ X.loc, l.shi < C.D) {s : StT R} {s' : St} (hs : StTOk C s) (hs' : LDPC.StOK (C.cfgJ J) s') (hw : s.wd = s'.wd) {message parity : List Int} (hm : ∀ x ∈ message, I8 x)
    (hp : ∀ x ∈ parity, I8 x) {trials : Int} {r' : LDPC.Res} (e : LDPC.decode (C.cfgJ J) X s' message parity trials = some r') :
    ∃ s1, C.decode X s message parity trials = some ⟨s1, r'.message, r'.parity, r'.trials⟩ ∧ StRel C s1 r'.s := by
  unfold LDPC.decode at e
  unfold LdpcT.decode
  obtain ⟨t', e1, e⟩ := bind_some' e
  obtain ⟨u', e2, e⟩ := bind_some' e
  obtain ⟨o', e3, e⟩ := bind_some' e
  cases e
  obtain ⟨t, e4, ht⟩ := load_sim H hwf hs hs' hw hm hp e1
  obtain ⟨u, e5, hu, ht2⟩ := iter_sim H hJ hX _ ht e2
  exact ⟨u.1, by rw [e4, sb, e5, sb, unload_sim H hu e3, sb, ht2]; rfl, hu⟩

end Verif.Targets
