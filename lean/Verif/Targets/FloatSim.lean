import Verif.Targets.FloatModel
import Verif.Targets.Par
import Verif.Polar.PropsFloatList
/- The float list decoders on the registers of a target compute what the models on lanes compute, as long as nothing is a NaN. -/
namespace Verif.Targets
open Verif.SIMD Verif.Polar
open Verif.RS (sb)
open FlList (FReg LXF PXF)

/-- The arithmetic of the target is that of IEEE 754, apart from the signs of zeros and which NaN it is. -/
structure IsIeee {w : Nat} (X : Format w) (A : Fpu w) : Prop where
  add : ∀ a b, X.val (A.add a b) = Fl.add X.R (X.val a) (X.val b)
  mul : ∀ a b, X.val (A.mul a b) = Fl.mul X.R (X.val a) (X.val b)

/-! ### The decoder on lanes that gives up on NaNs -/

section strict
variable {L : Nat}

/-- `prod`, but a NaN for a NaN -/
def prodS (F : Rounding) (a b : FReg L) : FReg L := fun k => if a k = .nan ∨ b k = .nan then .nan else (phFV F L).prod a b k

def phS (F : Rounding) (L : Nat) : PH (FReg L) := { phFV F L with prod := prodS F }

def NoNan (s : List (FReg L)) : Prop := ∀ a ∈ s, ∀ k, a k ≠ .nan

/-- Symbols and maps of lanes -/
def GoodRes {X : Type} (r : X × List (FReg L) × LMap L) : Prop := (∀ h ∈ r.2.1, ∀ k, ∃ b, Sym b ∧ h k = flSym b) ∧ ∀ k, r.2.2 k < L

open Classical in
noncomputable def strictN {X : Type} (N : Nodes (FReg L) (LMap L) X) : Nodes (FReg L) (LMap L) X where
  r0 M x s := if NoNan s then (N.r0 M x s).bind (fun r => if GoodRes r then some r else none) else none
  r1 M x s := if NoNan s then (N.r1 M x s).bind (fun r => if GoodRes r then some r else none) else none

def strictW {X : Type} (F : Rounding) (W : Walk (FReg L) (LMap L) X) : Walk (FReg L) (LMap L) X := { W with prod := prodS F }

theorem strict_some {X : Type} {c : Prop} [Decidable c] {o : Option (X × List (FReg L) × LMap L)} {r} [Decidable (GoodRes (L := L) (X := X) r)]
    [∀ r : X × List (FReg L) × LMap L, Decidable (GoodRes r)]
    (h : (if c then o.bind (fun r => if GoodRes r then some r else none) else none) = some r) : c ∧ o = some r ∧ GoodRes r := by
  split at h
  · obtain ⟨t, h1, h2⟩ := Option.bind_eq_some_iff.1 h
    split at h2
    · cases h2; exact ⟨by assumption, h1, by assumption⟩
    · cases h2
  · cases h

variable {V P X : Type} [LinearOrder P] {A : Arith V} {M : Nat}

/-- Giving up on NaNs makes no difference where everything is finite. -/
theorem strict_sim {F : Rounding} {R : Nat → ℚ → Prop} {A : Arith ℚ} {fr : Nat → Prop} {pay : P → ℚ → P} {cost : List Int → P → ℚ → Int → P}
    {Rel : Nat → X → List (List Int × P) → Prop} {W : Walk (FReg L) (LMap L) X} {N : Nodes (FReg L) (LMap L) X}
    (C : Verif.Polar.Sim (phFV F L) A M R (fun a v => a = .fin v) (fun a x => a = flSym x) fr pay cost Rel (.fin 0) W N) :
    Verif.Polar.Sim (phS F L) A M R (fun a v => a = .fin v) (fun a x => a = flSym x) fr pay cost Rel (.fin 0) (strictW F W) (strictN N) where
  prod := rfl
  madd := C.madd
  qmul := C.qmul
  vshuf := C.vshuf
  comp := C.comp
  sc1 := C.sc1
  lane k := by
    have l := C.lane k
    refine ⟨l.one, l.qmul, l.signum, fun t a b v w ht hv hw ha hb => ?_, l.madd⟩
    show prodS F a b k = _
    unfold prodS
    rw [if_neg (by rw [ha, hb]; simp)]
    exact l.prod t a b v w ht hv hw ha hb
  r0 := by
    classical
    intro d p x ps s sf hd hp hfr hs hr hps hv
    obtain ⟨x', e, r⟩ := C.r0 d p x ps s sf hd hp hfr hs hr hps hv
    refine ⟨x', ?_, r⟩
    show (if NoNan s then (N.r0 d x s).bind _ else none) = _
    rw [if_pos, e, Option.bind_some, if_pos]
    · rfl
    · refine ⟨fun h hh k => ⟨1, Or.inl rfl, ?_⟩, fun k => k.isLt⟩
      rw [List.eq_of_mem_replicate hh]
      simp [phFV, flSym]
    · intro a ha k
      obtain ⟨i, hi, rfl⟩ := List.mem_iff_getElem.1 ha
      have := (hv k i (by omega)).1
      rw [← getElem_eq_getD hi] at this
      rw [this]; simp
  r1 := by
    classical
    intro p x ps v sf hp hfr hr hps hv
    obtain ⟨x', h, m, e, r, hk⟩ := C.r1 p x ps v sf hp hfr hr hps hv
    refine ⟨x', h, m, ?_, r, hk⟩
    show (if NoNan [v] then (N.r1 0 x [v]).bind _ else none) = _
    rw [if_pos, e, Option.bind_some, if_pos]
    · refine ⟨fun h' hh k => ?_, fun k => (hk k).1⟩
      obtain rfl := List.mem_singleton.1 hh
      obtain ⟨-, b, hb, e, -⟩ := hk k
      exact ⟨b, hb, e⟩
    · intro a ha k
      obtain rfl := List.mem_singleton.1 ha
      rw [(hv k).1]; simp

end strict

/-! ### The operations of a target -/

variable {w : Nat} {R : Type} {T : FTarget w R} {A : Fpu w}

/-- The register holds these values where they are not NaNs. -/
def SoftF (T : FTarget w R) (a : R) (a' : FReg T.n) : Prop := ∀ k, a' k ≠ .nan → T.reg a k = a' k
/-- A register of hard decisions. -/
def HardF (T : FTarget w R) (a : R) (a' : FReg T.n) : Prop := T.reg a = a' ∧ ∀ k, ∃ b, Sym b ∧ a' k = flSym b
/-- A register that holds a map of lanes. -/
def MapF (T : FTarget w R) (a : R) (a' : LMap T.n) : Prop := T.map a = a' ∧ ∀ k, a' k < T.n

theorem HardF.sym {a : R} {a' : FReg T.n} (h : HardF T a a') (k : Fin T.n) : ∃ b, Sym b ∧ T.reg a k = flSym b := by rw [h.1]; exact h.2 k
theorem MapF.lt {a : R} {a' : LMap T.n} (h : MapF T a a') : ∀ k, T.map a k < T.n := by rw [h.1]; exact h.2

theorem regF_mul (h : T.Ok A) (ie : IsIeee T.X A) (a b : R) (k : Fin T.n) : T.reg (T.vmul a b) k = Fl.mul T.X.R (T.reg a k) (T.reg b k) := by
  show T.X.val (T.v (T.vmul a b) k) = _
  rw [h.vmul a b k k.isLt, ie.mul]; rfl

theorem regF_add (h : T.Ok A) (ie : IsIeee T.X A) (a b : R) (k : Fin T.n) : T.reg (T.vadd a b) k = Fl.add T.X.R (T.reg a k) (T.reg b k) := by
  show T.X.val (T.v (T.vadd a b) k) = _
  rw [h.vadd a b k k.isLt, ie.add]; rfl

theorem regF_signum (h : T.Ok A) (hX : T.X.Ok) (a : R) (k : Fin T.n) (hk : T.reg a k ≠ .nan) : T.reg (T.vsignum a) k = Fl.signum (T.reg a k) := by
  show T.X.val (T.v (T.vsignum a) k) = _
  rw [h.vsignum a k k.isLt (fun hn => hk (Format.val_nan.2 hn)), Format.val_signum hX]; rfl

theorem regF_abs (h : T.Ok A) (a : R) (k : Fin T.n) : T.reg (T.vabs a) k = Fl.abs (T.reg a k) := by
  show T.X.val (T.v (T.vabs a) k) = _
  rw [h.vabs a k k.isLt, Format.val_abs]; rfl

theorem regF_min (h : T.Ok A) (hX : T.X.Ok) (a b : R) (k : Fin T.n) (ha : T.reg a k ≠ .nan) (hb : T.reg b k ≠ .nan) : T.reg (T.vmin a b) k = Fl.min (T.reg a k) (T.reg b k) := by
  show T.X.val (T.v (T.vmin a b) k) = _
  rw [Format.val_same hX (h.vmin a b k k.isLt (fun hn => ha (Format.val_nan.2 hn)) (fun hn => hb (Format.val_nan.2 hn))), Format.val_min hX]; rfl

theorem abs_ne_nan {a : Fl} (h : a ≠ .nan) : Fl.abs a ≠ .nan := by cases a <;> simp_all [Fl.abs]

theorem regF_prod (h : T.Ok A) (ie : IsIeee T.X A) (hX : T.X.Ok) (a b : R) (k : Fin T.n) (ha : T.reg a k ≠ .nan) (hb : T.reg b k ≠ .nan) :
    T.reg (T.ph.prod a b) k = (phFV T.X.R T.n).prod (T.reg a) (T.reg b) k := by
  show T.reg (T.vmul (T.vmul (T.vsignum a) (T.vsignum b)) (T.vmin (T.vabs a) (T.vabs b))) k = _
  rw [regF_mul h ie, regF_mul h ie, regF_signum h hX a k ha, regF_signum h hX b k hb,
    regF_min h hX _ _ k (by rw [regF_abs h]; exact abs_ne_nan ha) (by rw [regF_abs h]; exact abs_ne_nan hb), regF_abs h, regF_abs h]
  rfl

theorem regF_one (h : T.Ok A) (hX : T.X.Ok) : T.reg T.ph.one = (phFV T.X.R T.n).one := by
  funext k
  show T.X.val (T.v (T.vdup T.X.F.one) k) = _
  rw [h.vdup _ k k.isLt, Format.val_one hX]; rfl

theorem regF_dup (h : T.Ok A) (x : BitVec w) : T.reg (T.vdup x) = fun _ => T.X.val x := by
  funext k
  show T.X.val (T.v (T.vdup x) k) = _
  rw [h.vdup _ k k.isLt]

theorem regF_shuf (h : T.Ok A) (a m : R) (hm : ∀ k, T.map m k < T.n) : T.reg (T.vshuf a m) = shuf (.fin 0) (T.reg a) (T.map m) := by
  funext k
  show T.X.val (T.v (T.vshuf a m) k) = _
  rw [h.vshuf a m k k.isLt (hm k), P.vshuf, if_pos (show (T.v m k).toNat < T.n from hm k), shuf_of (hm k)]; rfl

theorem mapF_shuf (h : T.Ok A) (a m : R) (hm : ∀ k, T.map m k < T.n) : T.map (T.vshufU a m) = shuf 0 (T.map a) (T.map m) := by
  funext k
  show (T.v (T.vshufU a m) k).toNat = _
  rw [h.vshufU a m k k.isLt (hm k), P.vshuf, if_pos (show (T.v m k).toNat < T.n from hm k), shuf_of (hm k)]; rfl

theorem v_setV (h : T.Ok A) (f : Fin T.n → BitVec w) (k : Fin T.n) : T.v (T.setV f) k = f k := by
  unfold FTarget.setV
  rw [h.wrt _ _ k.isLt, dif_pos k.isLt]

theorem regF_setV (h : T.Ok A) (f : Fin T.n → BitVec w) : T.reg (T.setV f) = fun k => T.X.val (f k) := by
  funext k; show T.X.val (T.v (T.setV f) k) = _; rw [v_setV h]
theorem mapF_setV (h : T.Ok A) (f : Fin T.n → BitVec w) : T.map (T.setV f) = fun k => (f k).toNat := by
  funext k; show (T.v (T.setV f) k).toNat = _; rw [v_setV h]

/-! ### The relations -/

theorem mul_ne_nan {F : Rounding} {a b : Fl} (h : Fl.mul F a b ≠ .nan) : a ≠ .nan ∧ b ≠ .nan := by
  constructor <;> rintro rfl <;> apply h
  · rfl
  · cases a <;> rfl

theorem add_ne_nan {F : Rounding} {a b : Fl} (h : Fl.add F a b ≠ .nan) : a ≠ .nan ∧ b ≠ .nan := by
  constructor <;> rintro rfl <;> apply h
  · rfl
  · cases a <;> rfl

theorem softF_prod (h : T.Ok A) (ie : IsIeee T.X A) (hX : T.X.Ok) {a b : R} {a' b' : FReg T.n} (ha : SoftF T a a') (hb : SoftF T b b') :
    SoftF T (T.ph.prod a b) (prodS T.X.R a' b') := by
  intro k hk
  unfold prodS at hk ⊢
  split at hk
  · exact absurd rfl hk
  · rename_i hn
    push Not at hn
    rw [if_neg (by tauto), regF_prod h ie hX a b k (by rw [ha k hn.1]; exact hn.1) (by rw [hb k hn.2]; exact hn.2)]
    show Fl.mul _ (Fl.mul _ (Fl.signum (T.reg a k)) (Fl.signum (T.reg b k))) (Fl.min (Fl.abs (T.reg a k)) (Fl.abs (T.reg b k))) = _
    rw [ha k hn.1, hb k hn.2]
    rfl

theorem softF_madd (h : T.Ok A) (ie : IsIeee T.X A) {g a b : R} {g' a' b' : FReg T.n} (hg : HardF T g g') (ha : SoftF T a a') (hb : SoftF T b b') :
    SoftF T (T.ph.madd g a b) ((phFV T.X.R T.n).madd g' a' b') := by
  intro k hk
  obtain ⟨h1, h2⟩ := add_ne_nan hk
  obtain ⟨-, h3⟩ := mul_ne_nan h1
  show T.reg (T.vadd (T.vmul g a) b) k = _
  rw [regF_add h ie, regF_mul h ie, hg.1, ha k h3, hb k h2]
  rfl

theorem hardF_qmul (h : T.Ok A) (ie : IsIeee T.X A) {a b : R} {a' b' : FReg T.n} (ha : HardF T a a') (hb : HardF T b b') :
    HardF T (T.ph.qmul a b) ((phFV T.X.R T.n).qmul a' b') := by
  refine ⟨?_, fun k => ?_⟩
  · funext k
    show T.reg (T.vmul a b) k = _
    rw [regF_mul h ie, ha.1, hb.1]; rfl
  · obtain ⟨x, hx, ex⟩ := ha.2 k
    obtain ⟨y, hy, ey⟩ := hb.2 k
    refine ⟨x * y, hx.mul hy, ?_⟩
    show Fl.mul _ (a' k) (b' k) = _
    rw [ex, ey]; exact Fl.mul_sym hx hy

theorem softF_shuf (h : T.Ok A) {a m : R} {a' : FReg T.n} {m' : LMap T.n} (ha : SoftF T a a') (hm : MapF T m m') : SoftF T (T.vshuf a m) (shuf (.fin 0) a' m') := by
  intro k hk
  rw [regF_shuf h _ _ hm.lt, hm.1, shuf_of (hm.2 k), shuf_of (hm.2 k)]
  rw [shuf_of (hm.2 k)] at hk
  exact ha _ hk

theorem hardF_shuf (h : T.Ok A) {a m : R} {a' : FReg T.n} {m' : LMap T.n} (ha : HardF T a a') (hm : MapF T m m') : HardF T (T.vshuf a m) (shuf (.fin 0) a' m') := by
  refine ⟨by rw [regF_shuf h _ _ hm.lt, ha.1, hm.1], fun k => ?_⟩
  rw [shuf_of (hm.2 k)]; exact ha.2 _

theorem mapF_comp (h : T.Ok A) {a m : R} {a' m' : LMap T.n} (ha : MapF T a a') (hm : MapF T m m') : MapF T (T.vshufU a m) (shuf 0 a' m') := by
  refine ⟨by rw [mapF_shuf h _ _ hm.lt, ha.1, hm.1], fun k => ?_⟩
  rw [shuf_of (hm.2 k)]; exact ha.2 _

theorem softF_nonan {s : List R} {s' : List (FReg T.n)} (hs : List.Forall₂ (SoftF T) s s') (hn : NoNan s') : s.map T.reg = s' := by
  induction hs with
  | nil => rfl
  | cons h _ ih =>
    rw [List.map_cons, ih fun a ha => hn a (List.mem_cons_of_mem _ ha)]
    congr 1
    funext k
    exact h k (hn _ List.mem_cons_self k)

/-- The best continuations, on the registers of the target. -/
theorem pruneF_rel (h : T.Ok A) (hX : T.X.Ok) {f m : List Fl} {r : List Fl × LMap T.n × FReg T.n} (e : FlList.prune T.X.R (2 ^ w) f m = some r) :
    ∃ r', T.prune f m = some r' ∧ r'.1 = r.1 ∧ T.map r'.2.1 = r.2.1 ∧ T.reg r'.2.2 = r.2.2 := by
  unfold FlList.prune at e
  unfold FTarget.prune
  obtain ⟨s, hs, e⟩ := bind_some e
  obtain ⟨m', hm', e⟩ := bind_some e
  obtain ⟨map, hmap, e⟩ := bind_some e
  obtain ⟨hrd, hhrd, e⟩ := bind_some e
  cases e
  have hp : ∀ k : Fin T.n, ∃ p, rd s.1 k = some p := by
    intro k
    unfold tab at hmap
    split at hmap
    · rename_i hall
      obtain ⟨q, hq⟩ := Option.isSome_iff_exists.1 (hall k)
      obtain ⟨p, hp, -⟩ := bind_some hq
      exact ⟨p, hp⟩
    · cases hmap
  choose p hp using hp
  have e1 : tab (fun k : Fin T.n => do let q ← rd s.1 k; return (q >>> 1) % 2 ^ w) = some fun k => (p k >>> 1) % 2 ^ w := tab_of fun k => by rw [hp k]; rfl
  have e2 : tab (fun k : Fin T.n => do let q ← rd s.1 k; return FlList.ofInt T.X.R (1 - 2 * ((q &&& 1 : Nat) : Int))) = some fun k => FlList.ofInt T.X.R (1 - 2 * ((p k &&& 1 : Nat) : Int)) :=
    tab_of fun k => by rw [hp k]; rfl
  have e3 : tab (fun k : Fin T.n => do let q ← rd s.1 k; return BitVec.ofNat w (q >>> 1)) = some fun k => BitVec.ofNat w (p k >>> 1) := tab_of fun k => by rw [hp k]; rfl
  have e4 : tab (fun k : Fin T.n => do let q ← rd s.1 k; return T.X.F.ofSgn (1 - 2 * ((q &&& 1 : Nat) : Int))) = some fun k => T.X.F.ofSgn (1 - 2 * ((p k &&& 1 : Nat) : Int)) :=
    tab_of fun k => by rw [hp k]; rfl
  rw [e1] at hmap
  rw [e2] at hhrd
  cases hmap
  cases hhrd
  rw [hs, sb, hm', sb, e3, sb, e4, sb]
  refine ⟨_, rfl, rfl, ?_, ?_⟩
  · rw [mapF_setV h]
    funext k
    exact BitVec.toNat_ofNat _ _
  · rw [regF_setV h]
    funext k
    have hsym : Sym (1 - 2 * ((p k &&& 1 : Nat) : Int)) := by
      rw [Nat.and_one_is_mod]
      rcases Nat.mod_two_eq_zero_or_one (p k) with e | e <;> rw [e]
      · exact Or.inl rfl
      · exact Or.inr rfl
    rw [Format.val_sgn hX hsym]
    symm
    have h1 := T.X.R.one_lt
    dsimp only
    rcases hsym with e | e <;> rw [e]
    · exact ofInt_int (i := 1) (by exact_mod_cast T.X.R.one) (by simpa using h1)
    · exact ofInt_int (i := -1) (by have := T.X.R.neg _ T.X.R.one; exact_mod_cast this) (by simpa using h1)

/-! ### The list decoder -/

/-- The node functions on lists. -/
def listNFT (T : FTarget w R) : Nodes R R (LXFT R) where
  r0 M x s := do
    let m ← chargeAllF T.X.R (2 ^ M) (s.map T.reg) x.metric
    return ({ x with metric := m }, List.replicate (2 ^ M) T.ph.one, T.setU (FlList.idMap (2 ^ w) T.n))
  r1 M x s := match M, s with
    | 0, [v] => do
      let r ← T.listFork x v
      return (r.1, [r.2.1], r.2.2)
    | _, _ => none

theorem chargeLoopFT_eq {M : Nat} {soft s : List R} {m : List Fl} (d : R) (hs : s.length = 2 ^ M) (hH : Has d soft (2 ^ M) s) :
    (forUp 0 (2 ^ M) m fun i m => do
      let v ← rd soft (i + 2 ^ M)
      FlList.charge T.X.R (T.reg v) m) = chargeAllF T.X.R (2 ^ M) (s.map T.reg) m := by
  obtain ⟨h1, h2⟩ := hH
  refine forUp_congr fun j t _ hj => ?_
  rw [rd_of_lt (by omega), rd_of_lt (by rw [List.length_map]; omega), sb, sb, List.getElem_map, getElem_eq_getD _ d, getElem_eq_getD _ d, add_comm, h2 j (by omega)]

theorem listAgreeFT (d : R) : Agree d T.listWalk (listNFT T) where
  len0 := by
    intro M x s r hs h
    obtain ⟨m, _, h⟩ := bind_some h
    cases h; simp
  len1 := by
    intro M x s r hs h
    simp only [listNFT] at h
    split at h
    · obtain ⟨m, _, h⟩ := bind_some h
      cases h; rfl
    · cases h
  eff0 := by
    intro M off m s r hM hs hH hh h
    obtain ⟨mm, hmm, h⟩ := bind_some h
    cases h
    show Ok (T.listRate0 M off m) _
    unfold FTarget.listRate0
    refine Ok.bind' (fill_upd (d := d) (l := List.replicate (2 ^ M) T.ph.one) (by simp) hh fun i a' hi _ => ?_) fun a' ha => ?_
    · rw [getD_replicate' _ _ _ hi]
    · rw [chargeLoopFT_eq d hs hH, hmm, sb]
      exact Ok.some ⟨rfl, rfl, ha, rfl, fun i _ => rfl⟩
  eff1 := by
    intro M off m s r hM _ hs hH hh h
    cases M with
    | succ M => cases h
    | zero =>
    obtain ⟨v, rfl⟩ : ∃ v, s = [v] := List.length_eq_one_iff.1 hs
    obtain ⟨q, hq, h⟩ := bind_some h
    cases h
    obtain ⟨h1, h2⟩ := hH
    have hv : m.soft.getD 1 d = v := h2 0 (by simp)
    show Ok (T.listRate1 0 off m) _
    unfold FTarget.listRate1
    simp only [List.length_singleton, pow_zero] at h1
    rw [rd_of_lt (by omega), sb, getElem_eq_getD _ d, hv, hq, sb, wr_of_lt (by simpa using hh), sb]
    refine Ok.some ⟨rfl, rfl, ⟨by simp, fun i => ?_⟩, rfl, fun i _ => rfl⟩
    dsimp only
    rw [getD_set]
    have hh' : off < m.hard.length := by simpa using hh
    by_cases hi : off = i
    · subst hi; rw [if_pos ⟨rfl, hh'⟩, if_pos (by simp)]; simp
    · rw [if_neg (by tauto), if_neg (by simp; omega)]

def listRelsF (T : FTarget w R) : Rels R R (LXFT R) (FReg T.n) (LMap T.n) (LXF T.n) where
  S := SoftF T
  H := HardF T
  M := MapF T
  X x x' := x.metric = x'.metric ∧ x.message.map T.reg = x'.message ∧ x.maps.map T.map = x'.maps ∧ x.count = x'.count

theorem idMapF_rel (h : T.Ok A) : T.map (T.setU (FlList.idMap (2 ^ w) T.n)) = FlList.idMap (2 ^ w) T.n := by
  unfold FTarget.setU
  rw [mapF_setV h]
  funext k
  rw [BitVec.toNat_ofNat]
  unfold FlList.idMap
  rw [Nat.mod_mod]

theorem onesF_rel (h : T.Ok A) (hX : T.X.Ok) (n : Nat) : List.Forall₂ (HardF T) (List.replicate n T.ph.one) (List.replicate n (phFV T.X.R T.n).one) := by
  induction n with
  | zero => exact .nil
  | succ n ih => exact .cons ⟨regF_one h hX, fun k => ⟨1, Or.inl rfl, by simp [phFV, flSym]⟩⟩ ih

theorem listSimFT (h : T.Ok A) (ie : IsIeee T.X A) (hX : T.X.Ok) :
    Sim (listRelsF T) T.listWalk (listNFT T) (strictW T.X.R (FlList.listWalk T.X.R (2 ^ w) T.n)) (strictN (listNF T.X.R (2 ^ w) T.n)) where
  prod := fun _ _ _ _ ha hb => softF_prod h ie hX ha hb
  madd := fun _ _ _ _ _ _ hg ha hb => softF_madd h ie hg ha hb
  qmul := fun _ _ _ _ ha hb => hardF_qmul h ie ha hb
  shufS := fun _ _ _ _ ha hm => softF_shuf h ha hm
  shufH := fun _ _ _ _ ha hm => hardF_shuf h ha hm
  comp := fun _ _ _ _ ha hm => mapF_comp h ha hm
  sc1 := rfl
  r0 := by
    classical
    rintro M x x' s s' r' ⟨x1, x2, x3, x4⟩ hs hr
    obtain ⟨hn, hr, hg⟩ := strict_some hr
    obtain ⟨m, hm, hr⟩ := bind_some hr
    cases hr
    show Ok (do
      let m ← chargeAllF T.X.R (2 ^ M) (s.map T.reg) x.metric
      return ({ x with metric := m }, List.replicate (2 ^ M) T.ph.one, T.setU (FlList.idMap (2 ^ w) T.n))) _
    rw [softF_nonan hs hn, x1, hm, sb]
    exact Ok.some ⟨⟨rfl, x2, x3, x4⟩, onesF_rel h hX _, idMapF_rel h, hg.2⟩
  r1 := by
    classical
    rintro M x x' s s' r' ⟨x1, x2, x3, x4⟩ hs hr
    obtain ⟨hn, hr, hg⟩ := strict_some hr
    simp only [listNF] at hr
    split at hr
    · rename_i v' _
      obtain ⟨v, rfl⟩ : ∃ v, s = [v] := List.length_eq_one_iff.1 (by rw [hs.length_eq]; rfl)
      have hv : T.reg v = v' := by have := softF_nonan hs hn; simpa using this
      obtain ⟨t', ht, hr⟩ := bind_some hr
      cases hr
      unfold FlList.listFork at ht
      obtain ⟨f, hf, ht⟩ := bind_some ht
      obtain ⟨p, hp, ht⟩ := bind_some ht
      obtain ⟨ms, hms, ht⟩ := bind_some ht
      obtain ⟨mp, hmp, ht⟩ := bind_some ht
      cases ht
      obtain ⟨q, hq, q1, q2, q3⟩ := pruneF_rel h hX hp
      obtain ⟨l1, rfl⟩ := wr_some hms
      obtain ⟨l2, rfl⟩ := wr_some hmp
      have g1 : x.count < x.message.length := by rw [x4]; rw [← x2, List.length_map] at l1; exact l1
      have g2 : x.count < x.maps.length := by rw [x4]; rw [← x3, List.length_map] at l2; exact l2
      show Ok (do
        let r ← T.listFork x v
        return (r.1, [r.2.1], r.2.2)) _
      unfold FTarget.listFork
      rw [hv, x1, hf, sb, hq, sb, wr_of_lt g1, sb, wr_of_lt g2, sb]
      refine Ok.some ⟨⟨q1, ?_, ?_, by dsimp only; rw [x4]⟩, .cons ⟨q3, hg.1 _ (by simp)⟩ .nil, q2, hg.2⟩
      · dsimp only; rw [List.map_set, q3, x2, x4]
      · dsimp only; rw [List.map_set, q2, x3, x4]
    · cases hr

/-! ### The parity-aided decoder -/

/-- The node functions on lists. -/
def parNFT (T : FTarget w R) (stride : Nat) : Nodes R R (PXFT R) where
  r0 M x s := do
    let m ← chargeAllF T.X.R (2 ^ M) (s.map T.reg) x.metric
    return ({ x with metric := m }, List.replicate (2 ^ M) T.ph.one, T.setU (FlList.idMap (2 ^ w) T.n))
  r1 M x s := match M, s with
    | 0, [v] => do
      let r ← T.parFork stride x v
      return (r.1, [r.2.1], r.2.2)
    | _, _ => none

theorem parAgreeFT (stride : Nat) (d : R) : Agree d (T.parWalk stride) (parNFT T stride) where
  len0 := by
    intro M x s r hs h
    obtain ⟨m, _, h⟩ := bind_some h
    cases h; simp
  len1 := by
    intro M x s r hs h
    simp only [parNFT] at h
    split at h
    · obtain ⟨m, _, h⟩ := bind_some h
      cases h; rfl
    · cases h
  eff0 := by
    intro M off m s r hM hs hH hh h
    obtain ⟨mm, hmm, h⟩ := bind_some h
    cases h
    show Ok (T.parRate0 M off m) _
    unfold FTarget.parRate0
    refine Ok.bind' (fill_upd (d := d) (l := List.replicate (2 ^ M) T.ph.one) (by simp) hh fun i a' hi _ => ?_) fun a' ha => ?_
    · rw [getD_replicate' _ _ _ hi]
    · rw [chargeLoopFT_eq d hs hH, hmm, sb]
      exact Ok.some ⟨rfl, rfl, ha, rfl, fun i _ => rfl⟩
  eff1 := by
    intro M off m s r hM _ hs hH hh h
    cases M with
    | succ M => cases h
    | zero =>
    obtain ⟨v, rfl⟩ : ∃ v, s = [v] := List.length_eq_one_iff.1 hs
    obtain ⟨q, hq, h⟩ := bind_some h
    cases h
    obtain ⟨h1, h2⟩ := hH
    have hv : m.soft.getD 1 d = v := h2 0 (by simp)
    show Ok (T.parRate1 stride 0 off m) _
    unfold FTarget.parRate1
    simp only [List.length_singleton, pow_zero] at h1
    rw [rd_of_lt (by omega), sb, getElem_eq_getD _ d, hv, hq, sb, wr_of_lt (by simpa using hh), sb]
    refine Ok.some ⟨rfl, rfl, ⟨by simp, fun i => ?_⟩, rfl, fun i _ => rfl⟩
    dsimp only
    rw [getD_set]
    have hh' : off < m.hard.length := by simpa using hh
    by_cases hi : off = i
    · subst hi; rw [if_pos ⟨rfl, hh'⟩, if_pos (by simp)]; simp
    · rw [if_neg (by tauto), if_neg (by simp; omega)]

def parRelsF (T : FTarget w R) : Rels R R (PXFT R) (FReg T.n) (LMap T.n) (PXF T.n) where
  S := SoftF T
  H := HardF T
  M := MapF T
  X x x' := x.metric = x'.metric ∧ x.message.map T.reg = x'.message ∧ x.maps.map T.map = x'.maps ∧ x.index = x'.index ∧ HardF T x.parity x'.parity ∧
    x.count = x'.count

theorem parForkFT_sim (h : T.Ok A) (ie : IsIeee T.X A) (hX : T.X.Ok) {stride : Nat} {x : PXFT R} {x' : PXF T.n} (hx : (parRelsF T).X x x') {v : R} {r' : PXF T.n × FReg T.n × LMap T.n}
    (hr : FlList.parFork T.X.R (2 ^ w) stride x' (T.reg v) = some r') (hg1 : ∀ k, ∃ b, Sym b ∧ r'.2.1 k = flSym b) (hg2 : ∀ k, r'.2.2 k < T.n) :
    Verif.Ok (T.parFork stride x v) fun r => (parRelsF T).X r.1 r'.1 ∧ HardF T r.2.1 r'.2.1 ∧ MapF T r.2.2 r'.2.2 := by
  obtain ⟨x1, x2, x3, x4, xp, xc⟩ := hx
  unfold FlList.parFork at hr
  unfold FTarget.parFork
  obtain ⟨f, hf, hr⟩ := bind_some hr
  obtain ⟨f2, hf2, hr⟩ := bind_some hr
  obtain ⟨p, hp, hr⟩ := bind_some hr
  obtain ⟨q, hq, q1, q2, q3⟩ := pruneF_rel h hX hp
  rw [x1, xc, xp.1, hf, sb, hf2, sb]
  dsimp only at hr ⊢
  rw [hq, sb]
  by_cases hc : x'.count = 0
  · have hc' : ¬ x'.count ≠ 0 := by omega
    rw [if_neg hc'] at hr ⊢
    obtain ⟨m, e1, hr⟩ := bind_some hr
    obtain ⟨ms, e2, hr⟩ := bind_some hr
    obtain ⟨u, e3, hr⟩ := bind_some hr
    obtain ⟨mp, e4, hr⟩ := bind_some hr
    cases hr
    have hh : HardF T q.2.2 p.2.2 := ⟨q3, hg1⟩
    have hm : MapF T q.2.1 p.2.1 := ⟨q2, hg2⟩
    obtain ⟨i0, i1, rfl⟩ := rdZ_some e1
    obtain ⟨-, i2, rfl⟩ := rdZ_some e3
    obtain rfl := wrZ_some e2
    obtain rfl := wrZ_some e4
    have g1 : ((x'.index : Int) - 1).toNat < x.message.length := by rw [← x2, List.length_map] at i1; exact i1
    have g2 : ((x'.index : Int) - 1).toNat < x.maps.length := by rw [← x3, List.length_map] at i2; exact i2
    rw [x4, rdZ_of i0 g1, sb, wrZ_of i0 g1, sb, rdZ_of i0 g2, sb, wrZ_of i0 g2, sb]
    have hq1 : T.map x.maps[((x'.index : Int) - 1).toNat] = x'.maps[((x'.index : Int) - 1).toNat] := by
      have : (x.maps.map T.map)[((x'.index : Int) - 1).toNat]'(by rw [List.length_map]; exact g2) = x'.maps[((x'.index : Int) - 1).toNat] := by simp only [x3]
      rwa [List.getElem_map] at this
    have hq2 : T.reg x.message[((x'.index : Int) - 1).toNat] = x'.message[((x'.index : Int) - 1).toNat] := by
      have : (x.message.map T.reg)[((x'.index : Int) - 1).toNat]'(by rw [List.length_map]; exact g1) = x'.message[((x'.index : Int) - 1).toNat] := by simp only [x2]
      rwa [List.getElem_map] at this
    refine Ok.some ⟨⟨q1, ?_, ?_, by simp only [x4], ?_, rfl⟩, hh, hm⟩
    · dsimp only
      rw [List.map_set, x2, regF_shuf h _ _ hm.lt, hm.1, hq2]
    · dsimp only
      rw [List.map_set, x3, mapF_shuf h _ _ hm.lt, hm.1, hq1]
    · dsimp only
      rw [if_pos hc, if_pos hc]
      exact ⟨regF_one h hX, fun k => ⟨1, Or.inl rfl, by simp [phFV, flSym]⟩⟩
  · rw [if_pos hc] at hr ⊢
    obtain ⟨ms, e1, hr⟩ := bind_some hr
    obtain ⟨mp, e2, hr⟩ := bind_some hr
    cases hr
    have hh : HardF T q.2.2 p.2.2 := ⟨q3, hg1⟩
    have hm : MapF T q.2.1 p.2.1 := ⟨q2, hg2⟩
    obtain ⟨l1, rfl⟩ := wr_some e1
    obtain ⟨l2, rfl⟩ := wr_some e2
    have g1 : x.index < x.message.length := by rw [x4]; rw [← x2, List.length_map] at l1; exact l1
    have g2 : x.index < x.maps.length := by rw [x4]; rw [← x3, List.length_map] at l2; exact l2
    rw [wr_of_lt g1, sb, wr_of_lt g2, sb]
    refine Ok.some ⟨⟨q1, ?_, ?_, by simp only [x4], ?_, by simp only⟩, hh, hm⟩
    · dsimp only; rw [List.map_set, hh.1, x2, x4]
    · dsimp only; rw [List.map_set, hm.1, x3, x4]
    · dsimp only
      rw [if_neg hc, if_neg hc]
      exact hardF_qmul h ie (hardF_shuf h xp hm) hh

theorem parSimFT (h : T.Ok A) (ie : IsIeee T.X A) (hX : T.X.Ok) (stride : Nat) :
    Sim (parRelsF T) (T.parWalk stride) (parNFT T stride) (strictW T.X.R (FlList.parWalk T.X.R (2 ^ w) T.n stride)) (strictN (parNF T.X.R (2 ^ w) T.n stride)) where
  prod := fun _ _ _ _ ha hb => softF_prod h ie hX ha hb
  madd := fun _ _ _ _ _ _ hg ha hb => softF_madd h ie hg ha hb
  qmul := fun _ _ _ _ ha hb => hardF_qmul h ie ha hb
  shufS := fun _ _ _ _ ha hm => softF_shuf h ha hm
  shufH := fun _ _ _ _ ha hm => hardF_shuf h ha hm
  comp := fun _ _ _ _ ha hm => mapF_comp h ha hm
  sc1 := rfl
  r0 := by
    classical
    rintro M x x' s s' r' ⟨x1, x2, x3, x4, xp, xc⟩ hs hr
    obtain ⟨hn, hr, hg⟩ := strict_some hr
    obtain ⟨m, hm, hr⟩ := bind_some hr
    cases hr
    show Ok (do
      let m ← chargeAllF T.X.R (2 ^ M) (s.map T.reg) x.metric
      return ({ x with metric := m }, List.replicate (2 ^ M) T.ph.one, T.setU (FlList.idMap (2 ^ w) T.n))) _
    rw [softF_nonan hs hn, x1, hm, sb]
    exact Ok.some ⟨⟨rfl, x2, x3, x4, xp, xc⟩, onesF_rel h hX _, idMapF_rel h, hg.2⟩
  r1 := by
    classical
    rintro M x x' s s' r' hx hs hr
    obtain ⟨hn, hr, hg⟩ := strict_some hr
    simp only [parNF] at hr
    split at hr
    · rename_i v' _
      obtain ⟨v, rfl⟩ : ∃ v, s = [v] := List.length_eq_one_iff.1 (by rw [hs.length_eq]; rfl)
      have hv : T.reg v = v' := by have := softF_nonan hs hn; simpa using this
      obtain ⟨t', ht, hr⟩ := bind_some hr
      cases hr
      subst hv
      refine Ok.bind' (parForkFT_sim h ie hX hx ht (hg.1 _ (by simp)) hg.2) ?_
      rintro t ⟨t1, t2, t3⟩
      exact Ok.some ⟨t1, .cons t2 .nil, t3⟩
    · cases hr

/-! ### Before and after the recursion -/

theorem dupLoopFT_ok {level : Nat} {codeword : List (BitVec w)} {soft : List R} (d : R) (hs : 2 * 2 ^ level ≤ soft.length) (hc : 2 ^ level ≤ codeword.length) :
    ∃ a, T.dupLoop level codeword soft = some a ∧ a.length = soft.length ∧ Has d a (2 ^ level) ((codeword.take (2 ^ level)).map T.vdup) := by
  have hl : ((codeword.take (2 ^ level)).map T.vdup).length = 2 ^ level := by simp [hc]
  have key : Ok (T.dupLoop level codeword soft) (fun a => a.length = soft.length ∧ Has d a (2 ^ level) ((codeword.take (2 ^ level)).map T.vdup)) := by
    unfold FTarget.dupLoop
    refine Ok.mono (fill_upd (d := d) (o := 2 ^ level) hl (by omega) fun i a' hi _ => ?_) ?_
    · rw [rd_of_lt (by omega), sb, getD_map' _ _ (0 : BitVec w) d (by simp; omega), getD_take_lt hi, getElem_eq_getD _ 0]
    · rintro a ⟨a1, a2⟩
      refine ⟨a1, by rw [hl]; omega, fun i hi => ?_⟩
      rw [hl] at hi
      rw [a2, if_pos (by rw [hl]; omega), Nat.add_sub_cancel_left]
  obtain ⟨a, e, h1, h2⟩ := key
  exact ⟨a, e, h1, h2⟩

theorem backLoopFT_ok (h : T.Ok A) {message maps : List R} {n : Nat} (h0 : 0 < n) (h1 : n ≤ maps.length) (hv : ∀ i, i < n → ∀ k, (maps.map T.map).getD i (fun _ => 0) k < T.n) {out : List (FReg T.n)}
    (e : FlList.backLoop (message.map T.reg) (maps.map T.map) n = some out) : ∃ out', T.backLoop message maps n = some out' ∧ out'.map T.reg = out := by
  have hval : ∀ i, (hi : i < maps.length) → i < n → ∀ k, T.map maps[i] k < T.n := by
    intro i hi hin k
    have := hv i hin k
    rwa [← getElem_eq_getD (by rw [List.length_map]; exact hi), List.getElem_map] at this
  unfold FlList.backLoop at e
  unfold FTarget.backLoop
  have en : ((n : Int) - 1).toNat = n - 1 := by omega
  have ed : ∀ {α : Type} (l : List α), rdZ l ((n : Int) - 1) = l[n - 1]? := fun l => by unfold rdZ; rw [if_neg (by omega), en]
  rw [ed] at e ⊢
  rw [List.getElem?_map, List.getElem?_eq_getElem (by omega)] at e
  rw [List.getElem?_eq_getElem (by omega), sb]
  obtain ⟨p, hp, e⟩ := bind_some e
  cases hp
  obtain ⟨s', hs', e⟩ := bind_some e
  cases e
  obtain ⟨s, hs, hr, -⟩ := forDown_sim (f := fun i (s : List R × R) => do
      let m ← rd s.1 i
      let message ← wr s.1 i (T.vshuf m s.2)
      let mp ← rd maps i
      return (message, T.vshufU mp s.2)) (fun (s : List R × R) (s' : List (FReg T.n) × LMap T.n) => s.1.map T.reg = s'.1 ∧ MapF T s.2 s'.2) (n - 1) (message, maps[n - 1]) _ _ (by
    rintro j _ hj ⟨m, acc⟩ ⟨_, acc'⟩ r' ⟨rfl, ha⟩ hr
    dsimp only at ha hr ⊢
    obtain ⟨x, hx, hr⟩ := bind_some hr
    obtain ⟨y, hy, hr⟩ := bind_some hr
    obtain ⟨z, hz, hr⟩ := bind_some hr
    cases hr
    obtain ⟨h1, rfl⟩ := rd_some hx
    obtain ⟨h2, rfl⟩ := wr_some hy
    obtain ⟨h3, rfl⟩ := rd_some hz
    rw [List.length_map] at h1 h3
    rw [rd_of_lt h1, sb, wr_of_lt h1, sb, rd_of_lt h3, sb]
    refine Ok.some ⟨?_, ?_⟩
    · dsimp only
      rw [List.map_set, regF_shuf h _ _ ha.lt, ha.1, List.getElem_map]
    · dsimp only
      rw [List.getElem_map]
      exact mapF_comp h ⟨rfl, hval j h3 (by omega)⟩ ha) ⟨rfl, rfl, hval _ _ (by omega)⟩ hs'
  exact ⟨s.1, by rw [hs]; rfl, hr⟩

theorem softF_rel (h : T.Ok A) (l : List (BitVec w)) :
    List.Forall₂ (SoftF T) (l.map T.vdup) (l.map fun v (_ : Fin T.n) => T.X.val v) := by
  rw [List.forall₂_map_left_iff, List.forall₂_map_right_iff, List.forall₂_same]
  intro v _ k _
  rw [regF_dup h]

/-- The recursion on the target, from the simulation on lanes. -/
theorem float_topT [NeZero T.n] {X X' : Type} {B : ℚ} (hB : T.X.R.rep B) {level : Nat} {frozen : List Nat} {cost : List Int → WithTop ℚ → ℚ → Int → WithTop ℚ}
    {Rel : Nat → X' → List (List Int × WithTop ℚ) → Prop} {W' : Walk (FReg T.n) (LMap T.n) X'} {N' : Nodes (FReg T.n) (LMap T.n) X'}
    (C : Verif.Polar.Sim (phFV T.X.R T.n) (minSum T.X.R.rnd) level (RF T.X.R B) (fun a v => a = .fin v) (fun a x => a = flSym x) (Frozen frozen) (fun μ s => fadd T.X.R μ (penaltyQ s 1)) cost Rel (.fin 0) W' N')
    {W : Walk R R X} {N : Nodes R R X} {ρ : Rels R R X (FReg T.n) (LMap T.n) X'} (hS : ρ.S = SoftF T) (D : Sim ρ W N (strictW T.X.R W') (strictN N')) (h : T.Ok A) (d : R)
    (ag : Agree d W N) (hw : ∀ w ∈ frozen, w < 2 ^ 32) (h5 : 5 ≤ level) (h16 : level ≤ 16) (hf : 2 ^ level ≤ 32 * frozen.length) (hfree : 1 ≤ freeBelow frozen (2 ^ level))
    {codeword : List (BitVec w)} {s : Nat → ℚ} (hc : 2 ^ level ≤ codeword.length)
    (hs : ∀ j, j < 2 ^ level → T.X.val (codeword.getD j 0) = .fin (s j) ∧ T.X.R.rep (s j) ∧ |s j| ≤ B)
    {m : Mem R X} {x' : X'} (hx : ρ.X m.x x') (hm : Has d m.soft (2 ^ level) ((codeword.take (2 ^ level)).map T.vdup)) (hh : 2 ^ level ≤ m.hard.length)
    (hrel : Rel 0 x' (([], 0) :: List.replicate (T.n - 1) ([], 1000000))) :
    ∃ t t', treeTop W 16 frozen level m = some t ∧ ρ.X t.1.x t' ∧ Rel (2 ^ level) t' (sclF T.X.R T.n level s (Frozen frozen) cost) ∧
      Paths T.n (2 ^ level) (sclF T.X.R T.n level s (Frozen frozen) cost) := by
  have hL : 1 ≤ T.n := Nat.pos_of_ne_zero (NeZero.ne _)
  have hsl : ((codeword.take (2 ^ level)).map fun v (_ : Fin T.n) => T.X.val v).length = 2 ^ level := by simp [hc]
  have hcnt : cnt (fbits frozen 0 (2 ^ level)) = freeBelow frozen (2 ^ level) := cnt_fbits _ _
  obtain ⟨y', hd, mp, e, r, ps, -, -⟩ := (list_sim (floatLaws T.X.R hB) (strict_sim C) (σ := s) (fun i hi => ⟨(hs i hi).2.1, by simpa using (hs i hi).2.2⟩) level 0 0 (by omega) (by simp)
    (fbits frozen 0 (2 ^ level)) x' ((codeword.take (2 ^ level)).map fun v (_ : Fin T.n) => T.X.val v) (([], 0) :: List.replicate (T.n - 1) ([], 1000000)) (by simp [fbits])
    (fun i hi => by rw [fbits_zero, getD_range_map _ _ hi, Nat.zero_mul, Nat.zero_add]; rfl) hsl (by rw [Nat.zero_mul]; exact hrel) (by rw [Nat.zero_mul]; exact paths_init hL _ _)
    (fun k i hi => by
      rw [getD_map' _ _ (0 : BitVec w) _ (by simp; omega), getD_take_lt hi, (hs i hi).1]
      rfl)).2 (fun h => not_all_frozen (by omega) h.2) (by omega)
  rw [Nat.zero_mul, Nat.zero_add] at r ps
  obtain ⟨u, eu, u1, -⟩ := tree_sim D level _ m.x x' ((codeword.take (2 ^ level)).map T.vdup) _ _ hx (by rw [hS]; exact softF_rel h _) e
  obtain ⟨t, et, t1, -⟩ := treeTop_ok ag hw h5 h16 hf (by simp [hc]) hm hh eu
  exact ⟨t, y', et, by rw [t1]; exact u1, r, ps⟩

end Verif.Targets
