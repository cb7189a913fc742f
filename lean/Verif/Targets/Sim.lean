import Verif.Targets.Model
import Verif.Polar.PropsSct
import Verif.Polar.PropsPar
/- Two walks whose operations correspond compute corresponding results. -/
namespace Verif.Targets
open Verif.SIMD Verif.Polar
open Verif.PolarHelper (I8 minSum clampS qmulV prodV maddV)
open Verif.RS (sb)

section generic
variable {τ μ X τ' μ' X' : Type}

/-- Corresponding soft values, hard values, maps and other data. -/
structure Rels (τ μ X τ' μ' X' : Type) where
  S : τ → τ' → Prop
  H : τ → τ' → Prop
  M : μ → μ' → Prop
  X : X → X' → Prop

/-- Results of a node correspond. -/
def Rels.Res (ρ : Rels τ μ X τ' μ' X') (r : X × List τ × μ) (r' : X' × List τ' × μ') : Prop :=
  ρ.X r.1 r'.1 ∧ List.Forall₂ ρ.H r.2.1 r'.2.1 ∧ ρ.M r.2.2 r'.2.2

structure Sim (ρ : Rels τ μ X τ' μ' X') (W : Walk τ μ X) (N : Nodes τ μ X) (W' : Walk τ' μ' X') (N' : Nodes τ' μ' X') : Prop where
  prod : ∀ a a' b b', ρ.S a a' → ρ.S b b' → ρ.S (W.prod a b) (W'.prod a' b')
  madd : ∀ h h' a a' b b', ρ.H h h' → ρ.S a a' → ρ.S b b' → ρ.S (W.madd h a b) (W'.madd h' a' b')
  qmul : ∀ a a' b b', ρ.H a a' → ρ.H b b' → ρ.H (W.qmul a b) (W'.qmul a' b')
  shufS : ∀ a a' m m', ρ.S a a' → ρ.M m m' → ρ.S (W.vshuf a m) (W'.vshuf a' m')
  shufH : ∀ a a' m m', ρ.H a a' → ρ.M m m' → ρ.H (W.vshuf a m) (W'.vshuf a' m')
  comp : ∀ a a' m m', ρ.M a a' → ρ.M m m' → ρ.M (W.comp a m) (W'.comp a' m')
  sc1 : W.sc1 = W'.sc1
  r0 : ∀ M x x' s s' r', ρ.X x x' → List.Forall₂ ρ.S s s' → N'.r0 M x' s' = some r' → Verif.Ok (N.r0 M x s) (ρ.Res · r')
  r1 : ∀ M x x' s s' r', ρ.X x x' → List.Forall₂ ρ.S s s' → N'.r1 M x' s' = some r' → Verif.Ok (N.r1 M x s) (ρ.Res · r')

theorem forall2_take {α β : Type} {P : α → β → Prop} {l : List α} {l' : List β} (h : List.Forall₂ P l l') : ∀ n, List.Forall₂ P (l.take n) (l'.take n) := by
  induction h with
  | nil => intro n; simp
  | cons h _ ih => intro n; cases n with
    | zero => simp
    | succ n => exact List.Forall₂.cons h (ih n)

theorem forall2_drop {α β : Type} {P : α → β → Prop} {l : List α} {l' : List β} (h : List.Forall₂ P l l') : ∀ n, List.Forall₂ P (l.drop n) (l'.drop n) := by
  induction h with
  | nil => intro n; simp
  | cons h h' ih => intro n; cases n with
    | zero => exact List.Forall₂.cons h h'
    | succ n => exact ih n

theorem forall2_mapp {α β α' β' : Type} {P : α → β → Prop} {Q : α' → β' → Prop} {f : α → α'} {g : β → β'} (hf : ∀ a b, P a b → Q (f a) (g b))
    {l : List α} {l' : List β} (h : List.Forall₂ P l l') : List.Forall₂ Q (l.map f) (l'.map g) := by
  induction h with
  | nil => exact .nil
  | cons h _ ih => exact .cons (hf _ _ h) ih

theorem forall2_zipWith {α β γ α' β' γ' : Type} {P : α → α' → Prop} {Q : β → β' → Prop} {U : γ → γ' → Prop} {f : α → β → γ} {g : α' → β' → γ'}
    (hf : ∀ a a' b b', P a a' → Q b b' → U (f a b) (g a' b')) {l : List α} {l' : List α'} (h : List.Forall₂ P l l') :
    ∀ {m : List β} {m' : List β'}, List.Forall₂ Q m m' → List.Forall₂ U (List.zipWith f l m) (List.zipWith g l' m') := by
  induction h with
  | nil => intro m m' _; simp
  | cons h _ ih => intro m m' hm; cases hm with
    | nil => simp
    | cons h1 h2 => exact .cons (hf _ _ _ _ h h1) (ih h2)

theorem forall2_zip3 {P : τ → τ' → Prop} {Q : τ → τ' → Prop} {f : τ → τ → τ → τ} {g : τ' → τ' → τ' → τ'}
    (hf : ∀ h h' a a' b b', P h h' → Q a a' → Q b b' → Q (f h a b) (g h' a' b')) {l : List τ} {l' : List τ'} (h : List.Forall₂ P l l')
    {m : List τ} {m' : List τ'} (hm : List.Forall₂ Q m m') {n : List τ} {n' : List τ'} (hn : List.Forall₂ Q n n') :
    List.Forall₂ Q (zip3 f l m n) (zip3 g l' m' n') := by
  unfold zip3
  refine forall2_zipWith (P := fun (p : τ × τ) (p' : τ' × τ') => P p.1 p'.1 ∧ Q p.2 p'.2) (Q := Q) (U := Q) (fun a a' b b' hp hb => hf _ _ _ _ b b' hp.1 hp.2 hb) ?_ hn
  exact forall2_zipWith (fun a a' b b' h1 h2 => ⟨h1, h2⟩) h hm

variable {ρ : Rels τ μ X τ' μ' X'} {W : Walk τ μ X} {N : Nodes τ μ X} {W' : Walk τ' μ' X'} {N' : Nodes τ' μ' X'}

theorem child_sim (S : Sim ρ W N W' N') {rec : Nat → List Bool → X → List τ → Option (X × List τ × μ)} {rec' : Nat → List Bool → X' → List τ' → Option (X' × List τ' × μ')} {M : Nat}
    (hrec : ∀ f x x' s s' r', ρ.X x x' → List.Forall₂ ρ.S s s' → rec' M f x' s' = some r' → Verif.Ok (rec M f x s) (ρ.Res · r'))
    {f : List Bool} {x : X} {x' : X'} {s : List τ} {s' : List τ'} {r'} (hx : ρ.X x x') (hs : List.Forall₂ ρ.S s s') (h : childF W' N' rec' M f x' s' = some r') :
    Verif.Ok (childF W N rec M f x s) (ρ.Res · r') := by
  unfold childF at h ⊢
  rw [S.sc1]
  split at h
  · rename_i hc; rw [if_pos hc]; exact S.r0 _ _ _ _ _ _ hx hs h
  · rename_i hc
    rw [if_neg hc]
    split at h
    · rename_i hd; rw [if_pos hd]; exact S.r1 _ _ _ _ _ _ hx hs h
    · rename_i hd; rw [if_neg hd]; exact hrec _ _ _ _ _ _ hx hs h

theorem tree_sim (S : Sim ρ W N W' N') : ∀ (M : Nat) (f : List Bool) (x : X) (x' : X') (s : List τ) (s' : List τ') r', ρ.X x x' → List.Forall₂ ρ.S s s' →
    treeF W' N' M f x' s' = some r' → Verif.Ok (treeF W N M f x s) (ρ.Res · r') := by
  intro M
  induction M with
  | zero => intro f x x' s s' r' _ _ h; cases h
  | succ M ih =>
    intro f x x' s s' r' hx hs h
    rw [treeF] at h ⊢
    obtain ⟨l', h1, h⟩ := bind_some h
    obtain ⟨t', h2, h⟩ := bind_some h
    cases h
    refine Ok.bind' (child_sim S (fun f x x' s s' r' => ih f x x' s s' r') hx (forall2_zipWith S.prod (forall2_take hs _) (forall2_drop hs _)) h1) ?_
    rintro l ⟨l1, l2, l3⟩
    have hsh : ∀ {u : List τ} {u' : List τ'}, List.Forall₂ ρ.S u u' → List.Forall₂ ρ.S (u.map (W.vshuf · l.2.2)) (u'.map (W'.vshuf · l'.2.2)) :=
      fun hu => forall2_mapp (fun a b hab => S.shufS _ _ _ _ hab l3) hu
    refine Ok.bind' (child_sim S (fun f x x' s s' r' => ih f x x' s s' r') l1 (forall2_zip3 S.madd l2 (hsh (forall2_take hs _)) (hsh (forall2_drop hs _))) h2) ?_
    rintro t ⟨t1, t2, t3⟩
    refine Ok.some ⟨t1, List.rel_append ?_ t2, S.comp _ _ _ _ l3 t3⟩
    exact forall2_zipWith S.qmul (forall2_mapp (fun a b hab => S.shufH _ _ _ _ hab t3) l2) t2

end generic

/-! ### The operations of a target -/

variable {R : Type} {T : Target R}

/-- A register of hard decisions. -/
def HardOf (T : Target R) (a : R) (a' : Reg T.n) : Prop := T.reg a = a' ∧ ∀ k, Sym (a' k)
/-- A register that holds a map of lanes. -/
def MapOf (T : Target R) (a : R) (a' : LMap T.n) : Prop := T.map a = a' ∧ ∀ k, a' k < T.n

theorem reg_I8 (a : R) (k : Fin T.n) : I8 (T.reg a k) := int_I8 a k

theorem reg_prod (h : T.Ok) (a b : R) : T.reg (T.ph.prod a b) = (phV T.n).prod (T.reg a) (T.reg b) := by
  funext k
  have e := C55_prod h.ops a b k k.isLt
  have e' : prodV (T.reg a k) (T.reg b k) = minSum (T.reg a k) (T.reg b k) := by
    rw [(PolarHelper.C49_prod_agree (reg_I8 a k) (reg_I8 b k)).1, (PolarHelper.C49_prod_spec (reg_I8 a k) (reg_I8 b k)).1]
  show T.O.int (T.ph.prod a b) k = prodV (T.reg a k) (T.reg b k)
  rw [e']
  unfold Target.ph
  dsimp only
  split
  · exact e.2
  · exact e.1

theorem reg_madd (h : T.Ok) (a b c : R) (ha : ∀ k, Sym (T.reg a k)) : T.reg (T.ph.madd a b c) = (phV T.n).madd (T.reg a) (T.reg b) (T.reg c) := by
  funext k
  show T.O.int (T.ph.madd a b c) k = maddV (T.reg a k) (T.reg b k) (T.reg c k)
  unfold Target.ph
  dsimp only
  split
  · rw [Ops.lane_maddN h.ops a b c k.isLt]
    have hb := reg_I8 (T := T) b k
    have ha := ha k
    show PolarHelper.vmax (PolarHelper.vqadd (PolarHelper.vmul (T.reg a k) (PolarHelper.vmax (T.reg b k) (-127))) (T.reg c k)) (-127) = _
    generalize T.reg a k = x at *
    generalize T.reg b k = y at *
    generalize T.reg c k = z at *
    unfold maddV
    have : PolarHelper.vmul x (PolarHelper.vmax y (-127)) = PolarHelper.vsign (PolarHelper.vmax y (-127)) x := by
      unfold PolarHelper.vmul PolarHelper.vsign
      rcases ha with rfl | rfl <;> simp [PolarHelper.sgn]
    rw [this]
  · rw [Ops.lane_maddX h.ops a b c k.isLt]; rfl

theorem reg_qmul (h : T.Ok) (a b : R) (ha : ∀ k, Sym (T.reg a k)) (hb : ∀ k, Sym (T.reg b k)) : T.reg (T.ph.qmul a b) = (phV T.n).qmul (T.reg a) (T.reg b) := by
  funext k
  show T.O.int (T.ph.qmul a b) k = qmulV (T.reg a k) (T.reg b k)
  unfold Target.ph
  dsimp only
  split
  · rw [Ops.lane_qmulN h.ops a b k.isLt]
    show PolarHelper.qmul (T.reg a k) (T.reg b k) = _
    rcases ha k with e | e <;> rcases hb k with e' | e' <;> rw [e, e'] <;> rfl
  · rw [Ops.lane_qmulX h.ops a b k.isLt]; rfl

theorem reg_one (h : T.Ok) : T.reg T.ph.one = (phV T.n).one := by
  funext k
  show (T.O.v (T.O.vdup 1) k).toInt = 1
  rw [h.ops.vdup _ _ k.isLt]; rfl

theorem reg_signum (h : T.Ok) (a : R) : T.reg (T.ph.signum a) = (phV T.n).signum (T.reg a) := by
  funext k
  show (T.O.v (T.O.vsignum a) k).toInt = PolarHelper.vsignum (T.reg a k)
  rw [h.ops.vsignum _ _ k.isLt, Br.vsignum]; rfl

theorem reg_shuf (h : T.Ok) (a m : R) (hm : ∀ k, T.map m k < T.n) : T.reg (T.O.vshuf a m) = shuf 0 (T.reg a) (T.map m) := by
  funext k
  have e := C55_vshuf h.ops a m k k.isLt (hm k)
  unfold shuf
  rw [dif_pos (hm k)]
  exact e.1

theorem map_shuf (h : T.Ok) (a m : R) (hm : ∀ k, T.map m k < T.n) : T.map (T.O.vshufU a m) = shuf 0 (T.map a) (T.map m) := by
  funext k
  have e := C55_vshuf h.ops a m k k.isLt (hm k)
  unfold shuf
  rw [dif_pos (hm k)]
  exact congrArg BitVec.toNat e.2

theorem reg_setI (h : T.Ok) (f : Reg T.n) (hf : ∀ k, I8 (f k)) : T.reg (T.setI f) = f := by
  funext k
  show (T.O.v (T.wrt _) k).toInt = f k
  rw [h.wrt _ _ k.isLt, dif_pos k.isLt, Br.toInt_ofInt, PolarHelper.t8_id (hf k).1 (hf k).2]

theorem map_setU (h : T.Ok) (f : LMap T.n) (hf : ∀ k, f k < 256) : T.map (T.setU f) = f := by
  funext k
  show (T.O.v (T.wrt _) k).toNat = f k
  rw [h.wrt _ _ k.isLt, dif_pos k.isLt, BitVec.toNat_ofNat, Nat.mod_eq_of_lt (hf k)]

theorem reg_dup (h : T.Ok) {v : Int} (hv : I8 v) : T.reg (T.O.vdup (BitVec.ofInt 8 v)) = fun _ => v := by
  funext k
  show (T.O.v (T.O.vdup _) k).toInt = v
  rw [h.ops.vdup _ _ k.isLt, Br.toInt_ofInt, PolarHelper.t8_id hv.1 hv.2]

theorem HardOf.sym {a : R} {a' : Reg T.n} (h : HardOf T a a') : ∀ k, Sym (T.reg a k) := by rw [h.1]; exact h.2
theorem MapOf.lt {a : R} {a' : LMap T.n} (h : MapOf T a a') : ∀ k, T.map a k < T.n := by rw [h.1]; exact h.2

theorem hard_qmul (h : T.Ok) {a b : R} {a' b' : Reg T.n} (ha : HardOf T a a') (hb : HardOf T b b') : HardOf T (T.ph.qmul a b) ((phV T.n).qmul a' b') := by
  refine ⟨by rw [reg_qmul h _ _ ha.sym hb.sym, ha.1, hb.1], fun k => ?_⟩
  show Sym (qmulV (a' k) (b' k))
  rw [qmulV_sym (ha.2 k) (hb.2 k)]; exact (ha.2 k).mul (hb.2 k)

theorem hard_shuf (h : T.Ok) {a m : R} {a' : Reg T.n} {m' : LMap T.n} (ha : HardOf T a a') (hm : MapOf T m m') : HardOf T (T.O.vshuf a m) (shuf 0 a' m') := by
  refine ⟨by rw [reg_shuf h _ _ hm.lt, ha.1, hm.1], fun k => ?_⟩
  unfold shuf
  rw [dif_pos (hm.2 k)]; exact ha.2 _

theorem map_comp (h : T.Ok) {a m : R} {a' m' : LMap T.n} (ha : MapOf T a a') (hm : MapOf T m m') : MapOf T (T.O.vshufU a m) (shuf 0 a' m') := by
  refine ⟨by rw [map_shuf h _ _ hm.lt, ha.1, hm.1], fun k => ?_⟩
  unfold shuf
  rw [dif_pos (hm.2 k)]; exact ha.2 _

end Verif.Targets
