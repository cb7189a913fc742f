import Verif.Polar.ListModel
import Verif.Polar.PropsSc
import Verif.PolarHelper.Props
import Mathlib.Logic.Function.Iterate
/- Every lane of a list decoder follows one path of the code tree. -/
namespace Verif.Polar
open PolarHelper (I8 prodV maddV qmulV)
open Verif.RS (sb)
variable {L : Nat} {X C Q : Type}

/-- The number of positions that are not frozen. -/
def cnt (f : List Bool) : Nat := (f.filter fun b => !b).length

theorem cnt_split (f : List Bool) (n : Nat) : cnt f = cnt (f.take n) + cnt (f.drop n) := by
  unfold cnt
  rw [← List.length_append, ← List.filter_append, List.take_append_drop]

theorem cnt_all {f : List Bool} (h : f.all (fun b => b) = true) : cnt f = 0 := by
  unfold cnt
  rw [List.filter_eq_nil_iff.2]; rfl
  intro b hb; simp [List.all_eq_true.1 h b hb]

/-- One lane of a list of registers. -/
def ln (k : Fin L) (l : List (Reg L)) : List Int := l.map fun r => r k

/-- The penalty of a soft value at a frozen position. -/
def neg (s : Int) : Int := max 0 (-s)

def negs (s : List Int) : Int := (s.map neg).sum

/-- What is to be said about a leaf that is not frozen: `ctl` a control state that does not depend on the data, `tr` and `met`
what a lane has collected and its metric, `step`, `upd` and `new` how they change with the decision, `good` whether a
decision is admissible, `Inv n B` that the state has room for `n` more leaves and its metrics are at most `B`. -/
structure Lf (L : Nat) (X C Q : Type) where
  ctl : X → C
  tr : X → Fin L → Q
  met : X → Fin L → Int
  step : C → C
  upd : C → Q → Int → Q
  new : C → Q → Int → Int → Int → Int
  good : C → Q → Int → Prop
  Inv : Nat → Int → X → Prop

/-- What a path collects. -/
def Lf.path (A : Lf L X C Q) : List Bool → C → Q → List Int → Q
  | [], _, p, _ => p
  | _ :: _, _, p, [] => p
  | true :: f, c, p, _ :: u => A.path f c p u
  | false :: f, c, p, v :: u => A.path f (A.step c) (A.upd c p v) u

/-- All decisions of a path are admissible. -/
def Lf.goods (A : Lf L X C Q) : List Bool → C → Q → List Int → Prop
  | [], _, _, _ => True
  | _ :: _, _, _, [] => True
  | true :: f, c, p, _ :: u => A.goods f c p u
  | false :: f, c, p, v :: u => A.good c p v ∧ A.goods f (A.step c) (A.upd c p v) u

/-- The metric of a path: the decoder for a single path. -/
def Lf.cost (A : Lf L X C Q) : Nat → List Bool → C → Q → Int → List Int → List Int → Int
  | 0, f, c, p, μ, s, u => if f.all (fun b => b) = true then μ + negs s else A.new c p μ (s.headD 0) (u.headD 1)
  | M + 1, f, c, p, μ, s, u => if M + 1 ≤ 5 ∧ f.all (fun b => b) = true then μ + negs s else
    A.cost M (f.drop (2 ^ M)) (A.step^[cnt (f.take (2 ^ M))] c) (A.path (f.take (2 ^ M)) c p (u.take (2 ^ M)))
      (A.cost M (f.take (2 ^ M)) c p μ (List.zipWith prodV (s.take (2 ^ M)) (s.drop (2 ^ M))) (u.take (2 ^ M)))
      (zip3 maddV (T qmulV M (u.take (2 ^ M))) (s.take (2 ^ M)) (s.drop (2 ^ M))) (u.drop (2 ^ M))

theorem path_append (A : Lf L X C Q) : ∀ (f g : List Bool) (c : C) (p : Q) (u v : List Int), f.length = u.length →
    A.path (f ++ g) c p (u ++ v) = A.path g (A.step^[cnt f] c) (A.path f c p u) v := by
  intro f
  induction f with
  | nil => intro g c p u v h; cases u with | nil => rfl | cons _ _ => simp at h
  | cons b f ih =>
    intro g c p u v h
    cases u with
    | nil => simp at h
    | cons a u =>
      have h' : f.length = u.length := by simpa using h
      cases b with
      | true => simpa [Lf.path, cnt] using ih g c p u v h'
      | false =>
        have := ih g (A.step c) (A.upd c p a) u v h'
        simpa [Lf.path, cnt, Function.iterate_succ_apply] using this

theorem goods_append (A : Lf L X C Q) : ∀ (f g : List Bool) (c : C) (p : Q) (u v : List Int), f.length = u.length →
    (A.goods (f ++ g) c p (u ++ v) ↔ A.goods f c p u ∧ A.goods g (A.step^[cnt f] c) (A.path f c p u) v) := by
  intro f
  induction f with
  | nil => intro g c p u v h; cases u with | nil => simp [Lf.goods, Lf.path, cnt] | cons _ _ => simp at h
  | cons b f ih =>
    intro g c p u v h
    cases u with
    | nil => simp at h
    | cons a u =>
      have h' : f.length = u.length := by simpa using h
      cases b with
      | true => simpa [Lf.goods, Lf.path, cnt] using ih g c p u v h'
      | false =>
        have := ih g (A.step c) (A.upd c p a) u v h'
        simp only [List.cons_append, Lf.goods, Lf.path, cnt, List.filter_cons, Bool.not_false, if_true, List.length_cons, Function.iterate_succ_apply, this]
        tauto

theorem path_all (A : Lf L X C Q) : ∀ (f : List Bool) (c : C) (p : Q) (u : List Int), f.all (fun b => b) = true → A.path f c p u = p := by
  intro f
  induction f with
  | nil => intro c p u _; rfl
  | cons b f ih =>
    intro c p u h
    simp only [List.all_cons, Bool.and_eq_true] at h
    obtain ⟨rfl, h⟩ := h
    cases u with
    | nil => rfl
    | cons a u => exact ih c p u h

/-- The lane a map points to. -/
def src [NeZero L] (m : LMap L) (k : Fin L) : Fin L := if h : m k < L then ⟨m k, h⟩ else 0

/-- The best `L` of a list of paths (metric in the last component), the earlier ones if metrics are equal. -/
def keep {α β : Type} (L : Nat) (l : List (α × β × Int)) : List (α × β × Int) := (l.mergeSort fun a b => decide (a.2.2 ≤ b.2.2)).take L

/-- All continuations of the lanes: lane, decision, metric. -/
def Lf.conts (A : Lf L X C Q) (x : X) (v : Reg L) : List (Fin L × Int × Int) :=
  (List.finRange L).flatMap fun j => [(j, 1, A.new (A.ctl x) (A.tr x j) (A.met x j) (v j) 1), (j, -1, A.new (A.ctl x) (A.tr x j) (A.met x j) (v j) (-1))]

/-- A node as an operation on a list of paths (decisions so far, what was collected, metric); `p` is the position of the node
and `sf` gives its soft values for a path. -/
def Lf.node (A : Lf L X C Q) : Nat → List Bool → C → Nat → (List Int → List Int) → List (List Int × Q × Int) → List (List Int × Q × Int)
  | 0, f, c, _, sf, ps => if f.all (fun b => b) = true then ps.map fun a => (a.1 ++ [1], a.2.1, a.2.2 + negs (sf a.1)) else
    keep L (ps.flatMap fun a => [(a.1 ++ [1], A.upd c a.2.1 1, A.new c a.2.1 a.2.2 ((sf a.1).headD 0) 1), (a.1 ++ [-1], A.upd c a.2.1 (-1), A.new c a.2.1 a.2.2 ((sf a.1).headD 0) (-1))])
  | M + 1, f, c, p, sf, ps => if M + 1 ≤ 5 ∧ f.all (fun b => b) = true then ps.map fun a => (a.1 ++ List.replicate (2 ^ (M + 1)) 1, a.2.1, a.2.2 + negs (sf a.1)) else
    A.node M (f.drop (2 ^ M)) (A.step^[cnt (f.take (2 ^ M))] c) (p + 2 ^ M)
      (fun w => zip3 maddV (T qmulV M ((w.drop p).take (2 ^ M))) ((sf w).take (2 ^ M)) ((sf w).drop (2 ^ M)))
      (A.node M (f.take (2 ^ M)) c p (fun w => List.zipWith prodV ((sf w).take (2 ^ M)) ((sf w).drop (2 ^ M))) ps)

/-- What the node functions of a list decoder do. -/
structure LfOk [NeZero L] (A : Lf L X C Q) (W : Walk (Reg L) (LMap L) X) (N : Nodes (Reg L) (LMap L) X) : Prop where
  prod : W.prod = (phV L).prod
  madd : W.madd = (phV L).madd
  qmul : W.qmul = (phV L).qmul
  vshuf : W.vshuf = shuf 0
  comp : W.comp = shuf 0
  sc1 : W.sc1 = false
  r0 : ∀ M x (s : List (Reg L)) n B, M ≤ 5 → s.length = 2 ^ M → (∀ a ∈ s, ∀ k, I8 (a k)) → A.Inv n B x → B + 128 * 2 ^ M < 2 ^ 31 →
    ∃ x', N.r0 M x s = some (x', List.replicate (2 ^ M) (phV L).one, fun k => k.val) ∧ A.Inv n (B + 128 * 2 ^ M) x' ∧
      A.ctl x' = A.ctl x ∧ A.tr x' = A.tr x ∧ ∀ k, A.met x' k = A.met x k + negs (ln k s)
  r1 : ∀ x (v : Reg L) n B, (∀ k, I8 (v k)) → A.Inv (n + 1) B x → B + 128 < 2 ^ 31 →
    ∃ x' h m, N.r1 0 x [v] = some (x', [h], m) ∧ A.Inv n (B + 128) x' ∧ A.ctl x' = A.step (A.ctl x) ∧ (∀ k, Sym (h k)) ∧
      ∃ hv : ∀ k, m k < L,
        (∀ k, A.tr x' k = A.upd (A.ctl x) (A.tr x ⟨m k, hv k⟩) (h k)) ∧
        (∀ k, A.met x' k = A.new (A.ctl x) (A.tr x ⟨m k, hv k⟩) (A.met x ⟨m k, hv k⟩) (v ⟨m k, hv k⟩) (h k)) ∧
        (∀ k k', m k = m k' → h k = h k' → k = k') ∧
        (∀ k k', k ≤ k' → A.met x' k ≤ A.met x' k') ∧
        (∀ (j : Fin L) b, Sym b → (∀ k, ¬ (m k = j.val ∧ h k = b)) → ∀ k, A.met x' k ≤ A.new (A.ctl x) (A.tr x j) (A.met x j) (v j) b) ∧
        List.ofFn (fun k => (src m k, h k, A.met x' k)) = keep L (A.conts x v)
  new_pos : ∀ c p μ s b, I8 s → Sym b → 1 ≤ μ → 1 ≤ A.new c p μ s b
  new_good : ∀ c p s b, A.good c p b → SignOf s b → A.new c p 0 s b = 0
  new_bad : ∀ c p s b b', Sym b → Sym b' → b' ≠ b → A.good c p b → SignOf s b → 1 ≤ A.new c p 0 s b'

/-- The lanes before and after a node: lane `k` continues lane `m k` with the decisions in lane `k` of `U`. -/
structure Run [NeZero L] (A : Lf L X C Q) (M : Nat) (f : List Bool) (x : X) (s : List (Reg L)) (r : X × List (Reg L) × LMap L) (U : List (Reg L)) : Prop where
  len : U.length = 2 ^ M
  sym : ∀ a ∈ U, ∀ k, Sym (a k)
  obeys : Obeys (phV L).one f U
  hard : r.2.1 = T (phV L).qmul M U
  ctl : A.ctl r.1 = A.step^[cnt f] (A.ctl x)
  inj : ∀ k k', r.2.2 k = r.2.2 k' → ln k U = ln k' U → k = k'
  lanes : ∃ hv : ∀ k, r.2.2 k < L,
    (∀ k, A.tr r.1 k = A.path f (A.ctl x) (A.tr x ⟨r.2.2 k, hv k⟩) (ln k U)) ∧
    ∀ k, A.met r.1 k = A.cost M f (A.ctl x) (A.tr x ⟨r.2.2 k, hv k⟩) (A.met x ⟨r.2.2 k, hv k⟩) (ln ⟨r.2.2 k, hv k⟩ s) (ln k U)
  sorted : f.getLast? = some false → ∀ k k', k ≤ k' → A.met r.1 k ≤ A.met r.1 k'
  truth : ∀ u : List Int, (∀ a ∈ u, Sym a) → Obeys 1 f u → A.goods f (A.ctl x) (A.tr x 0) u → All2 1 SignOf (ln 0 s) (T qmulV M u) →
    A.met x 0 = 0 → (∀ k, k ≠ 0 → 1 ≤ A.met x k) →
    r.2.2 0 = 0 ∧ ln 0 U = u ∧ A.met r.1 0 = 0 ∧ ∀ k, k ≠ 0 → 1 ≤ A.met r.1 k
  exact : ∀ (p : Nat) (W : Fin L → List Int) (sf : List Int → List Int), (∀ k, (W k).length = p) → (∀ k w, sf (W k ++ w) = ln k s) →
    A.node M f (A.ctl x) p sf (List.ofFn fun k => (W k, A.tr x k, A.met x k)) =
      List.ofFn fun k => (W (src r.2.2 k) ++ ln k U, A.tr r.1 k, A.met r.1 k)

end Verif.Polar
