import Verif.GF.Life
import Verif.GF.Props
/- C70: which programs may use the tables of a Galois field, and what they get. -/
namespace Verif.GF

/-- What the compiler enforces: the template arguments pass the static assertions, the member arrays have their lengths. -/
def Op.Wf : Op → Prop
  | .construct f _ T0 => 0 < f.M ∧ f.M ≤ f.w ∧ HasDeg f.M f.P ∧ Sized f.M T0
  | _ => True

/-- The results of the operations: `index` gives the exponent of the element, `value` the element with that exponent. -/
inductive Results : List Op → List Nat → Prop
  | nil : Results [] []
  | construct {f x T0 h o} : Results h o → Results (.construct f x T0 :: h) o
  | copy {x y h o} : Results h o → Results (.copy x y :: h) o
  | assign {x y h o} : Results h o → Results (.assign x y :: h) o
  | destroy {x h o} : Results h o → Results (.destroy x :: h) o
  | index {f a i h o} : i < 2 ^ f.M - 1 → xR f.P ^ i = toR f.P a → Results h o → Results (.index f a :: h) (i :: o)
  | value {f i v h o} : v < 2 ^ f.M → toR f.P v = xR f.P ^ i → Results h o → Results (.value f i :: h) (v :: o)

/-- A state of a program: for each address the class of the object that lives there. -/
abbrev Objects := Nat → Option Inst

/-- Programs that never copy or assign objects and use them as intended, from `S` on: an object is constructed where none lives, while no other one of its class lives, and only
with a primitive polynomial; living objects are destroyed; an operation is used while an object of its class lives, with an argument in its domain. -/
def Intended : Objects → List Op → Prop
  | _, [] => True
  | S, .construct f x _ :: h => S x = none ∧ (∀ y, S y ≠ some f) ∧ Primitive f.M f.P ∧ Intended (upd S x (some f)) h
  | S, .destroy x :: h => S x ≠ none ∧ Intended (upd S x none) h
  | S, .index f a :: h => (∃ y, S y = some f) ∧ a ≠ 0 ∧ a < 2 ^ f.M ∧ Intended S h
  | S, .value f i :: h => (∃ y, S y = some f) ∧ i < 2 ^ f.M - 1 ∧ Intended S h
  | _, .copy _ _ :: _ => False
  | _, .assign _ _ :: _ => False

def Op.isCopy : Op → Bool
  | .copy _ _ => true
  | _ => false

def Op.isAssign : Op → Bool
  | .assign _ _ => true
  | _ => false

/-! ### Invariant -/

structure Inv (s : World) : Prop where
  same : s.LOG = s.EXP
  ready : ∀ x f T, s.mem x = some (f, T) → Ready f.w f.M f.P T
  points : ∀ f x, s.LOG f = some x → ∃ T, s.mem x = some (f, T)

theorem inv_init : Inv World.init := ⟨rfl, fun _ _ _ h => by simp [World.init] at h, fun _ _ h => by simp [World.init] at h⟩

theorem as_true {p : Prop} [Decidable p] (h : p) {β : Type} (f : Unit → Option β) : (assertUB p >>= f) = f () := by rw [assertUB, if_pos h]; rfl
theorem as_false {p : Prop} [Decidable p] (h : ¬ p) {β : Type} (f : Unit → Option β) : (assertUB p >>= f) = none := by rw [assertUB, if_neg h]; rfl

theorem construct_eq {s : World} (I : Inv s) {f : Inst} {x : Nat} {T0 : Tab} {s' : World} :
    construct s f x T0 = some s' ↔ s.mem x = none ∧ s.LOG f = none ∧ ∃ T, tables f.w f.M f.P T0 = some T ∧
      s' = ⟨upd s.LOG f (some x), upd s.EXP f (some x), upd s.mem x (some (f, T))⟩ := by
  unfold construct
  cases h1 : s.mem x with
  | some o => rw [as_false (by simp)]; simp
  | none =>
    rw [as_true (by simp)]
    cases h2 : s.LOG f with
    | some o => rw [as_false (by simp)]; simp
    | none =>
      rw [as_true (by simp), as_true (by rw [← I.same, h2]; rfl)]
      cases h3 : tables f.w f.M f.P T0 with
      | none => simp [bind, Option.bind]
      | some T =>
        simp only [bind, Option.bind, pure, Option.some.injEq, true_and]
        constructor
        · rintro rfl; exact ⟨T, rfl, rfl⟩
        · rintro ⟨_, rfl, rfl⟩; rfl

theorem copy_eq {s : World} {x y : Nat} {s' : World} :
    copy s x y = some s' ↔ s.mem x = none ∧ ∃ o, s.mem y = some o ∧ s' = { s with mem := upd s.mem x (some o) } := by
  unfold copy
  cases h1 : s.mem x with
  | some o => rw [as_false (by simp)]; simp
  | none =>
    rw [as_true (by simp)]
    cases h2 : s.mem y with
    | none => simp [bind, Option.bind]
    | some o =>
      simp only [bind, Option.bind, pure, Option.some.injEq, true_and]
      constructor
      · rintro rfl; exact ⟨o, rfl, rfl⟩
      · rintro ⟨_, rfl, rfl⟩; rfl

theorem assign_eq {s : World} {x y : Nat} {s' : World} :
    assign s x y = some s' ↔ ∃ f T T', s.mem x = some (f, T) ∧ s.mem y = some (f, T') ∧ s' = { s with mem := upd s.mem x (some (f, T')) } := by
  unfold assign
  cases h1 : s.mem x with
  | none => simp [bind, Option.bind]
  | some a =>
    cases h2 : s.mem y with
    | none => simp [bind, Option.bind]
    | some b =>
      obtain ⟨f, T⟩ := a
      obtain ⟨g, T'⟩ := b
      simp only [bind, Option.bind, pure, Option.some.injEq, Prod.mk.injEq]
      by_cases h : f = g
      · subst h
        simp only [assertUB, if_true, Option.some.injEq]
        constructor
        · rintro rfl; exact ⟨f, T, T', ⟨rfl, rfl⟩, ⟨rfl, rfl⟩, rfl⟩
        · rintro ⟨_, _, _, ⟨rfl, rfl⟩, ⟨-, rfl⟩, rfl⟩; rfl
      · simp only [assertUB, if_neg h]
        constructor
        · rintro ⟨⟩
        · rintro ⟨_, _, _, ⟨rfl, rfl⟩, ⟨rfl, rfl⟩, rfl⟩; exact absurd rfl h

theorem destroy_eq {s : World} (I : Inv s) {x : Nat} {s' : World} :
    destroy s x = some s' ↔ ∃ f T, s.mem x = some (f, T) ∧ s.LOG f ≠ none ∧ s' = ⟨upd s.LOG f none, upd s.EXP f none, upd s.mem x none⟩ := by
  unfold destroy
  cases h1 : s.mem x with
  | none => simp [bind, Option.bind]
  | some o =>
    obtain ⟨f, T⟩ := o
    show (assertUB _ >>= _) = _ ↔ _
    cases h2 : s.LOG f with
    | none =>
      rw [as_false (by simp [h2])]
      constructor
      · rintro ⟨⟩
      · rintro ⟨g, _, h, h', -⟩
        cases h; exact absurd h2 h'
    | some p =>
      rw [as_true (by simp [h2]), as_true (by rw [← I.same]; simp [h2])]
      simp only [pure, Option.some.injEq]
      constructor
      · rintro rfl; exact ⟨f, T, rfl, by rw [h2]; simp, rfl⟩
      · rintro ⟨_, _, h, _, rfl⟩; cases h; rfl

/-- The step of the objects, whatever the program. -/
theorem step_inv {s : World} (I : Inv s) {op : Op} (hw : op.Wf) {s' : World} {o : List Nat} (h : step s op = some (s', o)) : Inv s' := by
  have hb : ∀ (r : Option World), (do let s ← r; return (s, ([] : List Nat))) = some (s', o) → r = some s' := by
    intro r h
    cases r with
    | none => simp [bind, Option.bind] at h
    | some v =>
      simp only [bind, Option.bind, pure, Option.some.injEq, Prod.mk.injEq] at h
      rw [h.1]
  have hb2 : ∀ (r : Option Nat), (do let i ← r; return (s, [i])) = some (s', o) → s' = s := by
    intro r h
    cases r with
    | none => simp [bind, Option.bind] at h
    | some v =>
      simp only [bind, Option.bind, pure, Option.some.injEq, Prod.mk.injEq] at h
      exact h.1.symm
  cases op with
  | construct f x T0 =>
    obtain ⟨h1, h2, T, h3, rfl⟩ := (construct_eq I).1 (hb _ h)
    obtain ⟨w1, w2, w3, w4⟩ := hw
    refine ⟨by simp only [I.same], fun y g T' hy => ?_, fun g y hy => ?_⟩
    · simp only [upd] at hy
      split at hy
      · simp only [Option.some.injEq, Prod.mk.injEq] at hy
        obtain ⟨rfl, rfl⟩ := hy
        exact ⟨w1, w2, w3, T0, w4, h3⟩
      · exact I.ready y g T' hy
    · simp only [upd] at hy ⊢
      split at hy
      · rename_i hg
        cases hy
        exact ⟨T, by rw [if_pos rfl, hg]⟩
      · obtain ⟨T', hT⟩ := I.points g y hy
        refine ⟨T', ?_⟩
        rw [if_neg, hT]
        rintro rfl
        rw [h1] at hT; cases hT
  | copy x y =>
    obtain ⟨h1, o', h2, rfl⟩ := copy_eq.1 (hb _ h)
    refine ⟨I.same, fun z g T' hy => ?_, fun g z hy => ?_⟩
    · simp only [upd] at hy
      split at hy
      · cases hy; exact I.ready y g T' h2
      · exact I.ready z g T' hy
    · obtain ⟨T', hT⟩ := I.points g z hy
      refine ⟨T', ?_⟩
      simp only [upd]
      rw [if_neg, hT]
      rintro rfl
      rw [h1] at hT; cases hT
  | assign x y =>
    obtain ⟨f, T, T', h1, h2, rfl⟩ := assign_eq.1 (hb _ h)
    refine ⟨I.same, fun z g T' hy => ?_, fun g z hy => ?_⟩
    · simp only [upd] at hy
      split at hy
      · cases hy; exact I.ready y _ _ h2
      · exact I.ready z g T' hy
    · obtain ⟨T'', hT⟩ := I.points g z hy
      simp only [upd]
      split
      · rename_i hz
        subst hz
        rw [h1] at hT; cases hT
        exact ⟨T', rfl⟩
      · exact ⟨T'', hT⟩
  | destroy x =>
    obtain ⟨f, T, h1, h2, rfl⟩ := (destroy_eq I).1 (hb _ h)
    refine ⟨by simp only [I.same], fun z g T' hy => ?_, fun g z hy => ?_⟩
    · simp only [upd] at hy
      split at hy
      · cases hy
      · exact I.ready z g T' hy
    · simp only [upd] at hy ⊢
      split at hy
      · cases hy
      · rename_i hg
        obtain ⟨T', hT⟩ := I.points g z hy
        refine ⟨T', ?_⟩
        rw [if_neg, hT]
        rintro rfl
        rw [h1] at hT; cases hT
        exact hg rfl
  | index f a => rw [hb2 _ h]; exact I
  | value f i => rw [hb2 _ h]; exact I

theorem indexAt_eq {s : World} (I : Inv s) {f : Inst} {a : Nat} :
    (indexAt s f a = none ↔ s.LOG f = none ∨ a = 0 ∨ 2 ^ f.M ≤ a) ∧ ∀ i, indexAt s f a = some i → i < 2 ^ f.M - 1 ∧ xR f.P ^ i = toR f.P a := by
  unfold indexAt
  cases h : s.LOG f with
  | none => simp [bind, Option.bind]
  | some x =>
    obtain ⟨T, hT⟩ := I.points f x h
    have R := I.ready x f T hT
    simp only [hT, bind, Option.bind]
    simp only [assertUB, if_true, reduceCtorEq, false_or]
    have hQ : 0 < 2 ^ f.M := by positivity
    by_cases h0 : a = 0
    · subst h0
      have : index f.w f.M T 0 = none := by
        unfold index
        rw [as_true (by omega), as_false (by simp)]
      rw [this]; simp
    · by_cases h1 : a < 2 ^ f.M
      · obtain ⟨i, e1, e2, -, e4⟩ := (C18_inverse R).2 a h0 (by omega)
        rw [e1]
        refine ⟨by simp; omega, fun j hj => ?_⟩
        cases hj
        exact ⟨e2, e4.symm⟩
      · have : index f.w f.M T a = none := by
          unfold index
          rw [as_false (by rw [gN_eq]; omega)]
        rw [this]
        simp; omega

theorem valueAt_eq {s : World} (I : Inv s) {f : Inst} {i : Nat} :
    (valueAt s f i = none ↔ s.LOG f = none ∨ 2 ^ f.M - 1 ≤ i) ∧ ∀ v, valueAt s f i = some v → v < 2 ^ f.M ∧ toR f.P v = xR f.P ^ i := by
  unfold valueAt
  rw [← I.same]
  cases h : s.LOG f with
  | none => simp [bind, Option.bind]
  | some x =>
    obtain ⟨T, hT⟩ := I.points f x h
    have R := I.ready x f T hT
    simp only [hT, bind, Option.bind]
    simp only [assertUB, if_true, reduceCtorEq, false_or]
    have hQ : 0 < 2 ^ f.M := by positivity
    by_cases h1 : i < 2 ^ f.M - 1
    · obtain ⟨v, e1, -, e2, -, e4⟩ := (C18_inverse R).1 i h1
      rw [e1]
      refine ⟨by simp; omega, fun j hj => ?_⟩
      cases hj
      exact ⟨by omega, e4⟩
    · have : value f.w f.M T i = none := by
        unfold value
        rw [as_false (by rw [gN_eq]; omega)]
      rw [this]
      simp; omega

/-! ### C70 -/

theorem run_cons {s s' : World} {op : Op} {ops : List Op} {o : List Nat} :
    run s (op :: ops) = some (s', o) ↔ ∃ s1 o1 o2, step s op = some (s1, o1) ∧ run s1 ops = some (s', o2) ∧ o = o1 ++ o2 := by
  rw [run]
  cases h : step s op with
  | none => simp [bind, Option.bind]
  | some r =>
    obtain ⟨s1, o1⟩ := r
    simp only [bind, Option.bind, Option.some.injEq, Prod.mk.injEq]
    cases h2 : run s1 ops with
    | none => simp; intro a b _; rw [h2] at b; cases b
    | some r2 =>
      obtain ⟨s2, o2⟩ := r2
      simp only [pure, Option.some.injEq, Prod.mk.injEq]
      constructor
      · rintro ⟨rfl, rfl⟩; exact ⟨s1, o1, o2, ⟨rfl, rfl⟩, h2, rfl⟩
      · rintro ⟨_, _, o2', ⟨rfl, rfl⟩, h3, rfl⟩
        rw [h2] at h3; cases h3
        exact ⟨rfl, rfl⟩

theorem step_w {r : Option World} {s' : World} {o : List Nat} : (do let s ← r; return (s, ([] : List Nat))) = some (s', o) ↔ r = some s' ∧ o = [] := by
  cases r with
  | none => simp [bind, Option.bind]
  | some v => simp [bind, Option.bind, pure, eq_comm]

theorem step_r {r : Option Nat} {s s' : World} {o : List Nat} : (do let i ← r; return (s, [i])) = some (s', o) ↔ s' = s ∧ ∃ i, r = some i ∧ o = [i] := by
  cases r with
  | none => simp [bind, Option.bind]
  | some v => simp [bind, Option.bind, pure, eq_comm]

theorem results_of {s : World} (I : Inv s) {h : List Op} (hw : ∀ op ∈ h, op.Wf) {s' : World} {o : List Nat} (hr : run s h = some (s', o)) :
    Results h o ∧ Inv s' := by
  induction h generalizing s o with
  | nil => simp only [run, Option.some.injEq, Prod.mk.injEq] at hr; obtain ⟨rfl, rfl⟩ := hr; exact ⟨.nil, I⟩
  | cons op h ih =>
    obtain ⟨s1, o1, o2, e1, e2, rfl⟩ := run_cons.1 hr
    have I1 := step_inv I (hw op (by simp)) e1
    obtain ⟨r, I2⟩ := ih I1 (fun q hq => hw q (by simp [hq])) e2
    refine ⟨?_, I2⟩
    cases op with
    | construct f x T0 => obtain ⟨-, rfl⟩ := step_w.1 e1; exact .construct r
    | copy x y => obtain ⟨-, rfl⟩ := step_w.1 e1; exact .copy r
    | assign x y => obtain ⟨-, rfl⟩ := step_w.1 e1; exact .assign r
    | destroy x => obtain ⟨-, rfl⟩ := step_w.1 e1; exact .destroy r
    | index f a =>
      obtain ⟨-, i, hi, rfl⟩ := step_r.1 e1
      obtain ⟨h1, h2⟩ := (indexAt_eq I).2 i hi
      exact .index h1 h2 r
    | value f i =>
      obtain ⟨-, v, hi, rfl⟩ := step_r.1 e1
      obtain ⟨h1, h2⟩ := (valueAt_eq I).2 v hi
      exact .value h1 h2 r

/-- **C70** Whatever a program does with objects of these classes (several fields at once, copies, assignments, destruction and construction again), each operation that returns
gives the right result in its own field. -/
theorem C70_results {h : List Op} (hw : ∀ op ∈ h, op.Wf) {s : World} {o : List Nat} (hr : run .init h = some (s, o)) : Results h o :=
  (results_of inv_init hw hr).1

/-- **C70** After any history, an operation with an argument in its domain fails only in the assertion on its null pointer: it never reads the arrays of an object that is gone or
belongs to another field; and `index` and `value` are usable at the same times. -/
theorem C70_null {h : List Op} (hw : ∀ op ∈ h, op.Wf) {s : World} {o : List Nat} (hr : run .init h = some (s, o)) (f : Inst) :
    (∀ a, a ≠ 0 → a < 2 ^ f.M → (indexAt s f a = none ↔ s.LOG f = none)) ∧ (∀ i, i < 2 ^ f.M - 1 → (valueAt s f i = none ↔ s.EXP f = none)) ∧
      (s.LOG f = none ↔ s.EXP f = none) := by
  have I := (results_of inv_init hw hr).2
  refine ⟨fun a h0 h1 => ?_, fun i hi => ?_, by rw [I.same]⟩
  · rw [(indexAt_eq I).1]; constructor
    · rintro (h | h | h)
      · exact h
      · exact absurd h h0
      · omega
    · exact Or.inl
  · rw [(valueAt_eq I).1, I.same]; constructor
    · rintro (h | h)
      · exact h
      · omega
    · exact Or.inl

/-- How the objects and the pointers of a program without copies hang together. -/
structure Rel (S : Objects) (s : World) : Prop where
  obj : ∀ x, S x = (s.mem x).map Prod.fst
  armed : ∀ f, s.LOG f = none ↔ ∀ y, S y ≠ some f
  uniq : ∀ x y f, S x = some f → S y = some f → x = y

theorem history_of {S : Objects} {s : World} (I : Inv s) (R : Rel S s) {h : List Op} (hw : ∀ op ∈ h, op.Wf)
    (hc : ∀ op ∈ h, op.isCopy = false ∧ op.isAssign = false) : (∃ s' o, run s h = some (s', o)) ↔ Intended S h := by
  induction h generalizing S s with
  | nil => simp [run, Intended]
  | cons op h ih =>
    have hw' : ∀ op ∈ h, op.Wf := fun q hq => hw q (by simp [hq])
    have hc' : ∀ op ∈ h, op.isCopy = false ∧ op.isAssign = false := fun q hq => hc q (by simp [hq])
    have key : (∃ s' o, run s (op :: h) = some (s', o)) ↔ ∃ s1 o1, step s op = some (s1, o1) ∧ ∃ s' o, run s1 h = some (s', o) := by
      constructor
      · rintro ⟨s', o, hr⟩
        obtain ⟨s1, o1, o2, e1, e2, -⟩ := run_cons.1 hr
        exact ⟨s1, o1, e1, s', o2, e2⟩
      · rintro ⟨s1, o1, e1, s', o2, e2⟩
        exact ⟨s', _, run_cons.2 ⟨s1, o1, o2, e1, e2, rfl⟩⟩
    rw [key]
    have hwo := hw op (by simp)
    have hco := hc op (by simp)
    have mem_none : ∀ x, S x = none ↔ s.mem x = none := by intro x; rw [R.obj]; simp
    cases op with
    | copy x y => simp [Op.isCopy] at hco
    | assign x y => simp [Op.isAssign] at hco
    | index f a =>
      simp only [Intended]
      have hl : (∃ y, S y = some f) ↔ s.LOG f ≠ none := by rw [ne_eq, R.armed]; simp
      constructor
      · rintro ⟨s1, o1, e1, e2⟩
        obtain ⟨rfl, i, hi, -⟩ := step_r.1 e1
        have hn : ¬ indexAt s1 f a = none := by rw [hi]; simp
        rw [(indexAt_eq I).1] at hn
        push Not at hn
        exact ⟨hl.2 hn.1, hn.2.1, hn.2.2, (ih I R hw' hc').1 e2⟩
      · rintro ⟨h1, h2, h3, h4⟩
        cases hi : indexAt s f a with
        | none =>
          rcases (indexAt_eq I).1.1 hi with h | h | h
          · exact absurd h (hl.1 h1)
          · exact absurd h h2
          · omega
        | some i => exact ⟨s, [i], step_r.2 ⟨rfl, i, hi, rfl⟩, (ih I R hw' hc').2 h4⟩
    | value f i =>
      simp only [Intended]
      have hl : (∃ y, S y = some f) ↔ s.LOG f ≠ none := by rw [ne_eq, R.armed]; simp
      constructor
      · rintro ⟨s1, o1, e1, e2⟩
        obtain ⟨rfl, v, hi, -⟩ := step_r.1 e1
        have hn : ¬ valueAt s1 f i = none := by rw [hi]; simp
        rw [(valueAt_eq I).1] at hn
        push Not at hn
        exact ⟨hl.2 hn.1, hn.2, (ih I R hw' hc').1 e2⟩
      · rintro ⟨h1, h3, h4⟩
        cases hi : valueAt s f i with
        | none =>
          rcases (valueAt_eq I).1.1 hi with h | h
          · exact absurd h (hl.1 h1)
          · omega
        | some v => exact ⟨s, [v], step_r.2 ⟨rfl, v, hi, rfl⟩, (ih I R hw' hc').2 h4⟩
    | construct f x T0 =>
      simp only [Intended]
      have hnext : ∀ T, s.mem x = none → s.LOG f = none → Rel (upd S x (some f)) ⟨upd s.LOG f (some x), upd s.EXP f (some x), upd s.mem x (some (f, T))⟩ := by
        intro T h1 h2
        have hf := (R.armed f).1 h2
        have hx : S x = none := (mem_none x).2 h1
        refine ⟨fun y => ?_, fun g => ?_, fun y z g hy hz => ?_⟩
        · simp only [upd]; split
          · rfl
          · exact R.obj y
        · simp only [upd]
          by_cases hg : g = f
          · subst hg
            rw [if_pos rfl]
            simp only [reduceCtorEq, false_iff, not_forall, ne_eq, not_not]
            exact ⟨x, by rw [if_pos rfl]⟩
          · rw [if_neg hg, R.armed]
            constructor
            · intro h y; split
              · intro e; cases e; exact hg rfl
              · exact h y
            · intro h y e
              refine h y ?_
              rw [if_neg, e]
              rintro rfl; rw [hx] at e; cases e
        · simp only [upd] at hy hz
          split at hy <;> split at hz
          · simp_all
          · cases hy; exact absurd hz (hf z)
          · cases hz; exact absurd hy (hf y)
          · exact R.uniq y z g hy hz
      obtain ⟨w1, w2, w3, w4⟩ := hwo
      constructor
      · rintro ⟨s1, o1, e1, e2⟩
        have I1 := step_inv I (op := .construct f x T0) (show _ ∧ _ ∧ _ ∧ _ from ⟨w1, w2, w3, w4⟩) e1
        obtain ⟨e1, -⟩ := step_w.1 e1
        obtain ⟨h1, h2, T, h3, rfl⟩ := (construct_eq I).1 e1
        refine ⟨(mem_none x).2 h1, (R.armed f).1 h2, (C18_iff w1 w2 w3 w4).1 ⟨T, h3⟩, ?_⟩
        exact (ih I1 (hnext T h1 h2) hw' hc').1 e2
      · rintro ⟨h1, h2, h3, h4⟩
        obtain ⟨T, hT⟩ := (C18_iff w1 w2 w3 w4).2 h3
        have g1 := (mem_none x).1 h1
        have g2 := (R.armed f).2 h2
        have e1 : step s (.construct f x T0) = some (_, []) := step_w.2 ⟨(construct_eq I).2 ⟨g1, g2, T, hT, rfl⟩, rfl⟩
        exact ⟨_, _, e1, (ih (step_inv I (op := .construct f x T0) (show _ ∧ _ ∧ _ ∧ _ from ⟨w1, w2, w3, w4⟩) e1) (hnext T g1 g2) hw' hc').2 h4⟩
    | destroy x =>
      simp only [Intended]
      have hnext : ∀ f T, s.mem x = some (f, T) → Rel (upd S x none) ⟨upd s.LOG f none, upd s.EXP f none, upd s.mem x none⟩ := by
        intro f T h1
        have hx : S x = some f := by rw [R.obj, h1]; rfl
        refine ⟨fun y => ?_, fun g => ?_, fun y z g hy hz => ?_⟩
        · simp only [upd]; split
          · rfl
          · exact R.obj y
        · simp only [upd]
          by_cases hg : g = f
          · subst hg
            rw [if_pos rfl]
            simp only [true_iff]
            intro y; split
            · simp
            · rename_i hy
              intro e; exact hy (R.uniq y x g e hx)
          · rw [if_neg hg, R.armed]
            constructor
            · intro h y; split
              · simp
              · exact h y
            · intro h y e
              refine h y ?_
              rw [if_neg, e]
              rintro rfl; rw [hx] at e; cases e; exact hg rfl
        · simp only [upd] at hy hz
          split at hy
          · cases hy
          · split at hz
            · cases hz
            · exact R.uniq y z g hy hz
      constructor
      · rintro ⟨s1, o1, e1, e2⟩
        have I1 := step_inv I hwo e1
        obtain ⟨e1, -⟩ := step_w.1 e1
        obtain ⟨f, T, h1, h2, rfl⟩ := (destroy_eq I).1 e1
        refine ⟨fun e => ?_, (ih I1 (hnext f T h1) hw' hc').1 e2⟩
        rw [mem_none, h1] at e; cases e
      · rintro ⟨h1, h4⟩
        cases hm : s.mem x with
        | none => exact absurd ((mem_none x).2 hm) h1
        | some p =>
          obtain ⟨f, T⟩ := p
          have hl : s.LOG f ≠ none := by
            intro e
            exact (R.armed f).1 e x (by rw [R.obj, hm]; rfl)
          have e1 : step s (.destroy x) = some (_, []) := step_w.2 ⟨(destroy_eq I).2 ⟨f, T, hm, hl, rfl⟩, rfl⟩
          exact ⟨_, _, e1, (ih (step_inv I hwo e1) (hnext f T hm) hw' hc').2 h4⟩

/-- **C70** A program that never copies or assigns objects runs without undefined behaviour and without a failed assertion exactly when it uses them as intended. -/
theorem C70_history {h : List Op} (hw : ∀ op ∈ h, op.Wf) (hc : ∀ op ∈ h, op.isCopy = false ∧ op.isAssign = false) :
    (∃ s o, run .init h = some (s, o)) ↔ Intended (fun _ => none) h :=
  history_of inv_init ⟨fun _ => rfl, fun _ => by simp [World.init], fun _ _ _ h => by cases h⟩ hw hc

/-! ### Copies -/

theorem count_of {s : World} (I : Inv s) {h : List Op} (hw : ∀ op ∈ h, op.Wf) {c : Nat} {A : Finset Inst} {B : Finset Nat}
    (hA : ∀ f, f ∈ A ↔ s.LOG f ≠ none) (hB : ∀ x, x ∈ B ↔ s.mem x ≠ none) (hAB : B.card = A.card + c) {s' : World} {o : List Nat} (hr : run s h = some (s', o)) :
    ∃ (A : Finset Inst) (B : Finset Nat), (∀ f, f ∈ A ↔ s'.LOG f ≠ none) ∧ (∀ x, x ∈ B ↔ s'.mem x ≠ none) ∧ B.card = A.card + (c + h.countP Op.isCopy) := by
  induction h generalizing s o c A B with
  | nil => simp only [run, Option.some.injEq, Prod.mk.injEq] at hr; obtain ⟨rfl, rfl⟩ := hr; exact ⟨A, B, hA, hB, by simpa using hAB⟩
  | cons op h ih =>
    have hw' : ∀ op ∈ h, op.Wf := fun q hq => hw q (by simp [hq])
    obtain ⟨s1, o1, o2, e1, e2, rfl⟩ := run_cons.1 hr
    have I1 := step_inv I (hw op (by simp)) e1
    rw [List.countP_cons]
    cases op with
    | construct f x T0 =>
      obtain ⟨h1, h2, T, h3, rfl⟩ := (construct_eq I).1 (step_w.1 e1).1
      have := ih I1 hw' (c := c) (A := insert f A) (B := insert x B) ?_ ?_ ?_ e2
      · simpa [Op.isCopy] using this
      · intro g; simp only [Finset.mem_insert, upd, hA]; split <;> simp_all
      · intro g; simp only [Finset.mem_insert, upd, hB]; split <;> simp_all
      · rw [Finset.card_insert_of_notMem (by rw [hB]; simp [h1]), Finset.card_insert_of_notMem (by rw [hA]; simp [h2]), hAB]; omega
    | copy x y =>
      obtain ⟨h1, o', h2, rfl⟩ := copy_eq.1 (step_w.1 e1).1
      have := ih I1 hw' (c := c + 1) (A := A) (B := insert x B) hA ?_ ?_ e2
      · obtain ⟨A', B', q1, q2, q3⟩ := this
        exact ⟨A', B', q1, q2, by rw [q3]; simp [Op.isCopy]; omega⟩
      · intro g; simp only [Finset.mem_insert, upd, hB]; split <;> simp_all
      · rw [Finset.card_insert_of_notMem (by rw [hB]; simp [h1]), hAB]; omega
    | assign x y =>
      obtain ⟨f, T, T', h1, h2, rfl⟩ := assign_eq.1 (step_w.1 e1).1
      have := ih I1 hw' (c := c) (A := A) (B := B) hA ?_ hAB e2
      · simpa [Op.isCopy] using this
      · intro g; simp only [upd, hB]; split <;> simp_all
    | destroy x =>
      obtain ⟨f, T, h1, h2, rfl⟩ := (destroy_eq I).1 (step_w.1 e1).1
      have hx : x ∈ B := by rw [hB, h1]; simp
      have hf : f ∈ A := (hA f).2 h2
      have := ih I1 hw' (c := c) (A := A.erase f) (B := B.erase x) ?_ ?_ ?_ e2
      · simpa [Op.isCopy] using this
      · intro g; simp only [Finset.mem_erase, upd, hA]; split <;> simp_all
      · intro g; simp only [Finset.mem_erase, upd, hB]; split <;> simp_all
      · rw [Finset.card_erase_of_mem hx, Finset.card_erase_of_mem hf, hAB]
        have := Finset.card_pos.2 ⟨f, hf⟩
        omega
    | index f a =>
      obtain ⟨rfl, -⟩ := step_r.1 e1
      have := ih I1 hw' hA hB hAB e2
      simpa [Op.isCopy] using this
    | value f a =>
      obtain ⟨rfl, -⟩ := step_r.1 e1
      have := ih I1 hw' hA hB hAB e2
      simpa [Op.isCopy] using this

/-- **C70** At any time, the living objects are as many as the fields in use plus the copies made so far: every copy leaves an object behind that can no more be destroyed. -/
theorem C70_copies {h : List Op} (hw : ∀ op ∈ h, op.Wf) {s : World} {o : List Nat} (hr : run .init h = some (s, o)) :
    {x | s.mem x ≠ none}.Finite ∧ {f | s.LOG f ≠ none}.Finite ∧ {x | s.mem x ≠ none}.ncard = {f | s.LOG f ≠ none}.ncard + h.countP Op.isCopy := by
  obtain ⟨A, B, h1, h2, h3⟩ := count_of inv_init hw (c := 0) (A := ∅) (B := ∅) (by simp [World.init]) (by simp [World.init]) (by simp) hr
  have e1 : {f | s.LOG f ≠ none} = (A : Set Inst) := by ext f; simp [h1]
  have e2 : {x | s.mem x ≠ none} = (B : Set Nat) := by ext f; simp [h2]
  rw [e1, e2]
  exact ⟨B.finite_toSet, A.finite_toSet, by rw [Set.ncard_coe_finset, Set.ncard_coe_finset, h3]; omega⟩

/-- **C70** So a program that copies an object of such a class even once, and in the end has destroyed all its objects, has undefined behaviour or a failed assertion. -/
theorem C70_copy_never {h : List Op} (hw : ∀ op ∈ h, op.Wf) {s : World} {o : List Nat} (hr : run .init h = some (s, o)) (hend : ∀ x, s.mem x = none) :
    ∀ op ∈ h, op.isCopy = false := by
  have h1 := (C70_copies hw hr).2.2
  have h2 : {x | s.mem x ≠ none} = (∅ : Set Nat) := by ext x; simp [hend x]
  rw [h2, Set.ncard_empty] at h1
  intro op hop
  have : h.countP Op.isCopy = 0 := by omega
  rw [List.countP_eq_zero] at this
  simpa using this op hop

/-- **C70** Destroying any object of a class, original or copy, takes the tables away from all the others: operations of that field fail until an object is constructed again. -/
theorem C70_destroy {h : List Op} (hw : ∀ op ∈ h, op.Wf) {s s' : World} {o : List Nat} (hr : run .init h = some (s, o)) {x : Nat} {f : Inst} {T : Tab}
    (hx : s.mem x = some (f, T)) (hd : destroy s x = some s') : (∀ a, indexAt s' f a = none) ∧ (∀ i, valueAt s' f i = none) ∧
      ∀ g, g ≠ f → (∀ a, indexAt s' g a = indexAt s g a) ∧ ∀ i, valueAt s' g i = valueAt s g i := by
  have I := (results_of inv_init hw hr).2
  obtain ⟨f', T', h1, -, rfl⟩ := (destroy_eq I).1 hd
  rw [hx] at h1; cases h1
  have hn : ∀ g, g ≠ f → ∀ y, s.LOG g = some y → y ≠ x := by
    rintro g hg y hy rfl
    obtain ⟨T', hT⟩ := I.points g y hy
    rw [hx] at hT; cases hT; exact hg rfl
  refine ⟨fun a => by simp [indexAt, upd, bind, Option.bind], fun i => by simp [valueAt, upd, bind, Option.bind], fun g hg => ⟨fun a => ?_, fun i => ?_⟩⟩
  · unfold indexAt
    simp only [upd, if_neg hg]
    cases h : s.LOG g with
    | none => rfl
    | some y => simp only [bind, Option.bind, if_neg (hn g hg y h)]
  · unfold valueAt
    simp only [upd, if_neg hg]
    cases h : s.EXP g with
    | none => rfl
    | some y => simp only [bind, Option.bind, if_neg (hn g hg y (by rw [I.same]; exact h))]

/-! ### Concrete cases -/

/-- GF(16) and GF(8) in bytes. -/
def f16 : Inst := ⟨8, 4, 0b10011⟩
def f8 : Inst := ⟨8, 3, 0b1011⟩
def t0 (n : Nat) : Tab := ⟨List.replicate n 255, List.replicate n 255⟩

/-- Two fields side by side, one of them destroyed and constructed again elsewhere. -/
def prog : List Op := [.construct f16 100 (t0 16), .construct f8 200 (t0 8), .index f16 3, .value f8 4, .destroy 100, .value f8 3, .construct f16 300 (t0 16), .value f16 14,
  .destroy 300, .destroy 200]

example : (run .init prog).map Prod.snd = some [4, 6, 3, 9] := by decide +kernel
example : ∀ op ∈ prog, op.Wf := by
  intro op h
  simp only [prog, List.mem_cons, List.not_mem_nil, or_false] at h
  rcases h with rfl | rfl | rfl | rfl | rfl | rfl | rfl | rfl | rfl | rfl <;> simp [Op.Wf, f16, f8, HasDeg, Sized, t0]
example : ∀ op ∈ prog, op.isCopy = false ∧ op.isAssign = false := by decide
/-- A copy can be made and used, but of the two objects only one can be destroyed, and then the other is useless. -/
example : (run .init [.construct f16 100 (t0 16), .copy 200 100, .index f16 3]).map Prod.snd = some [4] := by decide +kernel
example : (run .init [.construct f16 100 (t0 16), .copy 200 100, .destroy 200, .index f16 3]).isNone := by decide +kernel
example : (run .init [.construct f16 100 (t0 16), .copy 200 100, .destroy 200, .destroy 100]).isNone := by decide +kernel
/-- Two objects of one field at a time are refused, and so is a use before construction. -/
example : (run .init [.construct f16 100 (t0 16), .construct f16 200 (t0 16)]).isNone := by decide +kernel
example : (run .init [.index f16 3]).isNone := by decide +kernel

end Verif.GF
