import Verif.GF.Model
/- Model of the lifetime of the tables of galois_field.hh: the static pointers `LOG` and `EXP` of each instantiation, and the objects whose arrays they point to. -/
namespace Verif.GF

/-- An instantiation `GaloisField<M, P, TYPE>` with `TYPE` of `w` bits (galois_field.hh:307-319); each has its own statics. -/
structure Inst where
  w : Nat
  M : Nat
  P : Nat
deriving DecidableEq

/-- The memory: the pointers `LOG` and `EXP` of each instantiation (galois_field.hh:89, 130-134), as the address of the object whose member array they point to, or `none` for
`nullptr`; and for each address the object of class `GaloisField` that lives there, with its arrays `log_` and `exp_` (galois_field.hh:90). -/
structure World where
  LOG : Inst → Option Nat
  EXP : Inst → Option Nat
  mem : Nat → Option (Inst × Tab)

/-- galois_field.hh:130-134: at the start of the program statics are zero, and there is no object. -/
def World.init : World := ⟨fun _ => none, fun _ => none, fun _ => none⟩

/-- Storing to one element. -/
def upd {α β : Type} [DecidableEq α] (g : α → β) (x : α) (v : β) : α → β := fun y => if y = x then v else g y

/-- What a program does with the class. `index` and `value` stand for all operations that use the tables. -/
inductive Op where
  /-- an object is constructed at address `x`; `T0` is what its arrays hold before -/
  | construct (f : Inst) (x : Nat) (T0 : Tab)
  /-- an object is copy constructed at address `x` from the one at `y` -/
  | copy (x y : Nat)
  /-- the object at `x` is assigned the one at `y` -/
  | assign (x y : Nat)
  /-- the object at `x` is destroyed -/
  | destroy (x : Nat)
  /-- `index(Value(a))` in the field `f` -/
  | index (f : Inst) (a : Nat)
  /-- `value(Index(i))` in the field `f` -/
  | value (f : Inst) (i : Nat)

/-- galois_field.hh:107-120 `Tables::Tables()`; the arrays are filled as in `tables`.  Constructing over a living object is not allowed. -/
def construct (s : World) (f : Inst) (x : Nat) (T0 : Tab) : Option World := do
  assertUB ((s.mem x).isNone)
  assertUB ((s.LOG f).isNone)
  let LOG := upd s.LOG f (some x)
  assertUB ((s.EXP f).isNone)
  let EXP := upd s.EXP f (some x)
  let T ← tables f.w f.M f.P T0
  return ⟨LOG, EXP, upd s.mem x (some (f, T))⟩

/-- The implicit copy constructor: the class declares none, so the arrays are copied and the statics are not touched. -/
def copy (s : World) (x y : Nat) : Option World := do
  assertUB ((s.mem x).isNone)
  let o ← s.mem y
  return { s with mem := upd s.mem x (some o) }

/-- The implicit assignment operator, between objects of the same class. -/
def assign (s : World) (x y : Nat) : Option World := do
  let a ← s.mem x
  let b ← s.mem y
  assertUB (a.1 = b.1)
  return { s with mem := upd s.mem x (some b) }

/-- galois_field.hh:121-127 `Tables::~Tables()` -/
def destroy (s : World) (x : Nat) : Option World := do
  let o ← s.mem x
  assertUB ((s.LOG o.1).isSome)
  let LOG := upd s.LOG o.1 none
  assertUB ((s.EXP o.1).isSome)
  let EXP := upd s.EXP o.1 none
  return ⟨LOG, EXP, upd s.mem x none⟩

/-- galois_field.hh:136-142 `index` with 95-100 `Tables::log`: the pointer must not be null (assertion) and must point into a living object of that class. -/
def indexAt (s : World) (f : Inst) (a : Nat) : Option Nat := do
  let x ← s.LOG f
  let o ← s.mem x
  assertUB (o.1 = f)
  index f.w f.M o.2 a

/-- galois_field.hh:144-148 `value` with 101-106 `Tables::exp` -/
def valueAt (s : World) (f : Inst) (i : Nat) : Option Nat := do
  let x ← s.EXP f
  let o ← s.mem x
  assertUB (o.1 = f)
  value f.w f.M o.2 i

/-- One step; the second component is the result of the operation, if it has one. -/
def step (s : World) : Op → Option (World × List Nat)
  | .construct f x T0 => do let s ← construct s f x T0; return (s, [])
  | .copy x y => do let s ← copy s x y; return (s, [])
  | .assign x y => do let s ← assign s x y; return (s, [])
  | .destroy x => do let s ← destroy s x; return (s, [])
  | .index f a => do let i ← indexAt s f a; return (s, [i])
  | .value f i => do let v ← valueAt s f i; return (s, [v])

/-- A program: the results of its operations in order. -/
def run (s : World) : List Op → Option (World × List Nat)
  | [] => some (s, [])
  | op :: ops => do
    let (s, o) ← step s op
    let (s, os) ← run s ops
    return (s, o ++ os)

end Verif.GF
