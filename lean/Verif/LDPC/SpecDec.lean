import Verif.LDPC.Spec
/- Specification of the LDPC decoder's iteration: self-corrected offset min-sum message passing between checks and variables, with
saturating 8-bit arithmetic.  Independent of the decoder's data layout. -/
namespace Verif.LDPC

/-- The variables of the code: data bit `i` and parity bit `i`. -/
inductive Var where
  | data (i : Nat)
  | par (i : Nat)
  deriving DecidableEq

/-- The variables of check `c`. -/
def Table.vars (T : Table) (c : Nat) : List Var :=
  (T.feeds c).map Var.data ++ (Var.par c :: if c = 0 then [] else [Var.par (c - 1)])

/-- Saturation to `int8_t`. -/
def sat (x : Int) : Int := max (-128) (min x 127)

/-- What message passing keeps: the soft value of each variable and the last message of each check to each of its variables. -/
@[ext] structure Soft where
  val : Var → Int
  msg : Nat → Var → Int

/-- What variable `v` tells check `c`: its value without the check's last message. -/
def hear (s : Soft) (c : Nat) (v : Var) : Int := sat (s.val v - s.msg c v)

/-- The sign of a soft value as `±1`; zero counts as positive. -/
def neg (x : Int) : Int := if x < 0 then -1 else 1

/-- The magnitude, reduced by the offset `β`. -/
def mag (β x : Int) : Int := max (min |x| 127 - β) 0

/-- Offset min-sum: the product of the signs times the smallest magnitude, but at most 31. -/
def combine (β : Int) (l : List Int) : Int := (l.map neg).prod * (l.map (mag β)).foldl min 31

/-- Self-correction: a message that contradicts the last one is replaced by zero. -/
def corr (old new : Int) : Int := if (old < 0 ∧ 0 < new) ∨ (0 < old ∧ new < 0) then 0 else new

/-- The new message of check `c` to its variable `v`: made from what the other variables tell. -/
def answer (T : Table) (β : Int) (s : Soft) (c : Nat) (v : Var) : Int :=
  corr (s.msg c v) (combine β (((T.vars c).erase v).map (hear s c)))

/-- Check `c` sends new messages to all its variables, which take them into account at once. -/
def checkStep (T : Table) (β : Int) (s : Soft) (c : Nat) : Soft where
  val v := if v ∈ T.vars c then sat (hear s c v + answer T β s c v) else s.val v
  msg c' v := if c' = c ∧ v ∈ T.vars c then answer T β s c v else s.msg c' v

/-- The order in which the decoder visits the checks, for `D` lanes: the checks `q t + i` for `i = 0 .. q-1`, then by `t` modulo
`W = M / D`. -/
def schedule (T : Table) (D : Nat) : List Nat :=
  (List.range T.q).flatMap fun i => (List.range (T.M / D)).flatMap fun j => (List.range D).map fun n => T.q * (T.M / D * n + j) + i

/-- One iteration: every check is visited once. -/
def iteration (T : Table) (β : Int) (D : Nat) (s : Soft) : Soft := (schedule T D).foldl (checkStep T β) s

/-- Start: the received values, no messages yet. -/
def start (message parity : List Int) : Soft where
  val
    | .data i => message.getD i 0
    | .par i => parity.getD i 0
  msg _ _ := 0

/-! Checks that share variables.  The decoder handles the `D` checks of a layer at once; if several of them share a data bit, they
take turns: `act τ c x` says whether in iteration `τ` check `c` may send a new message to data bit `x`. -/

/-- The checks of layer `(i, j)`. -/
def layerChecks (T : Table) (D i j : Nat) : List Nat := (List.range D).map fun n => T.q * (T.M / D * n + j) + i

open Classical in
/-- One layer: the checks `cs` hear all their variables, but send new messages only where they may. -/
noncomputable def layerStep (T : Table) (β : Int) (act : Nat → Nat → Prop) (s : Soft) (cs : List Nat) : Soft where
  val v := match cs.find? fun c => decide (v ∈ T.vars c ∧ ∀ x, v = .data x → act c x) with
    | some c => sat (hear s c v + answer T β s c v)
    | none => s.val v
  msg c v := if c ∈ cs ∧ v ∈ T.vars c ∧ ∀ x, v = .data x → act c x then answer T β s c v else s.msg c v

/-- One iteration: every layer is visited once. -/
noncomputable def turnIteration (T : Table) (β : Int) (D : Nat) (act : Nat → Nat → Prop) (s : Soft) : Soft :=
  ((List.range T.q).flatMap fun i => (List.range (T.M / D)).map fun j => layerChecks T D i j).foldl (layerStep T β act) s

/-- `m` iterations, when `N` iterations had been made before. -/
noncomputable def turns (T : Table) (β : Int) (D : Nat) (act : Nat → Nat → Nat → Prop) (N : Nat) (s : Soft) : Nat → Soft
  | 0 => s
  | m + 1 => turnIteration T β D (act (N + m)) (turns T β D act N s m)

/-- Taking turns: in each iteration exactly one of the checks of a layer that share data bit `x` may write it, and there is a
number `g` of iterations in which each of them may write it exactly once, wherever we start to count. -/
structure RoundRobin (T : Table) (D : Nat) (act : Nat → Nat → Nat → Prop) : Prop where
  one : ∀ i < T.q, ∀ j < T.M / D, ∀ c ∈ layerChecks T D i j, ∀ x ∈ T.feeds c, ∀ τ,
    ∃! c', (c' ∈ layerChecks T D i j ∧ x ∈ T.feeds c') ∧ act τ c' x
  fair : ∀ i < T.q, ∀ j < T.M / D, ∀ c ∈ layerChecks T D i j, ∀ x ∈ T.feeds c, ∃ g, 0 < g ∧
    ∀ c' ∈ layerChecks T D i j, x ∈ T.feeds c' → ∀ τ, ∃! δ, δ < g ∧ act (τ + δ) c' x

end Verif.LDPC
