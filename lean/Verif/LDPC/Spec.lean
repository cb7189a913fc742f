import Verif.LDPC.Model
import Mathlib.Algebra.BigOperators.Group.List.Basic
/- Specification of the LDPC codes: what a table means (as in the DVB standards), independently of the encoder and the decoder. -/
namespace Verif.LDPC

/-- The degree of each row: `LEN[0]` rows have degree `DEG[0]`, `LEN[1]` rows degree `DEG[1]`, ..., up to the first `0` in `LEN`. -/
def degsOf : List Nat → List Nat → List Nat
  | 0 :: _, _ => []
  | l :: ls, d :: ds => List.replicate l d ++ degsOf ls ds
  | _, _ => []

/-- The rows of the table: `POS` cut into pieces of the given lengths, each entry with the number of its row. -/
def cut (r : Nat) : List Nat → List Nat → List (Nat × Nat)
  | [], _ => []
  | d :: ds, pos => (pos.take d).map (fun x => (r, x)) ++ cut (r + 1) ds (pos.drop d)

namespace Table
def degs (T : Table) : List Nat := degsOf T.LEN T.DEG
/-- All entries `(r, x)`: address `x` in row `r` of the table. -/
def entries (T : Table) : List (Nat × Nat) := cut 0 T.degs T.POS

/-- A table describes a code: `K` and `N - K` are multiples of `M`, `LEN` is terminated by a zero and `DEG` and `POS` are long
enough, there is one row for each group of `M` data bits, the addresses are below `N - K`, and each residue class of addresses
modulo `q` has at least one and at most `LINKS_MAX_CN - 2` entries. -/
structure WF (T : Table) : Prop where
  hM : 0 < T.M
  hK : T.K = T.M * (T.K / T.M)
  hR : T.R = T.q * T.M
  hq : 0 < T.q
  hterm : (T.LEN.takeWhile (· != 0)).length < T.LEN.length
  hdeg : (T.LEN.takeWhile (· != 0)).length ≤ T.DEG.length
  hpos : T.degs.sum ≤ T.POS.length
  hrows : T.degs.length = T.K / T.M
  hx : ∀ x ∈ T.POS.take T.degs.sum, x < T.R
  hcnt : ∀ n < T.q, 0 < (T.POS.take T.degs.sum).countP (· % T.q == n) ∧
    (T.POS.take T.degs.sum).countP (· % T.q == n) ≤ T.CNC
  hCNC : T.CNC ≤ 30
  hK16 : T.K ≤ 65536

/-- The data bits that take part in check `c`: bit `s` of group `r` takes part in check `(x + q s) mod R` for each entry `x` of
row `r`. -/
def feeds (T : Table) (c : Nat) : List Nat :=
  T.entries.flatMap fun e => ((List.range T.M).filter fun s => (e.2 + T.q * s) % T.R == c).map fun s => T.M * e.1 + s

/-- Check `c` of the code on `(data, parity)` given as numbers whose sign carries the bit: the product of the signs of its data
bits, of its parity bit and of the previous parity bit is `1`.  A zero is no decision, so it violates its checks. -/
def checkOk (T : Table) (data parity : Nat → Int) (c : Nat) : Prop :=
  (((T.feeds c).map fun i => (data i).sign).prod * (parity c).sign * (if c = 0 then 1 else (parity (c - 1)).sign)) = 1

end Table
end Verif.LDPC
