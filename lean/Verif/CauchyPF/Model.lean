import Verif.PrimeField.Model
/- Model of cauchy_prime_field_erasure_coding.hh over the prime field of prime_field.hh
(Verif/PrimeField/Model.lean): `w` is the number of bits of the field's type, `P` the prime, `wio`
the number of bits of the type `IO`, `L` the template argument MAX_LEN.  `int` values are naturals
(`P` is assumed to fit in an `int`, as `int(PF::P)` does in the code). -/
namespace Verif.CauchyPF
open Verif.PrimeField

/-- cauchy_prime_field_erasure_coding.hh:15-17: the members. -/
structure St where
  temp : List Nat
  used : List Nat
  num : Nat
  den : Nat

variable (w P wio : Nat)

/-- prime_field.hh:15-17: the constructor `PF(v)`, conversion to the unsigned type. -/
def pf (v : Nat) : Nat := v % 2 ^ w

/-- cauchy_prime_field_erasure_coding.hh:19-23 `cauchy_matrix` -/
def cauchyMatrix (i j : Nat) : Nat := rcp w P (opAdd w P (pf w i) (pf w j))

/-- cauchy_prime_field_erasure_coding.hh:48-52, 63-67 with the `--r` of the loop header: the lazy
reductions at the end of an iteration. -/
def tick (s : Nat × Nat × Nat) : Nat × Nat × Nat :=
  if s.2.2 = 0 then (reduce P s.1, reduce P s.2.1, 3 - 1) else (s.1, s.2.1, s.2.2 - 1)

/-- cauchy_prime_field_erasure_coding.hh:42-55: the products that depend on the column only. -/
def rowProducts (rows : List Nat) (i n : Nat) : Option (Nat × Nat) := do
  let s ← forUp 0 n (pf w 1, pf w 1, 2) fun k s => do
    let row ← rd rows k
    let num := mul w s.1 (add w (pf w row) (pf w i))
    let den := if k ≠ i then mul w s.2.1 (sub w P (pf w i) (pf w k)) else s.2.1
    return tick P (num, den, s.2.2)
  return (reduce P s.1, reduce P s.2.1)

/-- cauchy_prime_field_erasure_coding.hh:41-56: the members are recomputed at the first block. -/
def rowInit (st : Nat × Nat) (rows : List Nat) (i j n : Nat) : Option (Nat × Nat) :=
  if j = 0 then rowProducts w P rows i n else some st

/-- cauchy_prime_field_erasure_coding.hh:25-73 `inverse_cauchy_matrix` (the `#else` branch); `st` are
the members `row_num`, `row_den`. -/
def inverseCauchy (st : Nat × Nat) (rows : List Nat) (i j n : Nat) : Option (Nat × (Nat × Nat)) := do
  let row_j ← rd rows j
  let st ← rowInit w P st rows i j n
  let s ← forUp 0 n (st.1, st.2, 2) fun k s => do
    let row ← rd rows k
    let num := mul w s.1 (add w (pf w row_j) (pf w k))
    let den := if k ≠ j then mul w s.2.1 (sub w P (pf w row_j) (pf w row)) else s.2.1
    return tick P (num, den, s.2.2)
  let num := reduce P s.1
  let den := reduce P s.2.1
  return (opDiv w P num (opMul w P (add w (pf w row_j) (pf w i)) den), st)

/-- cauchy_prime_field_erasure_coding.hh:74-89 `mac`; `off` is the offset of the pointer in `a`. -/
def mac (temp a : List Nat) (off b len : Nat) (first last : Bool) : Option (List Nat) :=
  if first && last then
    forUp 0 len temp fun i temp => do
      let x ← rd a (off + i)
      wr temp i (opMul w P b (pf w x))
  else if first then
    forUp 0 len temp fun i temp => do
      let x ← rd a (off + i)
      wr temp i (mul w b (pf w x))
  else if last then
    forUp 0 len temp fun i temp => do
      let x ← rd a (off + i)
      let t ← rd temp i
      wr temp i (reduce P (add w t (mul w b (pf w x))))
  else
    forUp 0 len temp fun i temp => do
      let x ← rd a (off + i)
      let t ← rd temp i
      wr temp i (add w t (mul w b (pf w x)))

/-- cauchy_prime_field_erasure_coding.hh:90-106 `mac_sub`; conversion of the result to `IO`. -/
def macSub (c temp a : List Nat) (off b s len : Nat) (first last : Bool) : Option (List Nat × List Nat) :=
  let v := P - 1
  if first && last then
    forUp 0 len (c, temp) fun i (c, temp) => do
      let x ← rd a (off + i)
      let c ← wr c i (opMul w P b (pf w (if x = s then v else x)) % 2 ^ wio)
      return (c, temp)
  else if first then
    forUp 0 len (c, temp) fun i (c, temp) => do
      let x ← rd a (off + i)
      let temp ← wr temp i (mul w b (pf w (if x = s then v else x)))
      return (c, temp)
  else if last then
    forUp 0 len (c, temp) fun i (c, temp) => do
      let x ← rd a (off + i)
      let t ← rd temp i
      let c ← wr c i (reduce P (add w t (mul w b (pf w (if x = s then v else x)))) % 2 ^ wio)
      return (c, temp)
  else
    forUp 0 len (c, temp) fun i (c, temp) => do
      let x ← rd a (off + i)
      let t ← rd temp i
      let temp ← wr temp i (add w t (mul w b (pf w (if x = s then v else x))))
      return (c, temp)

/-- cauchy_prime_field_erasure_coding.hh:113-115: the search for the first bit that is not set. -/
def searchUnused (used : List Nat) : Nat → Nat → Option Nat
  | 0, _ => none
  | f + 1, s => do
    let u ← rd used (s / 8)
    if u &&& 1 <<< (s % 8) ≠ 0 then searchUnused used f (s + 1) else some s

/-- cauchy_prime_field_erasure_coding.hh:107-117 `find_unused`; the fuel of the search is more than
the number of bits of the array, so running out of it is running out of the array. -/
def findUnused (used temp : List Nat) (len : Nat) : Option (Nat × List Nat) := do
  let used ← forUp 0 ((P + 7) / 8) used fun i used => wr used i 0
  let used ← forUp 0 len used fun i used => do
    let t ← rd temp i
    let u ← rd used (t / 8)
    wr used (t / 8) ((u ||| 1 <<< (t % 8)) % 2 ^ 8)
  let s ← searchUnused used (P + 8) 0
  return (s, used)

/-- cauchy_prime_field_erasure_coding.hh:124, 136: the product `block_len * k` is computed in `int` before it is added to the pointer. -/
def intMul (x y : Nat) : Option Nat := do
  assertUB (x * y < 2 ^ 31)
  return x * y

/-- cauchy_prime_field_erasure_coding.hh:118-130 `encode`; returns the array `block`, the result
`sub` and the members.  `L` is MAX_LEN. -/
def encode (L : Nat) (st : St) (data block : List Nat) (block_id block_len block_cnt : Nat) :
    Option (List Nat × Nat × St) := do
  assertUB (block_cnt ≤ block_id ∧ block_id < P / 2)
  assertUB (block_len ≤ L)
  let temp ← forUp 0 block_cnt st.temp fun k temp => do
    let off ← intMul block_len k
    mac w P temp data off (cauchyMatrix w P block_id k) block_len (k == 0) (k == block_cnt - 1)
  let (s, used) ← findUnused P st.used temp block_len
  let block ← forUp 0 block_len block fun i block => do
    let t ← rd temp i
    wr block i ((if t = P - 1 then s else t) % 2 ^ wio)
  return (block, s, { st with temp := temp, used := used })

/-- cauchy_prime_field_erasure_coding.hh:131-138 `decode`; returns the array `data` and the members. -/
def decode (L : Nat) (st : St) (data blocks block_subs block_ids : List Nat) (block_idx block_len block_cnt : Nat) :
    Option (List Nat × St) := do
  assertUB (block_len ≤ L)
  forUp 0 block_cnt (data, st) fun k (data, st) => do
    let (b, m) ← inverseCauchy w P (st.num, st.den) block_ids block_idx k block_cnt
    let s ← rd block_subs k
    let off ← intMul block_len k
    let (data, temp) ← macSub w P wio data st.temp blocks off b s block_len (k == 0) (k == block_cnt - 1)
    return (data, { st with temp := temp, num := m.1, den := m.2 })

end Verif.CauchyPF
