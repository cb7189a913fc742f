import Verif.Core
/- Model of hadamard_encoder.hh, hadamard_decoder.hh, simplex_encoder.hh and simplex_decoder.hh.
`int` is `Int` with a check at every arithmetic operation that can overflow (`none`: undefined
behaviour); soft values are `Int` too.  Local arrays start with arbitrary content. -/
namespace Verif.Hadamard

/-- The value of an `int` expression. -/
def chk (x : Int) : Option Int := if -2 ^ 31 ≤ x ∧ x < 2 ^ 31 then some x else none

/-! ### Encoders -/

/-- hadamard_encoder.hh:18-26, simplex_encoder.hh:18-26 `parity`; the argument is an `unsigned`. -/
def parity (x : Nat) : Bool :=
  let x := x ^^^ (x >>> 16)
  let x := x ^^^ (x >>> 8)
  let x := x ^^^ (x >>> 4)
  let x := x ^^^ (x >>> 2)
  let x := x ^^^ (x >>> 1)
  x &&& 1 ≠ 0

/-- hadamard_encoder.hh:28-32, simplex_encoder.hh:28-32: the constructors fill the table `mod` of
`1 << K` entries. -/
def mkMod (K : Nat) (mod : List Int) : Option (List Int) :=
  forUp 0 (2 ^ K) mod fun i mod => wr mod i (1 - 2 * (if parity i then 1 else 0))

/-- hadamard_encoder.hh:33-37 `operator()` with `N = 1 << (K - 1)`. -/
def hadEncode (K : Nat) (mod code : List Int) (msg : Nat) : Option (List Int) :=
  forUp 0 (2 ^ (K - 1)) code fun i code => do
    let m ← rd mod (msg &&& (i ||| 2 ^ (K - 1)))
    wr code i m

/-- simplex_encoder.hh:33-37 `operator()` with `N = (1 << K) - 1`. -/
def simEncode (K : Nat) (mod code : List Int) (msg : Nat) : Option (List Int) :=
  forUp 0 (2 ^ K - 1) code fun i code => do
    let m ← rd mod (msg &&& (i + 1))
    wr code i m

/-! ### Decoders -/

/-- hadamard_decoder.hh:26-29, simplex_decoder.hh:28-31: one butterfly. -/
def butterfly (h : Nat) (j : Nat) (sum : List Int) : Option (List Int) := do
  let a ← rd sum j
  let b ← rd sum (j + h)
  let x ← chk (a + b)
  let y ← chk (a - b)
  let sum ← wr sum j x
  wr sum (j + h) y

/-- hadamard_decoder.hh:24-31, simplex_decoder.hh:26-33: the loop over `i` (a multiple of `2 * h`)
and `j`. -/
def stage (n h : Nat) (sum : List Int) : Option (List Int) :=
  forUp 0 (n / (2 * h)) sum fun b sum =>
    forUp (2 * h * b) (2 * h * b + h) sum (butterfly h)

/-- hadamard_decoder.hh:23-32, simplex_decoder.hh:25-34: `for (int h = 2; h < n; h *= 2)` for
`n = 1 << k`, that is `h = 1 << s` for `s` from 1 to `k - 1`. -/
def stages (k : Nat) (sum : List Int) : Option (List Int) :=
  forUp 1 k sum fun s sum => stage (2 ^ k) (2 ^ s) sum

/-- hadamard_decoder.hh:33-44, simplex_decoder.hh:35-45: the update of `word`, `best` and `next`. -/
def better (s : Int × Int × Int) (mag msg : Int) : Int × Int × Int :=
  if mag > s.2.1 then (msg, mag, s.2.1)
  else if mag > s.2.2 then (s.1, s.2.1, mag)
  else s

/-- hadamard_decoder.hh:33-47: the search for the largest magnitude. -/
def hadPick (n : Nat) (sum : List Int) : Option Int := do
  let s ← forUp 0 n ((0, 0, 0) : Int × Int × Int) fun i s => do
    let v ← rd sum i
    let mag ← chk (if v < 0 then -v else v)
    let msg ← chk ((i : Int) + n * (if v < 0 then 1 else 0))
    return better s mag msg
  return if s.2.1 = s.2.2 then -1 else s.1

/-- hadamard_decoder.hh:18-22: the first stage; `i < N-1` with `N` even and `i = 2 * k` means `k < N / 2`. -/
def hadFirst (n : Nat) (code sum : List Int) : Option (List Int) :=
  forUp 0 (n / 2) sum fun k sum => do
    let a ← rd code (2 * k)
    let b ← rd code (2 * k + 1)
    let x ← chk (a + b)
    let y ← chk (a - b)
    let sum ← wr sum (2 * k) x
    wr sum (2 * k + 1) y

/-- hadamard_decoder.hh:11-49 the general `operator()`; `sum` is the uninitialised local array. -/
def hadGeneric (K : Nat) (sum code : List Int) : Option Int := do
  let sum ← hadFirst (2 ^ (K - 1)) code sum
  let sum ← stages (K - 1) sum
  hadPick (2 ^ (K - 1)) sum

/-- hadamard_decoder.hh:51-66 the specialisation for K = 2. -/
def had2 (code : List Int) : Option Int := do
  let c0 ← rd code 0
  let c1 ← rd code 1
  let x ← chk (c0 + c1)
  let y ← chk (c0 - c1)
  let mx ← chk (if x < 0 then -x else x)
  let my ← chk (if y < 0 then -y else y)
  if mx = my then return -1
  else if mx > my then return 2 * (if x < 0 then 1 else 0)
  else return 1 + 2 * (if y < 0 then 1 else 0)

/-- One entry `l[i] + l[j]` of an initialiser list. -/
def plus (l : List Int) (i j : Nat) : Option Int := do
  let a ← rd l i
  let b ← rd l j
  chk (a + b)

/-- One entry `l[i] - l[j]` of an initialiser list. -/
def minus (l : List Int) (i j : Nat) : Option Int := do
  let a ← rd l i
  let b ← rd l j
  chk (a - b)

/-- hadamard_decoder.hh:76-87, 114-143: the initialiser lists. -/
def pairs : List (Bool × Nat × Nat) → List Int → Option (List Int)
  | [], _ => some []
  | (p, i, j) :: r, l => do
    let x ← if p then plus l i j else minus l i j
    let y ← pairs r l
    return x :: y

/-- hadamard_decoder.hh:68-104 the specialisation for K = 3. -/
def had3 (code : List Int) : Option Int := do
  let tmp ← pairs [(true, 0, 1), (false, 0, 1), (true, 2, 3), (false, 2, 3)] code
  let sum ← pairs [(true, 0, 2), (true, 1, 3), (false, 0, 2), (false, 1, 3)] tmp
  hadPick 4 sum

/-- hadamard_decoder.hh:106-160 the specialisation for K = 4. -/
def had4 (c : List Int) : Option Int := do
  let d ← pairs [(true, 0, 1), (false, 0, 1), (true, 2, 3), (false, 2, 3), (true, 4, 5), (false, 4, 5), (true, 6, 7),
    (false, 6, 7)] c
  let e ← pairs [(true, 0, 2), (true, 1, 3), (false, 0, 2), (false, 1, 3), (true, 4, 6), (true, 5, 7), (false, 4, 6),
    (false, 5, 7)] d
  let sum ← pairs [(true, 0, 4), (true, 1, 5), (true, 2, 6), (true, 3, 7), (false, 0, 4), (false, 1, 5), (false, 2, 6),
    (false, 3, 7)] e
  hadPick 8 sum

/-- hadamard_decoder.hh: `HadamardDecoder<K>::operator()`, with the template specialisations. -/
def hadDecode (K : Nat) (sum code : List Int) : Option Int :=
  if K = 2 then had2 code else if K = 3 then had3 code else if K = 4 then had4 code else hadGeneric K sum code

/-- simplex_decoder.hh:35-48: the search for the largest sum. -/
def simPick (n : Nat) (sum : List Int) : Option Int := do
  let s ← forUp 0 n ((0, 0, 0) : Int × Int × Int) fun i s => do
    let mag ← rd sum i
    return better s mag i
  return if s.2.1 = s.2.2 then -1 else s.1

/-- simplex_decoder.hh:18-24: the first stage; `1 ≤ i < W-2` with `W` even and `i = 2 * k + 1` means
`k < W / 2 - 1`. -/
def simFirst (n : Nat) (code sum : List Int) : Option (List Int) := do
  let c ← rd code 0
  let sum ← wr sum 0 c
  let c ← rd code 0
  let c ← chk (-c)
  let sum ← wr sum 1 c
  forUp 0 (n / 2 - 1) sum fun k sum => do
    let a ← rd code (2 * k + 1)
    let b ← rd code (2 * k + 1 + 1)
    let x ← chk (a + b)
    let y ← chk (a - b)
    let sum ← wr sum (2 * k + 1 + 1) x
    wr sum (2 * k + 1 + 2) y

/-- simplex_decoder.hh:11-50 the general `operator()`; `sum` is the uninitialised local array. -/
def simGeneric (K : Nat) (sum code : List Int) : Option Int := do
  let sum ← simFirst (2 ^ K) code sum
  let sum ← stages K sum
  simPick (2 ^ K) sum

/-- simplex_decoder.hh:60-64, 96-105, 150-167: the two first entries and the pairs. -/
def simHead (p : List (Bool × Nat × Nat)) (c : List Int) : Option (List Int) := do
  let c0 ← rd c 0
  let m0 ← chk (-c0)
  let r ← pairs p c
  return c0 :: m0 :: r

/-- simplex_decoder.hh:52-86 the specialisation for K = 2. -/
def sim2 (code : List Int) : Option Int := do
  let tmp ← simHead [(true, 1, 2), (false, 1, 2)] code
  let sum ← pairs [(true, 0, 2), (true, 1, 3), (false, 0, 2), (false, 1, 3)] tmp
  simPick 4 sum

/-- simplex_decoder.hh:88-140 the specialisation for K = 3. -/
def sim3 (c : List Int) : Option Int := do
  let d ← simHead [(true, 1, 2), (false, 1, 2), (true, 3, 4), (false, 3, 4), (true, 5, 6), (false, 5, 6)] c
  let e ← pairs [(true, 0, 2), (true, 1, 3), (false, 0, 2), (false, 1, 3), (true, 4, 6), (true, 5, 7), (false, 4, 6),
    (false, 5, 7)] d
  let sum ← pairs [(true, 0, 4), (true, 1, 5), (true, 2, 6), (true, 3, 7), (false, 0, 4), (false, 1, 5), (false, 2, 6),
    (false, 3, 7)] e
  simPick 8 sum

/-- simplex_decoder.hh:142-236 the specialisation for K = 4. -/
def sim4 (c : List Int) : Option Int := do
  let d ← simHead [(true, 1, 2), (false, 1, 2), (true, 3, 4), (false, 3, 4), (true, 5, 6), (false, 5, 6), (true, 7, 8),
    (false, 7, 8), (true, 9, 10), (false, 9, 10), (true, 11, 12), (false, 11, 12), (true, 13, 14), (false, 13, 14)] c
  let e ← pairs [(true, 0, 2), (true, 1, 3), (false, 0, 2), (false, 1, 3), (true, 4, 6), (true, 5, 7), (false, 4, 6),
    (false, 5, 7), (true, 8, 10), (true, 9, 11), (false, 8, 10), (false, 9, 11), (true, 12, 14), (true, 13, 15),
    (false, 12, 14), (false, 13, 15)] d
  let f ← pairs [(true, 0, 4), (true, 1, 5), (true, 2, 6), (true, 3, 7), (false, 0, 4), (false, 1, 5), (false, 2, 6),
    (false, 3, 7), (true, 8, 12), (true, 9, 13), (true, 10, 14), (true, 11, 15), (false, 8, 12), (false, 9, 13),
    (false, 10, 14), (false, 11, 15)] e
  let sum ← pairs [(true, 0, 8), (true, 1, 9), (true, 2, 10), (true, 3, 11), (true, 4, 12), (true, 5, 13), (true, 6, 14),
    (true, 7, 15), (false, 0, 8), (false, 1, 9), (false, 2, 10), (false, 3, 11), (false, 4, 12), (false, 5, 13),
    (false, 6, 14), (false, 7, 15)] f
  simPick 16 sum

/-- simplex_decoder.hh: `SimplexDecoder<K>::operator()`, with the template specialisations. -/
def simDecode (K : Nat) (sum code : List Int) : Option Int :=
  if K = 2 then sim2 code else if K = 3 then sim3 code else if K = 4 then sim4 code else simGeneric K sum code

end Verif.Hadamard
