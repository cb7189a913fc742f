import Verif.Core
/- Model of reed_solomon_encoder.hh, reed_solomon_error_correction.hh, reed_solomon_decoder.hh.

All the code is a template over the field `GF` with types `ValueType` and `IndexType`.  The
model is a function of an interface `Ops V I` of the operators of galois_field.hh that the code
calls; each returns an `Option` because the operators contain assertions.  `RS/Gf.lean` gives the
two instances: the table-driven operators of `Verif/GF/Model.lean`, and field arithmetic, and
proves that they are equal. -/
namespace Verif.RS

/-- The operators of galois_field.hh used by the codecs.  `junk`, `junkI` are the contents of
uninitialised local arrays. -/
structure Ops (V I : Type) where
  /-- galois_field.hh:20 `N` -/
  N : Nat
  /-- galois_field.hh:17 `M` of the template -/
  M : Nat
  /-- Uninitialised `ValueType`. -/
  junk : V
  /-- Uninitialised `IndexType`. -/
  junkI : I
  /-- galois_field.hh:25-28 `ValueType(v)` -/
  mkV : Nat → Option V
  /-- galois_field.hh:60-63 `IndexType(i)` -/
  mkI : Nat → Option I
  /-- galois_field.hh:29-30 `(int)v`, `v.v`; `(bool)v` is `num v ≠ 0` -/
  num : V → Nat
  /-- galois_field.hh:64 `(int)i` -/
  numI : I → Nat
  /-- galois_field.hh:136-142 `index(a)` -/
  index : V → Option I
  /-- galois_field.hh:144-149 `value(a)` -/
  value : I → Option V
  /-- galois_field.hh `Value + Value` -/
  add : V → V → Option V
  /-- galois_field.hh:195-201 `Value * Value` -/
  mulVV : V → V → Option V
  /-- galois_field.hh:227-234 `Value / Value` -/
  divVV : V → V → Option V
  /-- galois_field.hh:253-259 `Index * Value` -/
  mulIV : I → V → Option V
  /-- galois_field.hh:261-267 `Value * Index` -/
  mulVI : V → I → Option V
  /-- galois_field.hh `Index * Index` -/
  mulII : I → I → Option I
  /-- galois_field.hh:218-225 `Index / Index` -/
  divII : I → I → Option I
  /-- galois_field.hh:269-276 `fma(Index, Index, Value)` -/
  fmaII : I → I → V → Option V
  /-- galois_field.hh:278-285 `fma(Index, Value, Value)` -/
  fmaIV : I → V → V → Option V
  /-- galois_field.hh:296-303 `fma(Value, Value, Value)` -/
  fmaVV : V → V → V → Option V

variable {V I : Type} (O : Ops V I)

/-! ## reed_solomon_encoder.hh -/

/-- reed_solomon_encoder.hh:29-33, the body of the generator loop. -/
def genStep (i : Nat) (st : List V × I) : Option (List V × I) := do
  let one ← O.mkV 1
  let tmp ← wr st.1 i one
  let tmp ← forDown 1 i tmp fun j tmp => do
    let a ← rd tmp j
    let b ← rd tmp (j - 1)
    let v ← O.fmaIV st.2 a b
    wr tmp j v
  let t0 ← rd tmp 0
  let v ← O.mulVI t0 st.2
  let tmp ← wr tmp 0 v
  let pe ← O.mkI 1
  let root ← O.mulII st.2 pe
  return (tmp, root)

/-- reed_solomon_encoder.hh:23-52 `ReedSolomonEncoder()`: the array `generator`. -/
def encInit (NR FCR : Nat) : Option (List I) := do
  let root ← O.mkI FCR
  let (tmp, _) ← forUp 0 NR (List.replicate (NR + 1) O.junk, root) (genStep O)
  let one ← O.mkV 1
  let tmp ← wr tmp NR one
  forUp 0 (NR + 1) (List.replicate (NR + 1) O.junkI) fun i gen => do
    let t ← rd tmp i
    let g ← O.index t
    wr gen i g

/-- reed_solomon_encoder.hh:59-71, the body of the data loop. -/
def encStep (NR : Nat) (gen : List I) (data : List V) (i : Nat) (parity : List V) :
    Option (List V) := do
  let d ← rd data i
  let p0 ← rd parity 0
  let feedback ← O.add d p0
  if O.num feedback ≠ 0 then do
    let fb ← O.index feedback
    let parity ← forUp 1 NR parity fun j parity => do
      let g ← rd gen (NR - j)
      let p ← rd parity j
      let v ← O.fmaII fb g p
      wr parity (j - 1) v
    let g0 ← rd gen 0
    let k ← O.mulII g0 fb
    let v ← O.value k
    wr parity (NR - 1) v
  else do
    let parity ← forUp 1 NR parity fun j parity => do
      let p ← rd parity j
      wr parity (j - 1) p
    let zero ← O.mkV 0
    wr parity (NR - 1) zero

/-- reed_solomon_encoder.hh:53-72 `operator()`; returns the array `parity`. -/
def encode (NR : Nat) (gen : List I) (data parity : List V) (data_len : Nat) :
    Option (List V) := do
  assertUB (0 < data_len ∧ data_len ≤ O.N - NR)
  let parity ← forUp 0 NR parity fun i parity => do
    let zero ← O.mkV 0
    wr parity i zero
  forUp 0 data_len parity (encStep O NR gen data)

/-! ## Syndromes (reed_solomon_decoder.hh) -/

/-- reed_solomon_decoder.hh:27-32, the body of `update_syndromes`, with the coefficient given. -/
def synStep (NR FCR : Nat) (coeff : V) (syn : List V) : Option (List V) := do
  let root ← O.mkI FCR
  let pe ← O.mkI 1
  let (syn, _) ← forUp 0 NR (syn, root) fun i (syn, root) => do
    let s ← rd syn i
    let v ← O.fmaIV root s coeff
    let syn ← wr syn i v
    let root ← O.mulII root pe
    return (syn, root)
  return syn

/-- reed_solomon_decoder.hh:24-34 `update_syndromes`; `get j` reads coefficient `j`. -/
def updateSyndromes (NR FCR : Nat) (get : Nat → Option V) (syn : List V) (b e : Nat) :
    Option (List V) :=
  forUp b e syn fun j syn => do
    let coeff ← get j
    synStep O NR FCR coeff syn

/-- reed_solomon_decoder.hh:46-47: `for (...) nonzero += !!a[i]` over the first `n` entries. -/
def countNonzero (n : Nat) (a : List V) : Option Nat :=
  forUp 0 n 0 fun i c => do
    let s ← rd a i
    return c + (if O.num s ≠ 0 then 1 else 0)

/-- reed_solomon_decoder.hh:36-49 `compute_syndromes`, also
bose_chaudhuri_hocquenghem_decoder.hh:37-50,124-137: `K`, `NP` and the reading of coefficients
are parameters.  Returns the array `syndromes` and the result. -/
def computeSyndromes (NR FCR K NP : Nat) (getD getP : Nat → Option V) (syn : List V)
    (data_len : Nat) : Option (List V × Nat) := do
  assertUB (0 < data_len ∧ data_len ≤ K)
  let coeff ← getD 0
  let syn ← forUp 0 NR syn fun i syn => wr syn i coeff
  let syn ← updateSyndromes O NR FCR getD syn 1 data_len
  let syn ← updateSyndromes O NR FCR getP syn 0 NP
  let nonzero ← countNonzero O NR syn
  return (syn, nonzero)

/-! ## reed_solomon_error_correction.hh -/

/-- reed_solomon_error_correction.hh:17-31 `Chien::search`; returns `locations` and the count. -/
def chien (locator : List V) (deg : Nat) (locs : List I) : Option (List I × Nat) := do
  let tmp ← forUp 0 (deg + 1) (List.replicate (deg + 1) O.junk) fun i tmp => do
    let l ← rd locator i
    wr tmp i l
  let (_, locs, count) ← forUp 0 O.N (tmp, locs, 0) fun i (tmp, locs, count) => do
    let sum ← rd tmp 0
    let (tmp, sum) ← forUp 1 (deg + 1) (tmp, sum) fun j (tmp, sum) => do
      let t ← rd tmp j
      let ji ← O.mkI j
      let t ← O.mulVI t ji
      let tmp ← wr tmp j t
      let sum ← O.add sum t
      return (tmp, sum)
    if O.num sum = 0 then do
      let loc ← O.mkI i
      let locs ← wr locs count loc
      return (tmp, locs, count + 1)
    else return (tmp, locs, count)
  return (locs, count)

/-- reed_solomon_error_correction.hh:40-53 `ArtinSchreier()`: the array `imap`.  The loop
`for (int i = 2; i < N; i += 2)` is `i = 2k`, `1 ≤ k < (N+1)/2`. -/
def artin : Option (List V) := do
  let imap ← forUp 0 (O.N + 1) (List.replicate (O.N + 1) O.junk) fun i imap => do
    let zero ← O.mkV 0
    wr imap i zero
  forUp 1 ((O.N + 1) / 2) imap fun k imap => do
    let x ← O.mkV (2 * k)
    let xx ← O.mulVV x x
    let xxx ← O.add xx x
    let skip ← O.mkV O.N
    if O.num xxx = O.num skip then return imap
    else do
      assertUB (O.num xxx ≠ 0)
      let old ← rd imap (O.num xxx)
      assertUB (O.num old = 0)
      wr imap (O.num xxx) x

/-- reed_solomon_error_correction.hh:67-85 `LocationFinder::operator()` with
reed_solomon_error_correction.hh:54-58 `ArtinSchreier::operator()` inlined. -/
def findLoc (imap : List V) (locator : List V) (deg : Nat) (locs : List I) :
    Option (List I × Nat) := do
  if deg = 1 then do
    let l0 ← rd locator 0
    let l1 ← rd locator 1
    let i0 ← O.index l0
    let i1 ← O.index l1
    let q ← O.divII i0 i1
    let one ← O.mkI 1
    let loc ← O.divII q one
    let locs ← wr locs 0 loc
    return (locs, 1)
  else if deg = 2 then do
    let b ← rd locator 1
    let c ← rd locator 0
    if O.num b = 0 ∨ O.num c = 0 then return (locs, 0)
    else do
      let a ← rd locator 2
      let ba ← O.divVV b a
      let ac ← O.mulVV a c
      let bb ← O.mulVV b b
      let y ← O.divVV ac bb
      assertUB (O.num y ≤ O.N)
      assertUB (O.num y ≠ 0)
      let R ← rd imap (O.num y)
      if O.num R = 0 then return (locs, 0)
      else do
        let one ← O.mkI 1
        let r1 ← O.mulVV ba R
        let i1 ← O.index r1
        let loc0 ← O.divII i1 one
        let locs ← wr locs 0 loc0
        let r2 ← O.add r1 ba
        let i2 ← O.index r2
        let loc1 ← O.divII i2 one
        let locs ← wr locs 1 loc1
        return (locs, 2)
  else chien O locator deg locs

/-- reed_solomon_error_correction.hh:99-101, one evaluator coefficient. -/
def evalCoeff (syn locator : List V) (i : Nat) : Option V := do
  let s ← rd syn i
  let l0 ← rd locator 0
  let e ← O.mulVV s l0
  forUp 1 (i + 1) e fun j e => do
    let s ← rd syn (i - j)
    let l ← rd locator j
    let p ← O.mulVV s l
    O.add e p

/-- reed_solomon_error_correction.hh:93-106 `Forney::compute_evaluator`; `-1` is possible. -/
def computeEvaluator (NR : Nat) (syn locator : List V) (deg : Nat) (ev : List V) :
    Option (List V × Int) :=
  forUp 0 (min deg (NR - 1) + 1) (ev, (-1 : Int)) fun i (ev, degree) => do
    let e ← evalCoeff O syn locator i
    let ev ← wr ev i e
    return (ev, if O.num e ≠ 0 then (i : Int) else degree)

/-- reed_solomon_error_correction.hh:112-116: evaluate the evaluator at `root`. -/
def evalAt (ev : List V) (evDeg : Int) (root : I) : Option V := do
  let e0 ← rd ev 0
  let (e, _) ← forUp 1 (evDeg + 1).toNat (e0, root) fun j (e, tmp) => do
    let c ← rd ev j
    let p ← O.mulVI c tmp
    let e ← O.add e p
    let tmp ← O.mulII tmp root
    return (e, tmp)
  return e

/-- reed_solomon_error_correction.hh:121-126: the derivative of the locator at `root`.  The loop
`for (int j = 3; j <= count; j += 2)` is `j = 2k+1`, `1 ≤ k < (count+1)/2`. -/
def derivAt (locator : List V) (count : Nat) (root : I) : Option V := do
  let l1 ← rd locator 1
  let root2 ← O.mulII root root
  let (d, _) ← forUp 1 ((count + 1) / 2) (l1, root2) fun k (d, tmp2) => do
    let c ← rd locator (2 * k + 1)
    let p ← O.mulVI c tmp2
    let d ← O.add d p
    let tmp2 ← O.mulII tmp2 root2
    return (d, tmp2)
  return d

/-- reed_solomon_error_correction.hh:111-133, one magnitude. -/
def magnitude (FCR : Nat) (locator : List V) (loc : I) (count : Nat) (ev : List V)
    (evDeg : Int) : Option V := do
  let one ← O.mkI 1
  let root ← O.mulII loc one
  let e ← evalAt O ev evDeg root
  if O.num e = 0 then O.mkV 0
  else do
    let d ← derivAt O locator count root
    let ie ← O.index e
    let id ← O.index d
    let m ← O.divII ie id
    let m ← (if FCR = 0 then O.divII m root else some m)
    let m ← (if FCR > 1 then forUp 1 FCR m fun _ m => O.mulII m root else some m)
    O.value m

/-- reed_solomon_error_correction.hh:107-135 `Forney::compute_magnitudes` -/
def computeMagnitudes (FCR : Nat) (locator : List V) (locs : List I) (count : Nat)
    (ev : List V) (evDeg : Int) (mags : List V) : Option (List V) :=
  forUp 0 count mags fun i mags => do
    let loc ← rd locs i
    let m ← magnitude O FCR locator loc count ev evDeg
    wr mags i m

/-- The local state of `BerlekampMassey::algorithm`. -/
structure BMSt (V : Type) where
  C : List V
  B : List V
  L : Nat
  m : Nat

/-- reed_solomon_error_correction.hh:156-158: the discrepancy. -/
def discrepancy (s C : List V) (L n : Nat) : Option V := do
  let d ← rd s n
  forUp 1 (L + 1) d fun i d => do
    let c ← rd C i
    let x ← (if i ≤ n then rd s (n - i) else none)
    let p ← O.mulVV c x
    O.add d p

/-- reed_solomon_error_correction.hh:156-177, the body of the loop over `n`. -/
def bmStep (NR count : Nat) (s : List V) (n : Nat) (st : BMSt V) : Option (BMSt V) := do
  let d ← discrepancy O s st.C st.L n
  if O.num d = 0 then return { st with m := st.m + 1 }
  else do
    let T ← forUp 0 st.m (List.replicate (NR + 1) O.junk) fun i T => do
      let c ← rd st.C i
      wr T i c
    let T ← forUp st.m (NR + 1) T fun i T => do
      let b ← rd st.B (i - st.m)
      let c ← rd st.C i
      let v ← O.fmaVV d b c
      wr T i v
    let (L, B, m) ← (if 2 * st.L ≤ n + count then do
        let B ← forUp 0 (NR + 1) st.B fun i B => do
          let c ← rd st.C i
          let v ← O.divVV c d
          wr B i v
        return (n + count + 1 - st.L, B, 1)
      else return (st.L, st.B, st.m + 1) : Option (Nat × List V × Nat))
    let C ← forUp 0 (NR + 1) st.C fun i C => do
      let t ← rd T i
      wr C i t
    return ⟨C, B, L, m⟩

/-- reed_solomon_error_correction.hh:149-180 `BerlekampMassey::algorithm`; returns the array `C`
and the result `L`. -/
def bm (NR : Nat) (s C : List V) (count : Nat) : Option (List V × Nat) := do
  let B ← forUp 0 (NR + 1) (List.replicate (NR + 1) O.junk) fun i B => do
    let c ← rd C i
    wr B i c
  let st ← forUp count NR (⟨C, B, count, 1⟩ : BMSt V) (bmStep O NR count s)
  return (st.C, st.L)

/-- reed_solomon_error_correction.hh:194-205: the erasure locator. -/
def erasureLocator (NR : Nat) (er : List I) (count : Nat) : Option (List V) := do
  let one ← O.mkV 1
  let loc ← wr (List.replicate (NR + 1) O.junk) 0 one
  let loc ← forUp 1 (NR + 1) loc fun i loc => do
    let zero ← O.mkV 0
    wr loc i zero
  let top ← O.mkI (O.N - 1)
  let loc ← (if count ≠ 0 then do
      let e ← rd er 0
      let q ← O.divII top e
      let v ← O.value q
      wr loc 1 v
    else some loc)
  forUp 1 count loc fun i loc => do
    let e ← rd er i
    let tmp ← O.divII top e
    forDown 0 (i + 1) loc fun j loc => do
      let a ← rd loc (j + 1)
      let b ← rd loc j
      let p ← O.mulIV tmp b
      let v ← O.add a p
      wr loc (j + 1) v

/-- reed_solomon_error_correction.hh:210-212: `while (!locator[d]) if (--d < 0) return -1;`.
The inner `Option` is `none` for `return -1`. -/
def trimDeg (locator : List V) : Nat → Option (Option Nat)
  | 0 => do
    let c ← rd locator 0
    return (if O.num c = 0 then none else some 0)
  | d + 1 => do
    let c ← rd locator (d + 1)
    if O.num c = 0 then trimDeg locator d else return some (d + 1)

/-- Result of `ReedSolomonErrorCorrection::operator()`: arrays `locations`, `magnitudes` and the
returned `int`. -/
structure ECRes (V I : Type) where
  locs : List I
  mags : List V
  ret : Int

/-- reed_solomon_error_correction.hh:191-264 `ReedSolomonErrorCorrection::operator()`.
`imap` is the table built by the constructor of the member `search`. -/
def errorCorrection (NR FCR : Nat) (imap : List V) (syn : List V) (locs : List I)
    (mags : List V) (er : List I) (count : Nat) : Option (ECRes V I) := do
  assertUB (count ≤ NR)
  let loc ← erasureLocator O NR er count
  let (loc, L) ← bm O NR syn loc count
  assertUB (L ≠ 0)
  assertUB (L ≤ NR)
  let l0 ← rd loc 0
  let one ← O.mkV 1
  assertUB (O.num l0 = O.num one)
  let t ← trimDeg O loc L
  match t with
  | none => return ⟨locs, mags, -1⟩
  | some deg => do
    let (locs, cnt) ← findLoc O imap loc deg locs
    if cnt < deg then return ⟨locs, mags, -1⟩
    else do
      let (ev, evDeg) ← computeEvaluator O NR syn loc cnt (List.replicate NR O.junk)
      let mags ← computeMagnitudes O FCR loc locs cnt ev evDeg mags
      return ⟨locs, mags, cnt⟩

/-! ## reed_solomon_decoder.hh -/

/-- reed_solomon_decoder.hh:75-77: is some location inside the omitted part? -/
def anyLocBelow (locs : List I) (count bound : Nat) : Option Bool :=
  forUp 0 count false fun i r => do
    let l ← rd locs i
    return (r || decide (O.numI l < bound))

/-- The buffers after the call and the returned `int`. -/
structure DecRes (V I : Type) where
  data : List V
  parity : List V
  erasures : List I
  ret : Int

/-- reed_solomon_decoder.hh:63-66: moving the erasures of a shortened block. -/
def shiftErasures (K : Nat) (er : List I) (count data_len : Nat) : Option (List I) :=
  if count ≠ 0 ∧ data_len < K then
    forUp 0 count er fun i er => do
      let e ← rd er i
      let v ← O.mkI (O.numI e + K - data_len)
      wr er i v
  else some er

/-- reed_solomon_decoder.hh:78-84: adding the magnitudes. -/
def applyMags (K : Nat) (locs : List I) (mags : List V) (count data_len : Nat)
    (data parity : List V) : Option (List V × List V) :=
  forUp 0 count (data, parity) fun i (data, parity) => do
    let l ← rd locs i
    let m ← rd mags i
    let idx := O.numI l + data_len - K
    if idx < data_len then do
      let x ← rd data idx
      let v ← O.add x m
      let data ← wr data idx v
      return (data, parity)
    else do
      let x ← rd parity (idx - data_len)
      let v ← O.add x m
      let parity ← wr parity (idx - data_len) v
      return (data, parity)

/-- reed_solomon_decoder.hh:50-89 `operator()`.  The loop of lines 75-77 returns at the first hit
and has no effects, so it is modelled as computing whether there is a hit.  In line 79
`(int)locations[i] + data_len - K` is not negative, by that check. -/
def decode (NR FCR : Nat) (imap : List V) (data parity : List V) (er : List I)
    (count data_len : Nat) : Option (DecRes V I) := do
  let K := O.N - NR
  assertUB (count ≤ NR)
  assertUB (0 < data_len ∧ data_len ≤ K)
  let er ← shiftErasures O K er count data_len
  let (syn, nz) ← computeSyndromes O NR FCR K NR (rd data) (rd parity)
    (List.replicate NR O.junk) data_len
  if nz = 0 then return ⟨data, parity, er, 0⟩
  else do
    let r ← errorCorrection O NR FCR imap syn (List.replicate NR O.junkI)
      (List.replicate NR O.junk) er count
    if r.ret ≤ 0 then return ⟨data, parity, er, r.ret⟩
    else do
      let cnt := r.ret.toNat
      let bad ← anyLocBelow O r.locs cnt (K - data_len)
      if bad then return ⟨data, parity, er, -1⟩
      else do
        let (data, parity) ← applyMags O K r.locs r.mags cnt data_len data parity
        let c ← countNonzero O cnt r.mags
        return ⟨data, parity, er, (c : Int)⟩

end Verif.RS
