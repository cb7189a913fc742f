import Verif.Core
import Verif.PolarHelper.Model
/- Model of polar_encoder.hh, the encoder of polar_parity_aided.hh and polar_decoder.hh.

The code is a template over `TYPE` and uses it only through `PolarHelper<TYPE>`; so does the model:
`PH τ` collects the functions of the helper that are used. -/
namespace Verif.Polar
variable {τ : Type}

/-- The functions of `PolarHelper<TYPE>` (polar_helper.hh:14-56) used by the codes. -/
structure PH (τ : Type) where
  one : τ
  signum : τ → τ
  qmul : τ → τ → τ
  prod : τ → τ → τ
  madd : τ → τ → τ → τ

/-- `PolarHelper<int8_t>` (polar_helper.hh:156-203), on `Int`s in `-128 .. 127`. -/
def ph8 : PH Int := ⟨1, PolarHelper.signum, PolarHelper.qmul, PolarHelper.prod, PolarHelper.madd⟩

/-- `PolarHelper<SIMD<int8_t, W>>` (polar_helper.hh:104-153, without `__ARM_NEON`): the lane operations of
PolarHelper/Model.lean on every lane.  A register is the function that gives its lanes. -/
def phV (W : Nat) : PH (Fin W → Int) where
  one _ := 1
  signum a k := PolarHelper.vsignum (a k)
  qmul a b k := PolarHelper.qmulV (a k) (b k)
  prod a b k := PolarHelper.prodV (a k) (b k)
  madd a b c k := PolarHelper.maddV (a k) (b k) (c k)

/-- polar_encoder.hh:17-20, 42-45, polar_parity_aided.hh:18-21: `get(bits, idx)`. -/
def getBit (bits : List Nat) (idx : Nat) : Option Bool := do
  let w ← rd bits (idx / 32)
  return (w >>> (idx % 32)) &&& 1 == 1

/-- polar_encoder.hh:26, 27: `get(frozen, i) ? PH::one() : *message++`; `p` is the number of message
symbols consumed so far. -/
def nextSym (H : PH τ) (b : Bool) (message : List τ) (p : Nat) : Option (τ × Nat) :=
  if b then some (H.one, p) else do
    let v ← rd message p
    return (v, p + 1)

/-- polar_encoder.hh:25-30, 50-55: `for (int i = 0; i < length; i += 2)`; the `i` of the code is `2 * h`. -/
def encFirst (H : PH τ) (message : List τ) (frozen : List Nat) (length : Nat) (codeword : List τ) : Option (List τ) := do
  let r ← forUp 0 ((length + 1) / 2) (codeword, 0) fun h (s : List τ × Nat) => do
    let b0 ← getBit frozen (2 * h)
    let m0 ← nextSym H b0 message s.2
    let b1 ← getBit frozen (2 * h + 1)
    let m1 ← nextSym H b1 message m0.2
    let c ← wr s.1 (2 * h) (H.qmul m0.1 m1.1)
    let c ← wr c (2 * h + 1) m1.1
    return (c, m1.2)
  return r.1

/-- polar_encoder.hh:34, polar_decoder.hh:28: `codeword[j] = PH::qmul(codeword[j], codeword[j+h])`, for
the pointer `codeword = c + o`. -/
def butterfly (H : PH τ) (o h : Nat) (j : Nat) (c : List τ) : Option (List τ) := do
  let a ← rd c (o + j)
  let b ← rd c (o + (j + h))
  wr c (o + j) (H.qmul a b)

/-- polar_encoder.hh:32-34, polar_decoder.hh:26-28: the loops over `i` (a multiple of `2 * h`) and `j`. -/
def stage (H : PH τ) (o n h : Nat) (c : List τ) : Option (List τ) :=
  forUp 0 (n / (2 * h)) c fun b c =>
    forUp (2 * h * b) (2 * h * b + h) c (butterfly H o h)

/-- polar_encoder.hh:31-34, 56-59, 66-69, polar_parity_aided.hh:55-58, polar_decoder.hh:25-28:
`for (int h = 2; h < length; h *= 2)` for `length = 1 << level`, that is `h = 1 << s` for `s` from 1 to
`level - 1`. -/
def stages (H : PH τ) (o level : Nat) (c : List τ) : Option (List τ) :=
  forUp 1 level c fun s c => stage H o (2 ^ level) (2 ^ s) c

/-- polar_encoder.hh:22-35 `PolarEncoder::operator()` -/
def encode (H : PH τ) (codeword message : List τ) (frozen : List Nat) (level : Nat) : Option (List τ) := do
  let c ← encFirst H message frozen (2 ^ level) codeword
  stages H 0 level c

/-- polar_encoder.hh:60-65: the frozen positions of the codeword are overwritten while the first layer
of the second transform is applied. -/
def sysMask (H : PH τ) (frozen : List Nat) (length : Nat) (codeword : List τ) : Option (List τ) :=
  forUp 0 ((length + 1) / 2) codeword fun h (c : List τ) => do
    let b0 ← getBit frozen (2 * h)
    let x0 ← rd c (2 * h)
    let msg0 := if b0 then H.one else x0
    let b1 ← getBit frozen (2 * h + 1)
    let x1 ← rd c (2 * h + 1)
    let msg1 := if b1 then H.one else x1
    let c ← wr c (2 * h) (H.qmul msg0 msg1)
    wr c (2 * h + 1) msg1

/-- polar_encoder.hh:47-70 `PolarSysEnc::operator()` -/
def sysEncode (H : PH τ) (codeword message : List τ) (frozen : List Nat) (level : Nat) : Option (List τ) := do
  let c ← encFirst H message frozen (2 ^ level) codeword
  let c ← stages H 0 level c
  let c ← sysMask H frozen (2 ^ level) c
  stages H 0 level c

/-! ### The parity-aided encoder -/

/-- The running state of polar_parity_aided.hh:25-27: position in the message, `count`, `parity`. -/
structure PState (τ : Type) where
  p : Nat
  count : Nat
  parity : τ

/-- polar_parity_aided.hh:30-40 (and 41-51). `int count` is a `Nat` here: `first` and `stride` are
assumed non-negative (a negative `count` would never reach zero). -/
def parSym (H : PH τ) (b : Bool) (message : List τ) (stride : Nat) (s : PState τ) : Option (τ × PState τ) :=
  if b then some (H.one, s)
  else if s.count ≠ 0 then do
    let v ← rd message s.p
    return (v, ⟨s.p + 1, s.count - 1, H.qmul s.parity v⟩)
  else some (s.parity, ⟨s.p, stride, H.one⟩)

/-- polar_parity_aided.hh:28-54 -/
def parFirst (H : PH τ) (message : List τ) (frozen : List Nat) (length stride first : Nat) (codeword : List τ) :
    Option (List τ) := do
  let r ← forUp 0 ((length + 1) / 2) (codeword, (⟨0, first, H.one⟩ : PState τ)) fun h s => do
    let b0 ← getBit frozen (2 * h)
    let m0 ← parSym H b0 message stride s.2
    let b1 ← getBit frozen (2 * h + 1)
    let m1 ← parSym H b1 message stride m0.2
    let c ← wr s.1 (2 * h) (H.qmul m0.1 m1.1)
    let c ← wr c (2 * h + 1) m1.1
    return (c, m1.2)
  return r.1

/-- polar_parity_aided.hh:23-59 `PolarParityEncoder::operator()` -/
def parEncode (H : PH τ) (codeword message : List τ) (frozen : List Nat) (level stride first : Nat) : Option (List τ) := do
  let c ← parFirst H message frozen (2 ^ level) stride first codeword
  stages H 0 level c

/-! ### The recursion of the decoders

polar_decoder.hh, polar_list_decoder.hh and polar_parity_aided.hh contain the same recursion over the code
tree (`PolarTree`, `PolarListTree`, `PolarParityTree`), with different node functions `rate0` and `rate1`
and with or without the path maps.  It is modelled once, over the operations collected in `Walk`. -/

/-- The memory a decoder works on: the scratch arrays `hard` and `soft`, and everything else (`x`). -/
structure Mem (τ X : Type) where
  x : X
  hard : List τ
  soft : List τ

/-- What a decoder plugs into the recursion.  `vshuf` and `comp` are `vshuf` on values and on maps;
polar_decoder.hh has no maps (`μ = Unit`, `vshuf v () = v`).  `sc1` tells whether the recursion tests for
subtrees without frozen positions (only polar_decoder.hh does).  `rate0 M off` and `rate1 M off` are the
node functions for a node of size `2^M` called with `hard + off` and `soft`. -/
structure Walk (τ μ X : Type) where
  prod : τ → τ → τ
  madd : τ → τ → τ → τ
  qmul : τ → τ → τ
  vshuf : τ → μ → τ
  comp : μ → μ → μ
  sc1 : Bool
  rate0 : Nat → Nat → Mem τ X → Option (Mem τ X × μ)
  rate1 : Nat → Nat → Mem τ X → Option (Mem τ X × μ)

variable {μ X : Type}

/-- polar_decoder.hh:66-67 (and 85-86, 114-115, 143-144, 172-173, 201-202, 228), polar_list_decoder.hh:91-92
(and 113-114, 142-143, 171-172, 200-201, 229-230, 256), polar_parity_aided.hh:156-157 (and 178-179, 207-208,
236-237, 265-266, 294-295, 321): `soft[i+N/2] = prod(soft[i+N], soft[i+N/2+N])` for `N = 2^(M+1)`. -/
def fLoop (W : Walk τ μ X) (M : Nat) (s : Mem τ X) : Option (Mem τ X) := do
  let soft ← forUp 0 (2 ^ M) s.soft fun i soft => do
    let a ← rd soft (i + 2 ^ (M + 1))
    let b ← rd soft (i + 2 ^ M + 2 ^ (M + 1))
    wr soft (i + 2 ^ M) (W.prod a b)
  return { s with soft := soft }

/-- The lines `soft[i+N/2] = madd(hard[i], soft[i+N], soft[i+N/2+N])` of polar_decoder.hh (70, 94, 123, 152,
181, 210, 233) and `soft[i+N/2] = madd(hard[i], vshuf(soft[i+N], lmap), vshuf(soft[i+N/2+N], lmap))` of
polar_list_decoder.hh (95, 121, 150, 179, 208, 237, 262) and polar_parity_aided.hh (160, 186, 215, 244, 273,
302, 327). -/
def gLoop (W : Walk τ μ X) (M off : Nat) (lmap : μ) (s : Mem τ X) : Option (Mem τ X) := do
  let soft ← forUp 0 (2 ^ M) s.soft fun i soft => do
    let h ← rd s.hard (off + i)
    let a ← rd soft (i + 2 ^ (M + 1))
    let b ← rd soft (i + 2 ^ M + 2 ^ (M + 1))
    wr soft (i + 2 ^ M) (W.madd h (W.vshuf a lmap) (W.vshuf b lmap))
  return { s with soft := soft }

/-- The lines `hard[i] = qmul(hard[i], hard[i+N/2])` of polar_decoder.hh (73, 102, 131, 160, 189, 218, 238) and
`hard[i] = qmul(vshuf(hard[i], rmap), hard[i+N/2])` of polar_list_decoder.hh (98, 127, 156, 185, 214, 243, 267)
and polar_parity_aided.hh (163, 192, 221, 250, 279, 308, 332). -/
def cLoop (W : Walk τ μ X) (M off : Nat) (rmap : μ) (s : Mem τ X) : Option (Mem τ X) := do
  let hard ← forUp 0 (2 ^ M) s.hard fun i hard => do
    let a ← rd hard (off + i)
    let b ← rd hard (off + (i + 2 ^ M))
    wr hard (off + i) (W.qmul (W.vshuf a rmap) b)
  return { s with hard := hard }

/-- The decoder for a child of size `2^M` with all its positions frozen (`all0`), none of them (`all1`) or
otherwise (`rec`): polar_decoder.hh:87-92 and so on, polar_list_decoder.hh:116-119 and so on. -/
def childSel (W : Walk τ μ X) (all0 all1 : Prop) [Decidable all0] [Decidable all1] (M off : Nat)
    (rec : Mem τ X → Option (Mem τ X × μ)) (s : Mem τ X) : Option (Mem τ X × μ) :=
  if all0 then W.rate0 M off s
  else if W.sc1 = true ∧ all1 then W.rate1 M off s
  else rec s

/-- polar_decoder.hh:106-240, polar_list_decoder.hh:132-270, polar_parity_aided.hh:197-335:
`Tree<TYPE, M>::decode(..., hard + off, soft, frozen)` for `1 ≤ M ≤ 5`, where `frozen` is a 32-bit word.  The
bodies for `M = 2, 3, 4, 5` are the same text. -/
def treeW (W : Walk τ μ X) : Nat → Nat → Nat → Mem τ X → Option (Mem τ X × μ)
  | 0, _, _, _ => none
  | 1, off, frozen, s => do
    let s ← fLoop W 0 s
    let l ← (if frozen &&& 1 ≠ 0 then W.rate0 0 off s else W.rate1 0 off s)
    let s ← gLoop W 0 off l.2 l.1
    let r ← (if frozen >>> 1 ≠ 0 then W.rate0 0 (off + 1) s else W.rate1 0 (off + 1) s)
    let s ← cLoop W 0 off r.2 r.1
    return (s, W.comp l.2 r.2)
  | M + 2, off, frozen, s => do
    let s ← fLoop W (M + 1) s
    let l ← childSel W (frozen &&& (2 ^ 2 ^ (M + 1) - 1) = 2 ^ 2 ^ (M + 1) - 1) (frozen &&& (2 ^ 2 ^ (M + 1) - 1) = 0)
      (M + 1) off (treeW W (M + 1) off (frozen &&& (2 ^ 2 ^ (M + 1) - 1))) s
    let s ← gLoop W (M + 1) off l.2 l.1
    let r ← childSel W (frozen >>> 2 ^ (M + 1) = 2 ^ 2 ^ (M + 1) - 1) (frozen >>> 2 ^ (M + 1) = 0)
      (M + 1) (off + 2 ^ (M + 1)) (treeW W (M + 1) (off + 2 ^ (M + 1)) (frozen >>> 2 ^ (M + 1))) s
    let s ← cLoop W (M + 1) off r.2 r.1
    return (s, W.comp l.2 r.2)

/-- polar_decoder.hh:59-104, polar_list_decoder.hh:82-130, polar_parity_aided.hh:147-195:
`Tree<TYPE, M>::decode(..., hard + off, soft, frozen + fo)` for `M ≥ 6`; the argument is `M - 6`. -/
def treeP (W : Walk τ μ X) (frozen : List Nat) : Nat → Nat → Nat → Mem τ X → Option (Mem τ X × μ)
  | 0, off, fo, s => do
    let s ← fLoop W 5 s
    let w0 ← rd frozen (fo + 0)
    let l ← childSel W (w0 = 0xffffffff) (w0 = 0) 5 off (treeW W 5 off w0) s
    let s ← gLoop W 5 off l.2 l.1
    let w1 ← rd frozen (fo + 1)
    let r ← childSel W (w1 = 0xffffffff) (w1 = 0) 5 (off + 2 ^ 5) (treeW W 5 (off + 2 ^ 5) w1) s
    let s ← cLoop W 5 off r.2 r.1
    return (s, W.comp l.2 r.2)
  | m + 1, off, fo, s => do
    let s ← fLoop W (m + 6) s
    let l ← treeP W frozen m off fo s
    let s ← gLoop W (m + 6) off l.2 l.1
    let r ← treeP W frozen m (off + 2 ^ (m + 6)) (fo + 2 ^ (m + 6) / 32) s
    let s ← cLoop W (m + 6) off r.2 r.1
    return (s, W.comp l.2 r.2)

/-- The `switch (level)` of polar_decoder.hh:258-276, polar_list_decoder.hh:297-311,
polar_parity_aided.hh:364-378: `max` is 20 or 16. -/
def treeTop (W : Walk τ μ X) (max : Nat) (frozen : List Nat) (level : Nat) (s : Mem τ X) : Option (Mem τ X × μ) := do
  assertUB (5 ≤ level ∧ level ≤ max)
  if level = 5 then do
    let w ← rd frozen 0
    treeW W 5 0 w s
  else treeP W frozen (level - 6) 0 0 s

/-! ### The successive cancellation decoder -/

/-- polar_decoder.hh:19-29 `PolarNode<TYPE, M>::trans(out + o, inp + i)`: here `out` is the message array
from position `o` and `inp` the hard array from position `i`; the two arrays do not overlap. -/
def trans (H : PH τ) (M : Nat) (out : List τ) (o : Nat) (inp : List τ) (i : Nat) : Option (List τ) := do
  let out ← forUp 0 ((2 ^ M + 1) / 2) out fun h out => do
    let a ← rd inp (i + 2 * h)
    let b ← rd inp (i + (2 * h + 1))
    let out ← wr out (o + 2 * h) (H.qmul a b)
    let b ← rd inp (i + (2 * h + 1))
    wr out (o + (2 * h + 1)) b
  stages H o M out

/-- The message array and the position of the `message` pointer. -/
structure Msg (τ : Type) where
  msg : List τ
  p : Nat

/-- polar_decoder.hh:30-34, 48-51 `PolarNode::rate0(hard + off)` -/
def scRate0 (H : PH τ) (M off : Nat) (s : Mem τ (Msg τ)) : Option (Mem τ (Msg τ) × Unit) := do
  let hard ← forUp 0 (2 ^ M) s.hard fun i hard => wr hard (off + i) H.one
  return ({ s with hard := hard }, ())

/-- polar_decoder.hh:35-41 `PolarNode<TYPE, M>::rate1` for `M > 0`, 52-56 for `M = 0`. -/
def scRate1 (H : PH τ) (M off : Nat) (s : Mem τ (Msg τ)) : Option (Mem τ (Msg τ) × Unit) :=
  match M with
  | 0 => do
    let v ← rd s.soft 1
    let hard ← wr s.hard off (H.signum v)
    let h ← rd hard off
    let msg ← wr s.x.msg s.x.p h
    return ({ s with hard := hard, x := ⟨msg, s.x.p + 1⟩ }, ())
  | M + 1 => do
    let hard ← forUp 0 (2 ^ (M + 1)) s.hard fun i hard => do
      let v ← rd s.soft (i + 2 ^ (M + 1))
      wr hard (off + i) (H.signum v)
    let msg ← trans H (M + 1) s.x.msg s.x.p hard off
    return ({ s with hard := hard, x := ⟨msg, s.x.p + 2 ^ (M + 1)⟩ }, ())

/-- The recursion of polar_decoder.hh. -/
def scWalk (H : PH τ) : Walk τ Unit (Msg τ) :=
  ⟨H.prod, H.madd, H.qmul, fun v _ => v, fun _ _ => (), true, scRate0 H, scRate1 H⟩

/-- polar_decoder.hh:251-277 `PolarDecoder<TYPE, MAX_M>::operator()`; the class members `soft` and
`hard` (of size `2 << MAX_M` and `1 << MAX_M`) are passed in with any contents.  The result is the
message array. -/
def scDecode (H : PH τ) (MAX_M : Nat) (soft hard message codeword : List τ) (frozen : List Nat) (level : Nat) :
    Option (List τ) := do
  assertUB (level ≤ MAX_M)
  let soft ← forUp 0 (2 ^ level) soft fun i soft => do
    let v ← rd codeword i
    wr soft (2 ^ level + i) v
  let r ← treeTop (scWalk H) 20 frozen level ⟨⟨message, 0⟩, hard, soft⟩
  return r.1.x.msg

end Verif.Polar
