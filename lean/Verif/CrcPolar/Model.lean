import Verif.Crc.Model
import Verif.Polar.Model
/-
Model of the frame that tests/polar_list_regression_test.cc builds around the list decoders: the
frozen mask from a reliability sequence, the message with its CRC, and the choice of a lane by its CRC.
The polar encoders and decoders themselves are modelled in Verif.Polar.
-/
namespace Verif.CrcPolar
open Verif.Crc

/-- tests/polar_list_regression_test.cc:76-79: clears the `N / 32` words and sets the bits of the first `n = N - K`
entries of the sequence.  The entries are `int`s, here natural numbers; `1 << 31` is the top bit of the word. -/
def freezeFirst (frozen seq : List Nat) (N n : Nat) : Option (List Nat) := do
  let frozen ← forUp 0 (N / 32) frozen fun i f => wr f i 0
  forUp 0 n frozen fun i f => do
    let s ← rd seq i
    let x ← rd f (s / 32)
    wr f (s / 32) (x ||| 2 ^ (s % 32))

variable {w : Nat}

/-- `1 - 2 * bit` -/
def symbol (bit : Bool) : Int := 1 - 2 * (if bit then 1 else 0)

/-- tests/polar_list_regression_test.cc:119-128: the message of `K` symbols is `K - C` data bits followed by the `C` bits of
their CRC, low bit first; a bit is sent as 1 or -1.  `data` are the bits the calls of `data()` return.  With `K < C` the loop
at 125 would write before the array. -/
def crcMessage (crc : CRC w) (data : List Bool) (message : List Int) (K C : Nat) : Option (CRC w × List Int) := do
  assertUB (C ≤ K)
  let (crc, message) ← forUp 0 (K - C) (crc.reset, message) fun i (crc, message) => do
    let bit ← rd data i
    let crc := (crc.bit bit).1
    let message ← wr message i (symbol bit)
    return (crc, message)
  let message ← forUp 0 C message fun i message => do
    let bit := (crc.value >>> i) &&& 1#w
    wr message (K - C + i) (symbol (bit != 0#w))
  return (crc, message)

variable {L : Nat} {τ : Type}

/-- tests/polar_list_regression_test.cc:190-192: the CRC of the signs of lane `k`; `neg x` is `x < 0`. -/
def crcOfLane (neg : τ → Bool) (crc : CRC w) (decoded : List (Fin L → τ)) (K : Nat) (k : Fin L) : Option (CRC w) :=
  forUp 0 K crc.reset fun i crc => do
    let r ← rd decoded i
    return (crc.bit (neg (r k))).1

/-- tests/polar_list_regression_test.cc:189-199, the loop from lane `L - n` on; result: the object, `best` and `error`. -/
def crcSelectFrom (neg : τ → Bool) (decoded : List (Fin L → τ)) (K : Nat) : (n : Nat) → n ≤ L → CRC w → Option (CRC w × Nat × Bool)
  | 0, _, crc => some (crc, 0, true)
  | n + 1, h, crc => do
    let crc ← crcOfLane neg crc decoded K ⟨L - (n + 1), by omega⟩
    if crc.value = 0#w then return (crc, L - (n + 1), false)
    else crcSelectFrom neg decoded K n (by omega) crc

/-- tests/polar_list_regression_test.cc:186-199: `best` is the first lane whose CRC is zero. -/
def crcSelect (neg : τ → Bool) (crc : CRC w) (decoded : List (Fin L → τ)) (K : Nat) : Option (CRC w × Nat × Bool) :=
  crcSelectFrom neg decoded K L (Nat.le_refl L) crc

/-- tests/polar_list_regression_test.cc:178-184 (also tests/polar_regression_test.cc:139-145 for scalars): the systematic symbols of
the decoded messages; `temp` holds arbitrary values, the encoder writes it. -/
def systematicSymbols (ph : Polar.PH τ) (temp decoded : List τ) (frozen : List Nat) (level : Nat) : Option (List τ) := do
  let temp ← Polar.encode ph temp decoded frozen level
  let (decoded, _) ← forUp 0 (2 ^ level) (decoded, 0) fun i (decoded, j) => do
    let b ← Polar.getBit frozen i
    if b then return (decoded, j)
    else
      let t ← rd temp i
      let decoded ← wr decoded j t
      return (decoded, j + 1)
  return decoded

end Verif.CrcPolar
