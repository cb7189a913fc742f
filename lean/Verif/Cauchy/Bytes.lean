import Verif.Cauchy.Model
import Verif.CauchyPF.Model
import Verif.Permute.Model
/- The `void *` overloads of cauchy_reed_solomon_erasure_coding.hh, and the loops with which tests/crs_regression_test.cc and tests/cpf_regression_test.cc encode and decode
whole buffers. -/
namespace Verif.Cauchy
open Verif.GF

abbrev Byte := BitVec 8

/-- The value of the bytes of a symbol, lowest byte first. -/
def littleWord : List Byte → Nat
  | [] => 0
  | b :: bs => b.toNat + 256 * littleWord bs

/-- The `S` bytes of a symbol, lowest byte first. -/
def littleBytes : Nat → Nat → List Byte
  | 0, _ => []
  | S + 1, v => BitVec.ofNat 8 v :: littleBytes S (v / 256)

/-- What reading a symbol from its bytes gives, on a machine that stores the highest byte first (`big`) or last. -/
def word (big : Bool) (bs : List Byte) : Nat := littleWord (if big then bs.reverse else bs)

/-- What writing a symbol puts into its bytes. -/
def unword (big : Bool) (S v : Nat) : List Byte := if big then (littleBytes S v).reverse else littleBytes S v

/-- The first `n` symbols of `S` bytes in memory: cauchy_reed_solomon_erasure_coding.hh:323-332 `reinterpret_cast<const value_type *>`. -/
def symbols (big : Bool) (S : Nat) : Nat → List Byte → List Nat
  | 0, _ => []
  | n + 1, mem => word big (mem.take S) :: symbols big S n (mem.drop S)

/-- The bytes of symbols. -/
def bytesOf (big : Bool) (S : Nat) (vs : List Nat) : List Byte := vs.flatMap (unword big S)

/-- Memory seen as symbols: those that lie in it completely. -/
def view (big : Bool) (S : Nat) (mem : List Byte) : List Nat := symbols big S (mem.length / S) mem

/-- Memory after its symbols have been changed to `vs`. -/
def putBack (big : Bool) (S : Nat) (mem : List Byte) (vs : List Nat) : List Byte := bytesOf big S vs ++ mem.drop (S * vs.length)

/-- tests/crs_regression_test.cc:42-47, tests/cpf_regression_test.cc:43-48: the identifiers of a trial: all `total` allowed ones, counted up from `cnt` in the array `mem`, whose
elements have `wid` bits; then element `i` is exchanged for the one at a random position `hat i`, which lies between `i` and `total - 1`. -/
def chooseIdents (wid total cnt : Nat) (mem : List Nat) (hat : Nat → Nat) : Option (List Nat) := do
  let ids ← forUp 0 total mem fun i ids => wr ids i ((cnt + i) % 2 ^ wid)
  forUp 0 cnt ids fun i ids => do
    assertUB (i ≤ total - 1)
    Permute.swap ids i (hat i)

/-- tests/crs_regression_test.cc:61-62, tests/cpf_regression_test.cc:62-63: the comparison at the end of a trial. -/
def compareAll {α : Type} [DecidableEq α] (data orig : List α) (n : Nat) : Option Unit :=
  forUp 0 n () fun i _ => do
    let x ← rd data i
    let y ← rd orig i
    assertUB (x = y)

variable (w M : Nat) (T : Tab)

/-- cauchy_reed_solomon_erasure_coding.hh:323-327 `encode(const void *, ...)`; `big` is the byte order of the machine, `w / 8` is `sizeof(value_type)`. -/
def encodeBytes (big : Bool) (B : Build) (data block : List Byte) (block_identifier block_bytes block_count : Nat) : Option (List Byte) := do
  assertUB (block_bytes % (w / 8) = 0)
  let r ← encode w M T B (view big (w / 8) data) (view big (w / 8) block) block_identifier (block_bytes / (w / 8)) block_count
  return putBack big (w / 8) block r

/-- cauchy_reed_solomon_erasure_coding.hh:328-332 `decode(void *, ...)` -/
def decodeBytes (big : Bool) (B : Build) (st : Nat × Nat) (data blocks : List Byte) (block_identifiers : List Nat) (block_index block_bytes block_count : Nat) :
    Option (List Byte × (Nat × Nat)) := do
  assertUB (block_bytes % (w / 8) = 0)
  let (r, st) ← decode w M T B st (view big (w / 8) data) (view big (w / 8) blocks) block_identifiers block_index (block_bytes / (w / 8)) block_count
  return (putBack big (w / 8) data r, st)

/-- tests/crs_regression_test.cc:49-50: the blocks are encoded one after the other into one buffer. -/
def encodeAll (big : Bool) (B : Nat → Build) (orig blocks : List Byte) (identifiers : List Nat) (block_bytes block_count : Nat) : Option (List Byte) :=
  forUp 0 block_count blocks fun i blocks => do
    let off ← intMul block_bytes i
    let id ← rd identifiers i
    let r ← encodeBytes w M T big (B i) orig (blocks.drop off) id block_bytes block_count
    return blocks.take off ++ r

/-- tests/crs_regression_test.cc:55-56: and decoded into another one. -/
def decodeAll (big : Bool) (B : Nat → Build) (st : Nat × Nat) (data blocks : List Byte) (identifiers : List Nat) (block_bytes block_count : Nat) :
    Option (List Byte × (Nat × Nat)) :=
  forUp 0 block_count (data, st) fun i (data, st) => do
    let off ← intMul block_bytes i
    let (r, st) ← decodeBytes w M T big (B i) st (data.drop off) blocks identifiers i block_bytes block_count
    return (data.take off ++ r, st)

/-- tests/crs_regression_test.cc:32-66: one trial, on buffers with any content; `ids` is the array of identifiers before it is filled, the result are the members of the object. -/
def crsTrial (big : Bool) (Be Bd : Nat → Build) (st : Nat × Nat) (orig data blocks : List Byte) (ids : List Nat) (hat : Nat → Nat) (block_bytes block_count : Nat) :
    Option (Nat × Nat) := do
  let ids ← chooseIdents w (2 ^ M - block_count) block_count ids hat
  let blocks ← encodeAll w M T big Be orig blocks ids block_bytes block_count
  let (data, st) ← decodeAll w M T big Bd st data blocks ids block_bytes block_count
  compareAll data orig (block_count * block_bytes)
  return st

end Verif.Cauchy

namespace Verif.CauchyPF

variable (w P wio L : Nat)

/-- tests/cpf_regression_test.cc:50-51: the blocks are encoded one after the other into one buffer, and the substitutes stored. -/
def encodeAll (st : St) (orig blocks subs idents : List Nat) (block_values block_count : Nat) : Option (List Nat × List Nat × St) :=
  forUp 0 block_count (blocks, subs, st) fun i (blocks, subs, st) => do
    let off ← intMul block_values i
    let id ← rd idents i
    let (r, s, st) ← encode w P wio L st orig (blocks.drop off) id block_values block_count
    let subs ← wr subs i (s % 2 ^ wio)
    return (blocks.take off ++ r, subs, st)

/-- tests/cpf_regression_test.cc:56-57: and decoded into another one. -/
def decodeAll (st : St) (data blocks subs idents : List Nat) (block_values block_count : Nat) : Option (List Nat × St) :=
  forUp 0 block_count (data, st) fun i (data, st) => do
    let off ← intMul block_values i
    let (r, st) ← decode w P wio L st (data.drop off) blocks subs idents i block_values block_count
    return (data.take off ++ r, st)

/-- tests/cpf_regression_test.cc:30-68: one trial. -/
def cpfTrial (st : St) (orig data blocks subs ids : List Nat) (hat : Nat → Nat) (block_values block_count : Nat) : Option St := do
  let ids ← Cauchy.chooseIdents wio (P / 2 - block_count) block_count ids hat
  let (blocks, subs, st) ← encodeAll w P wio L st orig blocks subs ids block_values block_count
  let (data, st) ← decodeAll w P wio L st data blocks subs ids block_values block_count
  Cauchy.compareAll data orig (block_count * block_values)
  return st

end Verif.CauchyPF
