import Verif.Core
/- Model of xorshift.hh.  `uint32_t`/`uint64_t` are `BitVec 32`/`BitVec 64`. -/
namespace Verif.Xorshift

/-- xorshift.hh:11-14, `Xorshift32` object state. -/
structure X32 where
  y : BitVec 32
  deriving DecidableEq

/-- xorshift.hh:13, 25: constructor and its default seed. -/
def X32.new (y : BitVec 32 := 2463534242#32) : X32 := ⟨y⟩
/-- xorshift.hh:26-29 -/
def X32.reset (_ : X32) (y : BitVec 32 := 2463534242#32) : X32 := ⟨y⟩
/-- xorshift.hh:30-36 `operator()`: new state and returned value. -/
def X32.next (s : X32) : X32 × BitVec 32 :=
  let y := s.y
  let y := y ^^^ (y <<< 13)
  let y := y ^^^ (y >>> 17)
  let y := y ^^^ (y <<< 5)
  (⟨y⟩, y)

/-- xorshift.hh:39-42 -/
structure X64 where
  x : BitVec 64
  deriving DecidableEq
/-- xorshift.hh:41, 53 -/
def X64.new (x : BitVec 64 := 88172645463325252#64) : X64 := ⟨x⟩
/-- xorshift.hh:54-57 -/
def X64.reset (_ : X64) (x : BitVec 64 := 88172645463325252#64) : X64 := ⟨x⟩
/-- xorshift.hh:58-64 -/
def X64.next (s : X64) : X64 × BitVec 64 :=
  let x := s.x
  let x := x ^^^ (x <<< 13)
  let x := x ^^^ (x >>> 7)
  let x := x ^^^ (x <<< 17)
  (⟨x⟩, x)

/-- xorshift.hh:67-75 -/
structure Wow where
  x : BitVec 32
  y : BitVec 32
  z : BitVec 32
  w : BitVec 32
  v : BitVec 32
  d : BitVec 32
  deriving DecidableEq
/-- xorshift.hh:69-74, 86-89 -/
def Wow.new (x : BitVec 32 := 123456789#32) (y : BitVec 32 := 362436069#32)
    (z : BitVec 32 := 521288629#32) (w : BitVec 32 := 88675123#32)
    (v : BitVec 32 := 5783321#32) (d : BitVec 32 := 6615241#32) : Wow := ⟨x, y, z, w, v, d⟩
/-- xorshift.hh:90-100 -/
def Wow.reset (_ : Wow) (x : BitVec 32 := 123456789#32) (y : BitVec 32 := 362436069#32)
    (z : BitVec 32 := 521288629#32) (w : BitVec 32 := 88675123#32)
    (v : BitVec 32 := 5783321#32) (d : BitVec 32 := 6615241#32) : Wow := ⟨x, y, z, w, v, d⟩
/-- xorshift.hh:101-108 -/
def Wow.next (s : Wow) : Wow × BitVec 32 :=
  let t := s.x ^^^ (s.x >>> 2)
  let v := (s.v ^^^ (s.v <<< 4)) ^^^ (t ^^^ (t <<< 1))
  let d := s.d + 362437#32
  (⟨s.y, s.z, s.w, s.v, v, d⟩, d + v)

/-- xorshift.hh:111-117 -/
structure X128 where
  x : BitVec 32
  y : BitVec 32
  z : BitVec 32
  w : BitVec 32
  deriving DecidableEq
/-- xorshift.hh:113-116, 128-130 -/
def X128.new (x : BitVec 32 := 123456789#32) (y : BitVec 32 := 362436069#32)
    (z : BitVec 32 := 521288629#32) (w : BitVec 32 := 88675123#32) : X128 := ⟨x, y, z, w⟩
/-- xorshift.hh:131-138 -/
def X128.reset (_ : X128) (x : BitVec 32 := 123456789#32) (y : BitVec 32 := 362436069#32)
    (z : BitVec 32 := 521288629#32) (w : BitVec 32 := 88675123#32) : X128 := ⟨x, y, z, w⟩
/-- xorshift.hh:139-145 -/
def X128.next (s : X128) : X128 × BitVec 32 :=
  let t := s.x ^^^ (s.x <<< 11)
  let w := (s.w ^^^ (s.w >>> 19)) ^^^ (t ^^^ (t >>> 8))
  (⟨s.y, s.z, s.w, w⟩, w)

end Verif.Xorshift
