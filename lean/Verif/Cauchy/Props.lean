import Verif.Cauchy.Code
/- C41, C42: the Cauchy Reed-Solomon erasure code.

`Ready w M P T`: `T` are the tables built by the constructor of the field tables for the polynomial
`P` of degree `M` and a value type of `w` bits.  Symbols are naturals up to `2 ^ M - 1`; `toR P a` is
the residue class of the polynomial with the bits of `a` modulo `P`, an element of the field
`GF(2)[x]/P`, and `xR P` the class of `x`, so an index `b` stands for `xR P ^ b`. -/
namespace Verif.Cauchy
open Verif.GF Verif.GF2 Finset
open Verif.RS (sb)

variable {w M P : Nat} {T : Tab}

theorem getD_drop' (l : List Nat) (a i : Nat) : (l.drop a).getD i 0 = l.getD (a + i) 0 := by
  rw [List.getD_eq_getElem?_getD, List.getD_eq_getElem?_getD, List.getElem?_drop]

/-! ### C42 -/

/-- The arguments of one multiply-accumulate call are valid: the multiplier is an index, the source
holds `len` symbols from the given offset on, so does the destination; its old content must be
symbols if it is to be read. -/
structure MacArgs (M : Nat) (c a : List Nat) (off b len : Nat) (init : Bool) : Prop where
  mult : b < 2 ^ M - 1
  symbols : ∀ x ∈ a, x ≤ 2 ^ M - 1
  source : off + len ≤ a.length
  dest : len ≤ c.length
  old : init = false → ∀ i, i < len → c.getD i 0 ≤ 2 ^ M - 1

/-- C42: whatever the instruction set and the alignment, the `i`-th symbol becomes `b * a[i]`, or
`b * a[i] + c[i]`, in the field; it is a symbol again; the rest of the array is left alone. -/
theorem C42_values (R : Ready w M P T) (B : Build) (k : Nat) {c a : List Nat} {off b len : Nat} {init : Bool}
    (h : MacArgs M c a off b len init) :
    ∃ c', multiplyAccumulate w M T B k c a off b len init = some c' ∧ c'.length = c.length ∧
      (∀ i, i < len → c'.getD i 0 ≤ 2 ^ M - 1 ∧
        toR P (c'.getD i 0) = xR P ^ b * toR P (a.getD (off + i) 0) + if init then 0 else toR P (c.getD i 0)) ∧
      c'.drop len = c.drop len := by
  obtain ⟨c', hc, hp⟩ := multiplyAccumulate_ok R B k h.mult h.symbols h.source h.dest h.old
  refine ⟨c', hc, hp.length, fun i hi => ⟨hp.range i hi, hp.value i hi⟩, ?_⟩
  refine ext_getD 0 (by rw [List.length_drop, List.length_drop, hp.length]) fun i _ => ?_
  rw [getD_drop', getD_drop']
  exact hp.rest _ (by omega)

/-- C42, bytes: the table kernel of every instruction set computes what the scalar loop does. -/
theorem C42_simd8_eq_scalar (R : Ready 8 8 P T) (isa : Isa) {c a : List Nat} {off b len : Nat} {init : Bool}
    (h : MacArgs 8 c a off b len init) (hlen : len % isa.width = 0) :
    macSimd8 8 8 T isa c a off b len init = macScalar 8 8 T c a off b len init ∧
      (macScalar 8 8 T c a off b len init).isSome := by
  obtain ⟨c1, h1, p1⟩ := macSimd8_ok R isa h.mult h.symbols h.source h.dest h.old hlen
  obtain ⟨c2, h2, p2⟩ := macScalar_ok R h.mult h.symbols h.source h.dest h.old
  rw [h1, h2, MacPost.unique R p1 p2]
  exact ⟨rfl, rfl⟩

/-- C42, 16-bit symbols. -/
theorem C42_simd16_eq_scalar (R : Ready 16 16 P T) (isa : Isa) {c a : List Nat} {off b len : Nat} {init : Bool}
    (h : MacArgs 16 c a off b len init) (hlen : len % isa.width = 0) :
    macSimd16 16 16 T isa c a off b len init = macScalar 16 16 T c a off b len init ∧
      (macScalar 16 16 T c a off b len init).isSome := by
  obtain ⟨c1, h1, p1⟩ := macSimd16_ok R isa h.mult h.symbols h.source h.dest h.old hlen
  obtain ⟨c2, h2, p2⟩ := macScalar_ok R h.mult h.symbols h.source h.dest h.old
  rw [h1, h2, MacPost.unique R p1 p2]
  exact ⟨rfl, rfl⟩

/-- C42: so the choice made at compile time and by the alignment of the pointers is not observable. -/
theorem C42_dispatch (R : Ready w M P T) (B : Build) (k : Nat) {c a : List Nat} {off b len : Nat} {init : Bool}
    (h : MacArgs M c a off b len init) :
    multiplyAccumulate w M T B k c a off b len init = macScalar w M T c a off b len init := by
  obtain ⟨c1, h1, p1⟩ := multiplyAccumulate_ok R B k h.mult h.symbols h.source h.dest h.old
  obtain ⟨c2, h2, p2⟩ := macScalar_ok R h.mult h.symbols h.source h.dest h.old
  rw [h1, h2, MacPost.unique R p1 p2]

/-- The hypotheses are met: 32 bytes, all three instruction sets. -/
example : MacArgs 8 (List.replicate 33 7) ((List.range 40).map (· * 5)) 8 77 32 false :=
  ⟨by norm_num, by decide, by decide, by decide, fun _ => by decide⟩
example : MacArgs 16 (List.replicate 33 7) ((List.range 40).map (· * 1500)) 8 60000 32 false :=
  ⟨by norm_num, by decide, by decide, by decide, fun _ => by decide⟩
example : 32 % Isa.avx2.width = 0 ∧ 32 % Isa.sse.width = 0 ∧ 32 % Isa.neon.width = 0 := by decide
example : (∃ T, Ready 8 8 0x11D T) ∧ (∃ T, Ready 16 16 0b10001000000001011 T) :=
  ⟨C18_tests_build.2.2.1, C18_tests_build.2.2.2.2.2.1⟩

/-! ### C41 -/

/-- `data` is `cnt` blocks of `len` symbols, the offset of the last block fits in an `int`, and the `ids` are distinct and allowed. -/
structure Setup (M len cnt : Nat) (data ids : List Nat) : Prop where
  symbols : ∀ x ∈ data, x ≤ 2 ^ M - 1
  size : len * cnt ≤ data.length
  fits : len * (cnt - 1) < 2 ^ 31
  count : cnt ≤ ids.length
  distinct : ids.Nodup
  low : ∀ x ∈ ids, cnt ≤ x
  high : ∀ x ∈ ids, x ≤ 2 ^ M - 1

/-- Block `j` of an array of blocks of length `len`. -/
def blockOf (len : Nat) (data : List Nat) (j : Nat) : List Nat := (data.drop (len * j)).take len

theorem blockOf_getD {len : Nat} {data : List Nat} {j i : Nat} (hi : i < len) :
    (blockOf len data j).getD i 0 = data.getD (len * j + i) 0 := by
  unfold blockOf
  rw [List.getD_eq_getElem?_getD, List.getD_eq_getElem?_getD, List.getElem?_take, if_pos hi, List.getElem?_drop]

theorem blockOf_length {len cnt : Nat} {data : List Nat} {j : Nat} (h : len * cnt ≤ data.length) (hj : j < cnt) :
    (blockOf len data j).length = len := by
  unfold blockOf
  have := mul_block hj h
  rw [List.length_take, List.length_drop]; omega

/-- C41: encoding never fails an assertion or leaves the arrays; the `i`-th symbol of the block is
`Σ data[k][i] / (id + k)`; what the block contained before and the compile options do not matter. -/
theorem C41_encode (R : Ready w M P T) (B : Build) {data : List Nat} {len cnt id : Nat} (hcnt : 0 < cnt)
    (hd : ∀ x ∈ data, x ≤ 2 ^ M - 1) (hsize : len * cnt ≤ data.length)
    (hint : len * (cnt - 1) < 2 ^ 31) (hid : cnt ≤ id ∧ id ≤ 2 ^ M - 1) :
    letI := irr R
    ∃ b, b.length = len ∧ (∀ x ∈ b, x ≤ 2 ^ M - 1) ∧
      (∀ i, i < len → toR P (b.getD i 0) = ∑ k ∈ range cnt, toR P ((blockOf len data k).getD i 0) / (toR P id + toR P k)) ∧
      ∀ block, len ≤ block.length → encode w M T B data block id len cnt = some (b ++ block.drop len) := by
  haveI := irr R
  have hQ : 0 < 2 ^ M := by positivity
  have key : ∀ block, len ≤ block.length → ∃ b', encode w M T B data block id len cnt = some b' ∧
      Acc P M block data len (fun k => (toR P id + toR P k)⁻¹) cnt b' :=
    fun block hb => encode_ok R B hd hsize hint hb hid.1 hid.2
  obtain ⟨b, hb, hA⟩ := key (List.replicate len 0) (by rw [List.length_replicate])
  have hbl : b.length = len := by rw [hA.length, List.length_replicate]
  refine ⟨b, hbl, ?_, ?_, ?_⟩
  · intro x hx
    obtain ⟨i, hi, rfl⟩ := List.getElem_of_mem hx
    rw [getElem_eq_getD hi 0]
    exact hA.range hcnt i (by omega)
  · intro i hi
    rw [hA.value hcnt i hi]
    refine sum_congr rfl fun k _ => ?_
    rw [blockOf_getD hi, div_eq_mul_inv, mul_comm]
  · intro block hbk
    obtain ⟨b', hb', hA'⟩ := key block hbk
    rw [hb']
    congr 1
    refine ext_getD 0 ?_ fun i _ => ?_
    · rw [List.length_append, List.length_drop, hbl, hA'.length]; omega
    · by_cases hi : i < len
      · rw [List.getD_append _ _ _ _ (by omega)]
        have r1 := hA.range hcnt i hi
        have r2 := hA'.range hcnt i hi
        exact toR_inj R.built.deg (by omega) (by omega) (by rw [hA.value hcnt i hi, hA'.value hcnt i hi])
      · rw [List.getD_append_right _ _ _ _ (by omega), hA'.rest i (by omega), getD_drop', hbl]
        congr 1; omega

/-- C41: encode `data` under any `cnt` distinct ids, each block into its own buffer `buf j` and by a
program compiled as `Be j`; put the results one after the other (`blocks`); decode block `idx` from
them, into any buffer, with any content of the members: the result is the block of the data. -/
theorem C41_roundtrip (R : Ready w M P T) {data ids : List Nat} {len cnt idx : Nat} (h : Setup M len cnt data ids)
    (hidx : idx < cnt) (Be : Nat → Build) (Bd : Build) {buf enc : Nat → List Nat} {blocks out : List Nat} (st : Nat × Nat)
    (hbuf : ∀ j, j < cnt → len ≤ (buf j).length)
    (henc : ∀ j, j < cnt → encode w M T (Be j) data (buf j) (ids.getD j 0) len cnt = some (enc j))
    (hblocks : ∀ j, j < cnt → blockOf len blocks j = (enc j).take len) (hsym : ∀ x ∈ blocks, x ≤ 2 ^ M - 1)
    (hsize : len * cnt ≤ blocks.length) (hout : len ≤ out.length) :
    ∃ st', decode w M T Bd st out blocks ids idx len cnt = some (blockOf len data idx ++ out.drop len, st') := by
  haveI := irr R
  have hQ : 0 < 2 ^ M := by positivity
  have hmem : ∀ k, k < cnt → ids.getD k 0 ∈ ids := fun k hk => by
    rw [← getElem_eq_getD (show k < ids.length by have := h.count; omega) 0]
    exact List.getElem_mem _
  have hlo : ∀ k, k < cnt → cnt ≤ ids.getD k 0 := fun k hk => h.low _ (hmem k hk)
  have hhi : ∀ k, k < cnt → ids.getD k 0 ≤ 2 ^ M - 1 := fun k hk => h.high _ (hmem k hk)
  have hinj : ∀ k l, k < cnt → l < cnt → ids.getD k 0 = ids.getD l 0 → k = l := fun k l hk hl he => by
    have hc := h.count
    rw [← getElem_eq_getD (show k < ids.length by omega) 0, ← getElem_eq_getD (show l < ids.length by omega) 0] at he
    exact (List.Nodup.getElem_inj_iff h.distinct).1 he
  obtain ⟨⟨o, st'⟩, ho, hA⟩ := decode_ok R Bd (st := st) (idx := idx) hsym hsize h.fits hout h.high h.count hlo hidx hinj
  refine ⟨st', ?_⟩
  rw [ho]
  dsimp only at hA
  congr 2
  have hbl := blockOf_length h.size hidx
  refine ext_getD 0 ?_ fun i _ => ?_
  · rw [List.length_append, hbl, List.length_drop, hA.length]; omega
  by_cases hi : i < len
  · rw [List.getD_append _ _ _ _ (by omega), blockOf_getD hi]
    have hc0 : 0 < cnt := by omega
    have r1 := hA.range hc0 i hi
    have r2 := getD_le h.symbols (len * idx + i)
    refine toR_inj R.built.deg (by omega) (by omega) ?_
    rw [hA.value hc0 i hi]
    have hval : ∀ j, j < cnt → toR P (blocks.getD (len * j + i) 0) =
        ∑ k ∈ range cnt, (toR P (ids.getD j 0) + toR P k)⁻¹ * toR P (data.getD (len * k + i) 0) := by
      intro j hj
      obtain ⟨e, he, hE⟩ := encode_ok R (Be j) h.symbols h.size h.fits (hbuf j hj) (hlo j hj) (hhi j hj)
      rw [henc j hj] at he
      obtain rfl := Option.some.inj he
      rw [← blockOf_getD hi, hblocks j hj, List.getD_eq_getElem?_getD, List.getElem?_take, if_pos hi,
        ← List.getD_eq_getElem?_getD, hE.value hc0 i hi]
    rw [sum_congr rfl fun j hj => by rw [hval j (mem_range.1 hj)]]
    exact cauchy_solve (x := fun k => toR P (ids.getD k 0)) (y := fun k => toR P k)
      (fun k hk l hl he => hinj k l (by simpa using hk) (by simpa using hl)
        (toR_inj R.built.deg (by have := hhi k (by simpa using hk); omega) (by have := hhi l (by simpa using hl); omega) he))
      (fun k hk l hl he => by
        have hk' : k < cnt := by simpa using hk
        have hl' : l < cnt := by simpa using hl
        have := hlo k hk'
        have := hhi k hk'
        exact toR_inj R.built.deg (by omega) (by omega) he)
      (fun j hj k hk => by
        have := hlo j hj
        have := hhi j hj
        exact add_ne R (hhi j hj) (by omega) (by omega))
      hidx (fun k => toR P (data.getD (len * k + i) 0))
  · rw [List.getD_append_right _ _ _ _ (by omega), hA.rest i (by omega), getD_drop', hbl]
    congr 1; omega

/-- C41: a decoder call does not depend on earlier calls: whatever they left in the members, the
output is the same. -/
theorem C41_history (R : Ready w M P T) {blocks ids out : List Nat} {len cnt idx : Nat} (B B' : Build) (st st' : Nat × Nat)
    (h : Setup M len cnt blocks ids) (hidx : idx < cnt) (hout : len ≤ out.length) :
    ∃ o s s', decode w M T B st out blocks ids idx len cnt = some (o, s) ∧
      decode w M T B' st' out blocks ids idx len cnt = some (o, s') := by
  haveI := irr R
  have hQ : 0 < 2 ^ M := by positivity
  have hmem : ∀ k, k < cnt → ids.getD k 0 ∈ ids := fun k hk => by
    rw [← getElem_eq_getD (show k < ids.length by have := h.count; omega) 0]
    exact List.getElem_mem _
  have hinj : ∀ k l, k < cnt → l < cnt → ids.getD k 0 = ids.getD l 0 → k = l := fun k l hk hl he => by
    have hc := h.count
    rw [← getElem_eq_getD (show k < ids.length by omega) 0, ← getElem_eq_getD (show l < ids.length by omega) 0] at he
    exact (List.Nodup.getElem_inj_iff h.distinct).1 he
  have key := fun (B : Build) (st : Nat × Nat) => decode_ok R B (st := st) (idx := idx) (out := out) h.symbols h.size h.fits hout
    h.high h.count (fun k hk => h.low _ (hmem k hk)) hidx hinj
  obtain ⟨⟨o, s⟩, h1, A1⟩ := key B st
  obtain ⟨⟨o', s'⟩, h2, A2⟩ := key B' st'
  dsimp only at A1 A2
  have : o = o' := by
    refine ext_getD 0 (A1.length.trans A2.length.symm) fun i _ => ?_
    by_cases hi : i < len
    · have r1 := A1.range (by omega) i hi
      have r2 := A2.range (by omega) i hi
      exact toR_inj R.built.deg (by omega) (by omega) (by rw [A1.value (by omega) i hi, A2.value (by omega) i hi])
    · rw [A1.rest i (by omega), A2.rest i (by omega)]
  exact ⟨o, s, s', h1, by rw [h2, this]⟩

theorem forUp_none {β : Type} {n : Nat} {b : β} {f : Nat → β → Option β} {k : Nat} (hk : k < n) (hf : ∀ c, f k c = none) : forUp 0 n b f = none := by
  cases h : forUp 0 n b f with
  | none => rfl
  | some r =>
    have := forUp_some_inv (fun j _ => j ≤ k) (Nat.zero_le n) (Nat.zero_le k) h (fun j s s' _ _ hj e => by
      rcases Nat.lt_or_eq_of_le hj with h' | rfl
      · exact h'
      · rw [hf] at e; cases e)
    omega

/-- C41: the bound on the offset of the last block is needed: beyond it the product `block_len * k` overflows and both functions have undefined behaviour, however large the arrays are. -/
theorem C41_overflow (B : Build) (st : Nat × Nat) {data blocks ids out block : List Nat} {len cnt id idx : Nat} (hc : 2 ^ 31 ≤ len * (cnt - 1)) :
    encode w M T B data block id len cnt = none ∧ decode w M T B st out blocks ids idx len cnt = none := by
  have h0 : 0 < cnt := by
    rcases Nat.eq_zero_or_pos cnt with rfl | h
    · simp at hc
    · exact h
  have hn : intMul len (cnt - 1) = none := by
    unfold intMul assertUB
    rw [if_neg (by omega)]; rfl
  constructor
  · unfold encode
    cases h : assertUB (cnt ≤ id ∧ id ≤ gN M) with
    | none => rfl
    | some u =>
      rw [sb]
      refine forUp_none (k := cnt - 1) (by omega) fun c => ?_
      rw [hn]
      cases cauchyMatrix w M T id (cnt - 1) <;> rfl
  · unfold decode
    refine forUp_none (k := cnt - 1) (by omega) fun c => ?_
    obtain ⟨c, s⟩ := c
    dsimp only
    rw [hn]
    cases inverseCauchy w M T s ids idx (cnt - 1) cnt <;> rfl

/-- Two GiB and more of bytes are reached with 129 blocks of 16 MiB. -/
example : 2 ^ 31 ≤ 2 ^ 24 * (129 - 1) := by decide

/-! A case that meets the hypotheses: GF(256), three blocks of two bytes, ids 200, 3 and 77. -/
example : Setup 8 2 3 [1, 255, 0, 7, 99, 100] [200, 3, 77] :=
  ⟨by decide, by decide, by decide, by decide, by decide, by decide, by decide⟩

/-- And a complete run: field tables built, the three blocks encoded and every block decoded, on a
machine with AVX2 for one of the encoders, and garbage in the members. -/
example : ∃ T, Ready 8 8 0x11D T ∧ ∃ enc : Nat → List Nat,
    (∀ j, j < 3 → encode 8 8 T ⟨some .avx2, true, fun _ => true⟩ [1, 255, 0, 7, 99, 100] [0, 0] ([200, 3, 77].getD j 0) 2 3
      = some (enc j) ∧ (enc j).length = 2 ∧ ∀ x ∈ enc j, x ≤ 255) ∧
    ∀ idx, idx < 3 → ∃ st', decode 8 8 T ⟨none, true, fun _ => true⟩ (5, 6) [9, 9, 9] (enc 0 ++ enc 1 ++ enc 2) [200, 3, 77] idx 2 3 =
      some (blockOf 2 [1, 255, 0, 7, 99, 100] idx ++ [9], st') := by
  obtain ⟨T, R⟩ := C18_tests_build.2.2.1
  have S : Setup 8 2 3 [1, 255, 0, 7, 99, 100] [200, 3, 77] := ⟨by decide, by decide, by decide, by decide, by decide, by decide, by decide⟩
  have hid : ∀ j, j < 3 → 3 ≤ [200, 3, 77].getD j 0 ∧ [200, 3, 77].getD j 0 ≤ 2 ^ 8 - 1 := by decide
  have he : ∀ j, j < 3 → ∃ b, encode 8 8 T ⟨some .avx2, true, fun _ => true⟩ [1, 255, 0, 7, 99, 100] [0, 0]
      ([200, 3, 77].getD j 0) 2 3 = some b ∧ b.length = 2 ∧ ∀ x ∈ b, x ≤ 255 := fun j hj => by
    obtain ⟨b, h1, h2, _, h4⟩ := C41_encode R ⟨some .avx2, true, fun _ => true⟩ (data := [1, 255, 0, 7, 99, 100]) (len := 2)
      (by omega) S.symbols S.size S.fits (hid j hj)
    exact ⟨b, by rw [h4 [0, 0] le_rfl]; simp, h1, h2⟩
  have hch : ∃ enc : Nat → List Nat, ∀ j, j < 3 → encode 8 8 T ⟨some .avx2, true, fun _ => true⟩ [1, 255, 0, 7, 99, 100] [0, 0]
      ([200, 3, 77].getD j 0) 2 3 = some (enc j) ∧ (enc j).length = 2 ∧ ∀ x ∈ enc j, x ≤ 255 := by
    choose! enc henc using he
    exact ⟨enc, henc⟩
  obtain ⟨enc, henc⟩ := hch
  refine ⟨T, R, enc, henc, fun idx hidx => ?_⟩
  obtain ⟨l0, r0⟩ := (henc 0 (by omega)).2
  obtain ⟨l1, r1⟩ := (henc 1 (by omega)).2
  obtain ⟨l2, r2⟩ := (henc 2 (by omega)).2
  refine C41_roundtrip (out := [9, 9, 9]) R S hidx _ _ (5, 6) (buf := fun _ => [0, 0]) (fun _ _ => le_rfl)
    (fun j hj => (henc j hj).1) ?_ ?_ ?_ (by decide)
  · intro j hj
    have : j = 0 ∨ j = 1 ∨ j = 2 := by omega
    unfold blockOf
    rcases this with rfl | rfl | rfl
    · rw [List.append_assoc, Nat.mul_zero, List.drop_zero, List.take_append_of_le_length (by omega)]
    · rw [List.append_assoc, List.drop_append_of_le_length (by omega), List.drop_eq_nil_of_le (by omega), List.nil_append,
        List.take_append_of_le_length (by omega)]
    · rw [List.drop_append, List.drop_eq_nil_of_le (by rw [List.length_append]; omega), List.nil_append, List.length_append, l0, l1,
        List.drop_zero]
  · intro x hx
    rw [List.mem_append, List.mem_append] at hx
    rcases hx with (hx | hx) | hx
    exacts [r0 x hx, r1 x hx, r2 x hx]
  · rw [List.length_append, List.length_append, l0, l1, l2]

end Verif.Cauchy
