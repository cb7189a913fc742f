import Verif.CauchyPF.Code
/- C43: the Cauchy erasure code over a prime field.  `encode w P wio L st data block id len cnt`
returns the array `block`, the returned substitute and the members, `none` stands for a failed
assertion, an access outside of an array or an uninitialised value; TYPE arithmetic wraps modulo
`2 ^ w`, stores into `IO` wrap modulo `2 ^ wio`. -/
namespace Verif.CauchyPF
open Verif.PrimeField Verif.Cauchy Finset

variable {w P wio L : Nat}

/-- The template arguments: a prime of at least 5 for which a product of four lazily reduced factors
fits in the `w` bits of the type, an `IO` type that holds every field element but the largest, and
MAX_LEN as demanded by the `static_assert`; the offsets of all blocks fit in an `int`. -/
structure Params (w P wio L : Nat) : Prop where
  prime : P.Prime
  five : 5 ≤ P
  wide : (P - 1) * ((P - 1) * (P - 2) * (P - 3)) < 2 ^ w
  io : P - 1 ≤ 2 ^ wio
  len : L < P - 1
  offset : (P - 2) * (P / 2) ≤ 2 ^ 31

theorem Params.isWide (h : Params w P wio L) : Wide w P := ⟨h.prime, h.five, h.wide⟩

/-- Block `j` of an array of blocks of length `len`. -/
def blockOf (len : Nat) (data : List Nat) (j : Nat) : List Nat := (data.drop (len * j)).take len

theorem blockOf_getD {len : Nat} {data : List Nat} {j i : Nat} (hi : i < len) :
    (blockOf len data j).getD i 0 = data.getD (len * j + i) 0 := by
  unfold blockOf
  rw [List.getD_eq_getElem?_getD, List.getD_eq_getElem?_getD, List.getElem?_take, if_pos hi, List.getElem?_drop]

theorem getD_drop' (l : List Nat) (a i : Nat) : (l.drop a).getD i 0 = l.getD (a + i) 0 := by
  rw [List.getD_eq_getElem?_getD, List.getD_eq_getElem?_getD, List.getElem?_drop]

/-- `data` is `cnt` blocks of `len` symbols, each a value of `IO` and below `P`; the `ids` are
distinct and allowed. -/
structure Setup (P wio L len cnt : Nat) (data ids : List Nat) : Prop where
  field : ∀ x ∈ data, x < P
  io : ∀ x ∈ data, x < 2 ^ wio
  size : len * cnt ≤ data.length
  len : len ≤ L
  count : cnt ≤ ids.length
  distinct : ids.Nodup
  low : ∀ x ∈ ids, cnt ≤ x
  high : ∀ x ∈ ids, x < P / 2

/-- C43, encoder: it succeeds from any state of the members; with `v i` the field elements
`Σ data[k][i] / (id + k)`, the block consists of these with `P - 1` replaced by the substitute; the
substitute is none of them; everything fits in the `IO` type. -/
theorem C43_encode (h : Params w P wio L) [Fact P.Prime] {st : St} (hst : Members P L st) {data block : List Nat}
    {id len cnt : Nat} (hcnt : 0 < cnt) (hd : ∀ x ∈ data, x < P) (hsize : len * cnt ≤ data.length) (hblock : len ≤ block.length)
    (hlen : len ≤ L) (hid : cnt ≤ id ∧ id < P / 2) :
    ∃ block' s st', encode w P wio L st data block id len cnt = some (block', s, st') ∧ Members P L st' ∧
      ∃ v : Nat → Nat, (∀ i, i < len → v i < P ∧
        (v i : ZMod P) = ∑ k ∈ range cnt, ((blockOf len data k).getD i 0 : ZMod P) / ((id : ZMod P) + k)) ∧
      (∀ i, i < len → v i ≠ s) ∧ s ≠ P - 1 ∧ s < 2 ^ wio ∧
      block'.length = block.length ∧ block'.drop len = block.drop len ∧
      ∀ i, i < len → block'.getD i 0 = (if v i = P - 1 then s else v i) ∧ block'.getD i 0 < P - 1 ∧ block'.getD i 0 < 2 ^ wio := by
  have hl := h.len
  have hio := h.io
  have h5 := h.five
  obtain ⟨⟨b, s, st'⟩, he, hm, v, hE⟩ := encode_ok h.isWide h.offset h.io h.len hst (block := block) hcnt hd hsize hblock hlen hid.1 hid.2
  dsimp only at hE hm
  have hs := hE.sub
  refine ⟨b, s, st', he, hm, v, fun i hi => ⟨hE.range i hi, ?_⟩, hE.fresh, by omega, by omega, hE.length, ?_, fun i hi => ?_⟩
  · rw [hE.value i hi]
    refine sum_congr rfl fun k _ => ?_
    rw [blockOf_getD hi, div_eq_mul_inv, mul_comm]
  · refine ext_getD 0 (by rw [List.length_drop, List.length_drop, hE.length]) fun i _ => ?_
    rw [getD_drop', getD_drop', hE.out, if_neg (by omega)]
  · have := hE.range i hi
    rw [hE.out, if_pos hi]
    refine ⟨rfl, ?_⟩
    constructor <;> split <;> omega

/-- C43: encode under any `cnt` distinct ids (each call from any state of the members, into its own
buffer), hand over the blocks one after the other and the returned substitutes, and decode block
`idx`, from any state of the members, into any buffer: the result is that block of the data. -/
theorem C43_roundtrip (h : Params w P wio L) [Fact P.Prime] {data ids : List Nat} {len cnt idx : Nat}
    (S : Setup P wio L len cnt data ids) (hidx : idx < cnt) {ste : Nat → St} {st : St} (hste : ∀ j, j < cnt → Members P L (ste j))
    (hst : Members P L st) {buf enc : Nat → List Nat} {ste' : Nat → St} {subs blocks out : List Nat}
    (hbuf : ∀ j, j < cnt → len ≤ (buf j).length) (hsubs : cnt ≤ subs.length)
    (henc : ∀ j, j < cnt → encode w P wio L (ste j) data (buf j) (ids.getD j 0) len cnt = some (enc j, subs.getD j 0, ste' j))
    (hblocks : ∀ j, j < cnt → blockOf len blocks j = (enc j).take len) (hsym : ∀ x ∈ blocks, x < P)
    (hsize : len * cnt ≤ blocks.length) (hout : len ≤ out.length) :
    ∃ st', decode w P wio L st out blocks subs ids idx len cnt = some (blockOf len data idx ++ out.drop len, st') ∧
      Members P L st' := by
  have hW := h.isWide
  have h5 := h.five
  have hl := h.len
  have hlen := S.len
  have hmem : ∀ k, k < cnt → ids.getD k 0 ∈ ids := fun k hk => by
    rw [← getElem_eq_getD (show k < ids.length by have := S.count; omega) 0]
    exact List.getElem_mem _
  have hr : Ids P cnt ids := ⟨S.count, fun k hk => S.low _ (hmem k hk), fun k hk => S.high _ (hmem k hk), fun k l hk hl he => by
    have hc := S.count
    rw [← getElem_eq_getD (show k < ids.length by omega) 0, ← getElem_eq_getD (show l < ids.length by omega) 0] at he
    exact (List.Nodup.getElem_inj_iff S.distinct).1 he⟩
  obtain ⟨⟨o, st'⟩, ho, hm, hol, v, v1, v2, v3⟩ := decode_ok hW (wio := wio) h.offset h.len hst (subs := subs) (idx := idx) hsym hsize hout
    S.len hsubs hr hidx
  dsimp only at hm hol v3
  refine ⟨st', ?_, hm⟩
  rw [ho]
  congr 2
  have hbl : (blockOf len data idx).length = len := by
    have := mul_block hidx S.size
    unfold blockOf
    rw [List.length_take, List.length_drop]; omega
  refine ext_getD 0 ?_ fun i _ => ?_
  · rw [List.length_append, hbl, List.length_drop, hol]; omega
  rw [v3]
  have hdg : ∀ i, data.getD i 0 < P ∧ data.getD i 0 < 2 ^ wio := fun i => by
    by_cases hi : i < data.length
    · rw [← getElem_eq_getD hi 0]; exact ⟨S.field _ (List.getElem_mem hi), S.io _ (List.getElem_mem hi)⟩
    · rw [List.getD_eq_default _ _ (by omega)]
      exact ⟨by omega, by positivity⟩
  by_cases hi : i < len
  · rw [if_pos hi, List.getD_append _ _ _ _ (by omega), blockOf_getD hi]
    have hval : ∀ j, j < cnt → (unsub P (subs.getD j 0) (blocks.getD (len * j + i) 0) : ZMod P) =
        ∑ k ∈ range cnt, ((ids.getD j 0 : ZMod P) + k)⁻¹ * (data.getD (len * k + i) 0 : ZMod P) := by
      intro j hj
      obtain ⟨⟨e, s, se⟩, he, hme, u, hE⟩ := encode_ok hW h.offset h.io h.len (hste j hj) (block := buf j) (by omega) S.field S.size
        (hbuf j hj) S.len (hr.low j hj) (hr.high j hj)
      rw [henc j hj] at he
      obtain ⟨rfl, he2⟩ := Prod.mk.inj (Option.some.inj he)
      obtain ⟨rfl, rfl⟩ := Prod.mk.inj he2
      dsimp only at hE
      have hb : blocks.getD (len * j + i) 0 = if u i = P - 1 then subs.getD j 0 else u i := by
        have := hE.out i
        rw [if_pos hi] at this
        rw [← blockOf_getD hi, hblocks j hj, List.getD_eq_getElem?_getD, List.getElem?_take, if_pos hi,
          ← List.getD_eq_getElem?_getD, this]
      have hu : unsub P (subs.getD j 0) (blocks.getD (len * j + i) 0) = u i := by
        rw [hb]
        unfold unsub
        by_cases hp : u i = P - 1
        · rw [if_pos hp, if_pos rfl, hp]
        · rw [if_neg hp, if_neg (hE.fresh i hi)]
      rw [hu, hE.value i hi]
    have hinv : (v i : ZMod P) = (data.getD (len * idx + i) 0 : ZMod P) := by
      rw [v2 i hi, sum_congr rfl fun j hj => by rw [hval j (mem_range.1 hj)]]
      have hcP : cnt < P / 2 := lt_of_le_of_lt (hr.low idx hidx) (hr.high idx hidx)
      refine cauchy_solve (x := fun k => (ids.getD k 0 : ZMod P)) (y := fun k => (k : ZMod P)) ?_ ?_ ?_ hidx
        (fun k => (data.getD (len * k + i) 0 : ZMod P))
      · intro k hk l hl he
        have hk' : k < cnt := by simpa using hk
        have hl' : l < cnt := by simpa using hl
        have := hr.high k hk'
        have := hr.high l hl'
        exact hr.inj k l hk' hl' ((C21_eq hW.fits (by omega) (by omega)).2 he)
      · intro k hk l hl he
        have hk' : k < cnt := by simpa using hk
        have hl' : l < cnt := by simpa using hl
        exact (C21_eq hW.fits (by omega) (by omega)).2 he
      · intro j hj k hk he
        have := hr.low j hj
        have := hr.high j hj
        have h0 : ((ids.getD j 0 + k : Nat) : ZMod P) = (0 : Nat) := by push_cast; simpa using he
        have := (C21_eq hW.fits (show ids.getD j 0 + k < P by omega) (show 0 < P by omega)).2 h0
        omega
    obtain ⟨d1, d2⟩ := hdg (len * idx + i)
    have := (C21_eq hW.fits (v1 i hi) d1).2 hinv
    rw [this, Nat.mod_eq_of_lt d2]
  · rw [if_neg hi, List.getD_append_right _ _ _ _ (by omega), getD_drop', hbl]
    congr 1; omega

/-- C43: the two configurations named in the claim. -/
theorem C43_params_257 (hL : L < 256) : Params 32 257 8 L := ⟨by norm_num, by norm_num, by norm_num, by norm_num, by omega, by norm_num⟩
theorem C43_params_65537 (hL : L < 65536) : Params 64 65537 16 L := ⟨by norm_num, by norm_num, by norm_num, by norm_num, by omega, by norm_num⟩

/-- C43: the lazy reductions use the width to the full: reducing only every fourth product would
overflow in both configurations, and so would four factors of the largest value. -/
theorem C43_margin : ¬ 256 * (256 * 255 * 254 * 253) < 2 ^ 32 ∧ ¬ 256 ^ 4 < 2 ^ 32 ∧ ¬ 65536 ^ 4 < 2 ^ 64 := by decide

/-! A complete run with P = 257: three blocks of two symbols, garbage in the members. -/
def st0 : St := ⟨[5, 5, 5], List.replicate 33 7, 3, 4⟩
example : Members 257 3 st0 := ⟨rfl, rfl⟩
example : Setup 257 8 3 2 3 [1, 255, 0, 7, 99, 100] [100, 3, 77] :=
  ⟨by decide, by decide, by decide, by decide, by decide, by decide, by decide, by decide⟩
/-- The second block contains the value 256, which is replaced by the substitute 0. -/
example : (encode 32 257 8 3 st0 [3, 1] [9, 9, 9] 2 1 1).map (fun r => (r.1, r.2.1)) = some ([130, 9, 9], 0) := by decide +kernel
example : (encode 32 257 8 3 st0 [255, 1] [9, 9, 9] 2 2 1).map (fun r => (r.1, r.2.1)) = some ([0, 129, 9], 0) := by decide +kernel
example : (decode 32 257 8 3 st0 [9, 9, 9] [0, 129] [0] [2] 0 2 1).map (fun r => r.1) = some [255, 1, 9] := by decide +kernel

end Verif.CauchyPF
