import Verif.Bits.ProofStream2
/-
Properties C09 and C10 (bitstream.hh).
-/
namespace Verif.Bits

/-! ### Specification: one flat bit array and a position -/

/-- Abstract state. -/
structure Abs where
  bits : List Bool
  pos : Nat
  deriving DecidableEq

/-- The abstract state of a stream object. -/
def abs (s : Stream) : Abs := ⟨flat s.buf, s.pos⟩

/-- Write a bit string at the position and advance; outside the array is UB. -/
def specWrite (a : Abs) (new : List Bool) : Option Abs :=
  if new = [] ∨ a.pos + new.length ≤ a.bits.length then
    some ⟨overwrite a.bits a.pos new, a.pos + new.length⟩ else none

/-- Read `n` bits at the position and advance; outside the array is UB. -/
def specRead (a : Abs) (n : Nat) : Option (Abs × List Bool) :=
  if n = 0 ∨ a.pos + n ≤ a.bits.length then
    some (⟨a.bits, a.pos + n⟩, (a.bits.drop a.pos).take n) else none

/-- The public operations.  `readbytes dst n` reads into the array `dst`. -/
inductive SOp where
  | seek (p : Nat)
  | tell
  | reset
  | putbit (b : Bool)
  | getbit
  | putbyte (b : BitVec 8)
  | getbyte
  | writebytes (src : List (BitVec 8))
  | readbytes (dst : List (BitVec 8)) (n : Nat)
  | writebits (W : Nat) (b : BitVec W) (n : Nat)
  | readbits (W : Nat) (n : Nat)

/-- What a call returns: nothing, an `int`, or a value, given by its bits. -/
inductive SOut where
  | unit
  | int (n : Nat)
  | val (bits : List Bool)

/-- Preconditions on arguments alone: no more bits than the integer type has, and the
destination is large enough. -/
def SOp.Valid : SOp → Prop
  | .readbytes dst n => n ≤ dst.length
  | .writebits W _ n => n ≤ W
  | .readbits W n => n ≤ W
  | _ => True

/-- One call on the model. -/
def Stream.call (s : Stream) : SOp → Option (Stream × SOut)
  | .seek p => some (s.seek p, .unit)
  | .tell => some (s, .int s.tell)
  | .reset => s.reset.map fun s => (s, .unit)
  | .putbit b => (s.putbit b).map fun s => (s, .unit)
  | .getbit => s.getbit.map fun r => (r.1, .val [r.2])
  | .putbyte b => (s.putbyte b).map fun s => (s, .unit)
  | .getbyte => s.getbyte.map fun r => (r.1, .val (bitsLE r.2))
  | .writebytes src => (s.writebytes src src.length).map fun s => (s, .unit)
  | .readbytes dst n => (s.readbytes dst n).map fun r => (r.1, .val (flat r.2))
  | .writebits _ b n => (s.writebits b n).map fun s => (s, .unit)
  | .readbits W n => (s.readbits W n).map fun r => (r.1, .val (bitsLE r.2))

/-- One call on the specification. -/
def specCall (a : Abs) : SOp → Option (Abs × SOut)
  | .seek p => some (⟨a.bits, p⟩, .unit)
  | .tell => some (a, .int a.pos)
  | .reset => some (⟨List.replicate a.bits.length false, 0⟩, .unit)
  | .putbit b => (specWrite a [b]).map fun a => (a, .unit)
  | .getbit => (specRead a 1).map fun r => (r.1, .val r.2)
  | .putbyte b => (specWrite a (bitsLE b)).map fun a => (a, .unit)
  | .getbyte => (specRead a 8).map fun r => (r.1, .val r.2)
  | .writebytes src => (specWrite a (flat src)).map fun a => (a, .unit)
  | .readbytes dst n => (specRead a (8 * n)).map fun r => (r.1, .val (overwrite (flat dst) 0 r.2))
  | .writebits _ b n => (specWrite a ((bitsLE b).take n)).map fun a => (a, .unit)
  | .readbits W n =>
    (specRead a n).map fun r => (r.1, .val (r.2 ++ List.replicate (W - n) false))

/-- A history of calls. -/
def Stream.run (s : Stream) : List SOp → Option (Stream × List SOut)
  | [] => some (s, [])
  | o :: os => (s.call o).bind fun r => (r.1.run os).map fun t => (t.1, r.2 :: t.2)

/-- A history on the specification. -/
def specRun (a : Abs) : List SOp → Option (Abs × List SOut)
  | [] => some (a, [])
  | o :: os => (specCall a o).bind fun r => (specRun r.1 os).map fun t => (t.1, r.2 :: t.2)

/-! ### Auxiliary -/

theorem flat_nil : flat [] = [] := rfl

theorem flat_cons (b : BitVec 8) (t : List (BitVec 8)) : flat (b :: t) = bitsLE b ++ flat t := by
  apply ext_getD false
  · simp [length_flat, length_bitsLE]; omega
  · intro i _
    rw [getD_flat]
    by_cases h : i < 8
    · rw [List.getD_append _ _ _ _ (by rw [length_bitsLE]; exact h), getD_bitsLE]
      unfold bitAt
      rw [show i / 8 = 0 by omega, show i % 8 = i by omega]; rfl
    · rw [List.getD_append_right _ _ _ _ (by rw [length_bitsLE]; omega), length_bitsLE, getD_flat]
      unfold bitAt
      rw [show i / 8 = (i - 8) / 8 + 1 by omega, show i % 8 = (i - 8) % 8 by omega]; rfl

theorem flat_length_inj {a b : List (BitVec 8)} {l : List Bool} (h : flat a = l)
    (hl : l.length = 8 * b.length) : a.length = b.length := by
  have := congrArg List.length h
  rw [length_flat] at this; omega

theorem overwrite_nil (l : List Bool) (p : Nat) : overwrite l p [] = l := by
  simp [overwrite]

theorem map_eq_some_flat {x : Option (List (BitVec 8))} {l : List Bool}
    (h : x.map flat = some l) : ∃ b, x = some b ∧ flat b = l := by
  cases x with
  | none => simp at h
  | some b => exact ⟨b, rfl, by simpa using h⟩

theorem putbit_eq (s : Stream) (b : Bool) : (s.putbit b).map abs = specWrite (abs s) [b] := by
  unfold Stream.putbit specWrite abs
  simp only [length_flat, List.length_singleton]
  by_cases h : s.pos / 8 < s.buf.length
  · simp only [rd_getD h, wr_of_lt h, Option.bind_eq_bind, Option.bind_some]
    rw [if_pos (c := [b] = [] ∨ s.pos + 1 ≤ 8 * s.buf.length) (by omega)]
    change some _ = some _
    dsimp only
    congr 2
    rw [flat_set _ (s.pos / 8) (s.pos % 8) _ [b] h (by simp; omega)]
    · congr 1; omega
    · intro j hj
      rw [putbit_val _ _ _ _ (by omega) hj]
      simp only [List.length_singleton]
      by_cases hc : s.pos % 8 ≤ j ∧ j < s.pos % 8 + 1
      · rw [if_pos hc, if_pos hc, show j - s.pos % 8 = 0 by omega]; rfl
      · rw [if_neg hc, if_neg hc]
  · rw [rd_none (by omega), if_neg (c := [b] = [] ∨ s.pos + 1 ≤ 8 * s.buf.length) (by simp; omega)]
    rfl

theorem bit_and_one8 (x : BitVec 8) (s : Nat) :
    (((x >>> s) &&& 1#8) != 0#8) = x.getLsbD s := by
  have : (x >>> s) &&& 1#8 = if x.getLsbD s then 1#8 else 0#8 := by
    apply BitVec.eq_of_getLsbD_eq
    intro i hi
    simp only [BitVec.getLsbD_and, BitVec.getLsbD_ushiftRight, BitVec.getLsbD_one]
    by_cases h0 : i = 0
    · subst h0
      cases h : x.getLsbD s <;> simp [h]
    · cases x.getLsbD s <;> simp [h0]
  rw [this]; cases x.getLsbD s <;> rfl

theorem take1_drop (l : List Bool) (p : Nat) (h : p < l.length) :
    (l.drop p).take 1 = [l.getD p false] := by
  rw [List.drop_eq_getElem_cons h, List.take_succ_cons, List.take_zero,
    List.getD_eq_getElem _ _ h]

theorem getbit_eq (s : Stream) :
    s.getbit.map (fun r => (abs r.1, [r.2])) = specRead (abs s) 1 := by
  unfold Stream.getbit specRead abs
  simp only [length_flat]
  by_cases h : s.pos / 8 < s.buf.length
  · simp only [rd_getD h, Option.bind_eq_bind, Option.bind_some, bit_and_one8]
    rw [if_pos (by omega), take1_drop _ _ (by rw [length_flat]; omega), getD_flat]
    rfl
  · rw [rd_none (by omega), if_neg (by omega)]; rfl

theorem putbyte_eq (s : Stream) (b : BitVec 8) :
    (s.putbyte b).map abs = specWrite (abs s) (bitsLE b) := by
  unfold Stream.putbyte specWrite abs
  have hp := putAny_eq s.buf s.pos b
  simp only [length_flat, length_bitsLE]
  by_cases h : s.pos + 8 ≤ 8 * s.buf.length
  · rw [if_pos h] at hp
    obtain ⟨b', hb', hf⟩ := map_eq_some_flat hp
    rw [hb', if_pos (Or.inr h)]
    change some _ = some _
    dsimp only
    rw [hf]
  · rw [if_neg h, Option.map_eq_none_iff] at hp
    simp only [hp, Option.bind_eq_bind, Option.bind_none]
    rw [if_neg]; · rfl
    rintro (h1 | h1)
    · have := congrArg List.length h1; simp [length_bitsLE] at this
    · exact h h1

theorem getbyte_eq (s : Stream) :
    s.getbyte.map (fun r => (abs r.1, bitsLE r.2)) = specRead (abs s) 8 := by
  unfold Stream.getbyte specRead abs
  have hp := getAny_eq s.buf s.pos
  simp only [length_flat]
  by_cases h : s.pos + 8 ≤ 8 * s.buf.length
  · rw [if_pos h] at hp
    rw [if_pos (Or.inr h)]
    rw [Option.map_eq_some_iff] at hp
    obtain ⟨b', hb', hf⟩ := hp
    rw [hb']
    change some _ = some _
    dsimp only
    rw [hf]
  · rw [if_neg h, Option.map_eq_none_iff] at hp
    simp only [hp, Option.bind_eq_bind, Option.bind_none]
    rw [if_neg (by omega)]; rfl

theorem writeLoop_eq (pos : Nat) (src : List (BitVec 8))
    (f : Nat → List (BitVec 8) → Option (List (BitVec 8)))
    (hf : ∀ i buf, (hi : i < src.length) → (f i buf).map flat =
      if pos + 8 * i + 8 ≤ 8 * buf.length then
        some (overwrite (flat buf) (pos + 8 * i) (bitsLE src[i])) else none) :
    ∀ n i buf, i + n = src.length →
      (forN n i buf f).map flat =
        if n = 0 ∨ pos + 8 * (i + n) ≤ 8 * buf.length then
          some (overwrite (flat buf) (pos + 8 * i) (flat (src.drop i))) else none := by
  intro n
  induction n with
  | zero =>
    intro i buf h
    rw [List.drop_eq_nil_of_le (by omega), flat_nil, overwrite_nil]
    simp [forN]
  | succ n ih =>
    intro i buf h
    have hi : i < src.length := by omega
    have hs := hf i buf hi
    by_cases h1 : pos + 8 * i + 8 ≤ 8 * buf.length
    · rw [if_pos h1] at hs
      obtain ⟨b', hb', hfl⟩ := map_eq_some_flat hs
      have hlen : b'.length = buf.length := by
        refine flat_length_inj hfl ?_
        rw [length_overwrite, length_flat]
        rw [length_flat, length_bitsLE]; omega
      simp only [forN, hb', Option.bind_some]
      rw [ih (i + 1) b' (by omega), hlen, hfl]
      by_cases h2 : pos + 8 * (i + (n + 1)) ≤ 8 * buf.length
      · rw [if_pos (by omega), if_pos (by omega)]
        congr 1
        have e : pos + 8 * (i + 1) = pos + 8 * i + (bitsLE src[i]).length := by
          rw [length_bitsLE]; omega
        rw [e, overwrite_overwrite, List.drop_eq_getElem_cons hi, flat_cons]
        rw [length_bitsLE, length_flat, length_flat, List.length_drop]; omega
      · rw [if_neg (by omega)]
        have hn : n ≠ 0 := by rintro rfl; omega
        rw [if_neg (by omega)]
    · rw [if_neg h1, Option.map_eq_none_iff] at hs
      simp only [forN, hs, Option.bind_none, Option.map_none]
      rw [if_neg (by omega)]

theorem specWrite_flat (a : Abs) (src : List (BitVec 8)) : specWrite a (flat src) =
    if src.length = 0 ∨ a.pos + 8 * src.length ≤ a.bits.length then
      some ⟨overwrite a.bits a.pos (flat src), a.pos + 8 * src.length⟩ else none := by
  unfold specWrite
  simp only [length_flat]
  have : flat src = [] ↔ src.length = 0 := by
    rw [← List.length_eq_zero_iff, length_flat]; omega
  simp only [this]

theorem writebytes_eq (s : Stream) (src : List (BitVec 8)) :
    (s.writebytes src src.length).map abs = specWrite (abs s) (flat src) := by
  rw [specWrite_flat]
  unfold Stream.writebytes abs
  simp only [length_flat]
  have key : (if s.pos % 8 ≠ 0 then
      forUp 0 src.length s.buf fun i buf => do
        let v ← rd src i
        putUnaligned buf (s.pos / 8 + i) (s.pos % 8) v
    else
      forUp 0 src.length s.buf fun i buf => do
        let v ← rd src i
        wr buf (s.pos / 8 + i) v).map flat =
      if src.length = 0 ∨ s.pos + 8 * src.length ≤ 8 * s.buf.length then
        some (overwrite (flat s.buf) s.pos (flat src)) else none := by
    by_cases h : s.pos % 8 ≠ 0
    · rw [if_pos h]
      have := writeLoop_eq s.pos src (fun i buf => do
        let v ← rd src i
        putUnaligned buf (s.pos / 8 + i) (s.pos % 8) v) (by
          intro i buf hi
          simp only [rd_of_lt hi, Option.bind_eq_bind, Option.bind_some]
          rw [putUnaligned_eq _ _ _ _ (by omega) (by omega)]
          rw [show 8 * (s.pos / 8 + i) + s.pos % 8 = s.pos + 8 * i by omega])
        src.length 0 s.buf (by omega)
      simpa [forUp] using this
    · rw [if_neg h]
      have := writeLoop_eq s.pos src (fun i buf => do
        let v ← rd src i
        wr buf (s.pos / 8 + i) v) (by
          intro i buf hi
          simp only [rd_of_lt hi, Option.bind_eq_bind, Option.bind_some]
          rw [putAligned_eq]
          rw [show 8 * (s.pos / 8 + i) = s.pos + 8 * i by omega])
        src.length 0 s.buf (by omega)
      simpa [forUp] using this
  by_cases h : src.length = 0 ∨ s.pos + 8 * src.length ≤ 8 * s.buf.length
  · rw [if_pos h] at key ⊢
    obtain ⟨b', hb', hf⟩ := map_eq_some_flat key
    rw [hb']
    change some _ = some _
    dsimp only
    rw [hf]
  · rw [if_neg h, Option.map_eq_none_iff] at key
    rw [if_neg h]
    rw [key]; rfl

theorem readLoop_eq (pos len : Nat) (buf : List (BitVec 8))
    (g : Nat → Option (BitVec 8))
    (hg : ∀ i, (g i).map bitsLE =
      if pos + 8 * i + 8 ≤ 8 * buf.length then
        some (((flat buf).drop (pos + 8 * i)).take 8) else none) :
    ∀ n i dst, i + n = len → len ≤ dst.length →
      (forN n i dst (fun i dst => do let v ← g i; wr dst i v)).map flat =
        if n = 0 ∨ pos + 8 * (i + n) ≤ 8 * buf.length then
          some (overwrite (flat dst) (8 * i) (((flat buf).drop (pos + 8 * i)).take (8 * n)))
          else none := by
  intro n
  induction n with
  | zero =>
    intro i dst h _
    simp [forN, overwrite_nil]
  | succ n ih =>
    intro i dst h hl
    have hs := hg i
    by_cases h1 : pos + 8 * i + 8 ≤ 8 * buf.length
    · rw [if_pos h1, Option.map_eq_some_iff] at hs
      obtain ⟨v, hv, hfl⟩ := hs
      have hi : i < dst.length := by omega
      simp only [forN, hv, Option.bind_eq_bind, Option.bind_some, wr_of_lt hi]
      have := ih (i + 1) (dst.set i v) (by omega) (by simpa using hl)
      simp only [Option.bind_eq_bind] at this
      rw [this]
      have hset : flat (dst.set i v) = overwrite (flat dst) (8 * i) (bitsLE v) := by
        have := putAligned_eq dst i v
        rw [wr_of_lt hi, if_pos (by omega)] at this
        simpa using this
      by_cases h2 : pos + 8 * (i + (n + 1)) ≤ 8 * buf.length
      · rw [if_pos (by omega), if_pos (by omega), hset]
        congr 1
        have e : 8 * (i + 1) = 8 * i + (bitsLE v).length := by rw [length_bitsLE]; omega
        rw [e, overwrite_overwrite, hfl]
        · congr 1
          rw [show 8 * (n + 1) = 8 + 8 * n by omega, List.take_add, List.drop_drop,
            show pos + (8 * i + (List.take 8 (List.drop (pos + 8 * i) (flat buf))).length) =
              pos + 8 * i + 8 by rw [List.length_take, List.length_drop, length_flat]; omega]
        · rw [length_bitsLE, length_flat, List.length_take]; omega
      · rw [if_neg (by omega)]
        have hn : n ≠ 0 := by rintro rfl; omega
        rw [if_neg (by omega)]
    · rw [if_neg h1, Option.map_eq_none_iff] at hs
      simp only [forN, hs, Option.bind_eq_bind, Option.bind_none, Option.map_none]
      rw [if_neg (by omega)]

theorem readbytes_eq (s : Stream) (dst : List (BitVec 8)) (n : Nat) (hn : n ≤ dst.length) :
    (s.readbytes dst n).map (fun r => (abs r.1, flat r.2)) =
      (specRead (abs s) (8 * n)).map fun r => (r.1, overwrite (flat dst) 0 r.2) := by
  unfold Stream.readbytes specRead abs
  simp only [length_flat]
  have key : (if s.pos % 8 ≠ 0 then
      forUp 0 n dst fun i dst => do
        let v ← getUnaligned s.buf (s.pos / 8 + i) (s.pos % 8)
        wr dst i v
    else
      forUp 0 n dst fun i dst => do
        let v ← rd s.buf (s.pos / 8 + i)
        wr dst i v).map flat =
      if 8 * n = 0 ∨ s.pos + 8 * n ≤ 8 * s.buf.length then
        some (overwrite (flat dst) 0 (((flat s.buf).drop s.pos).take (8 * n))) else none := by
    have e0 : (8 * n = 0 ∨ s.pos + 8 * n ≤ 8 * s.buf.length) ↔
      (n = 0 ∨ s.pos + 8 * (0 + n) ≤ 8 * s.buf.length) := by omega
    by_cases h : s.pos % 8 ≠ 0
    · rw [if_pos h]
      have := readLoop_eq s.pos n s.buf
        (fun i => getUnaligned s.buf (s.pos / 8 + i) (s.pos % 8)) (by
          intro i
          rw [getUnaligned_eq _ _ _ (by omega) (by omega)]
          rw [show 8 * (s.pos / 8 + i) + s.pos % 8 = s.pos + 8 * i by omega])
        n 0 dst (by omega) hn
      simp only [e0]
      simpa only [forUp, Nat.mul_zero, Nat.add_zero, Nat.sub_zero] using this
    · rw [if_neg h]
      have := readLoop_eq s.pos n s.buf (fun i => rd s.buf (s.pos / 8 + i)) (by
          intro i
          rw [getAligned_eq]
          rw [show 8 * (s.pos / 8 + i) = s.pos + 8 * i by omega])
        n 0 dst (by omega) hn
      simp only [e0]
      simpa only [forUp, Nat.mul_zero, Nat.add_zero, Nat.sub_zero] using this
  by_cases h : 8 * n = 0 ∨ s.pos + 8 * n ≤ 8 * s.buf.length
  · rw [if_pos h] at key ⊢
    obtain ⟨b', hb', hf⟩ := map_eq_some_flat key
    rw [hb']
    change some _ = some _
    dsimp only
    rw [hf]
  · rw [if_neg h, Option.map_eq_none_iff] at key
    rw [if_neg h]
    rw [key]; rfl

theorem specWrite_append (a : Abs) (x y : List Bool) (hx : x ≠ []) :
    (specWrite a x).bind (fun a => specWrite a y) = specWrite a (x ++ y) := by
  unfold specWrite
  have hx' : 0 < x.length := List.length_pos_iff.2 hx
  by_cases h1 : a.pos + x.length ≤ a.bits.length
  · rw [if_pos (Or.inr h1), Option.bind_some]
    simp only [length_overwrite _ _ _ h1]
    by_cases h2 : y = []
    · subst h2
      rw [if_pos (Or.inl rfl), if_pos (by right; simpa using h1)]
      simp [overwrite_nil]
    · have hy : 0 < y.length := List.length_pos_iff.2 h2
      by_cases h3 : a.pos + x.length + y.length ≤ a.bits.length
      · rw [if_pos (Or.inr h3), if_pos (by right; simp; omega), overwrite_overwrite _ _ _ _ h3]
        simp [Nat.add_assoc]
      · rw [if_neg (by simp [h2]; omega), if_neg (by simp [hx]; omega)]
  · rw [if_neg (by simp [hx]; omega), if_neg (by simp [hx]; omega)]; rfl

theorem writebits_val (x v : BitVec 8) (bit copy j : Nat) (hb : bit + copy ≤ 8) (hj : j < 8) :
    ((~~~(((1#8 <<< copy) - 1#8) <<< bit) &&& x) |||
      ((((1#8 <<< copy) - 1#8) &&& v) <<< bit)).getLsbD j =
      if bit ≤ j ∧ j < bit + copy then v.getLsbD (j - bit) else x.getLsbD j := by
  simp only [BitVec.getLsbD_or, BitVec.getLsbD_and, BitVec.getLsbD_not,
    BitVec.getLsbD_shiftLeft, hj, decide_true, Bool.true_and]
  by_cases h : bit ≤ j
  · rw [mask_bit copy (by omega) (j - bit) (by omega)]
    by_cases h2 : j < bit + copy
    · rw [if_pos ⟨h, h2⟩]; simp [show ¬ j < bit by omega, show j - bit < copy by omega]
    · rw [if_neg (by omega)]; simp [show ¬ j < bit by omega, show ¬ j - bit < copy by omega]
  · rw [if_neg (by omega)]; simp [show j < bit by omega]

theorem writebitsLoop_eq {W : Nat} (b : BitVec W) : ∀ (fuel : Nat) (s : Stream) (num sum : Nat),
    num ≤ fuel → sum + num ≤ W →
    (writebitsLoop b fuel s num sum).map abs = specWrite (abs s) (((bitsLE b).drop sum).take num) := by
  intro fuel
  induction fuel with
  | zero =>
    intro s num sum h _
    have : num = 0 := by omega
    subst this
    simp [writebitsLoop, specWrite, overwrite_nil, abs]
  | succ fuel ih =>
    intro s num sum h hW
    by_cases hn : num = 0
    · subst hn
      simp [writebitsLoop, specWrite, overwrite_nil, abs]
    · unfold writebitsLoop
      rw [if_neg hn]
      obtain ⟨copy, hcopy⟩ : ∃ c, c = min (8 - s.pos % 8) num := ⟨_, rfl⟩
      have hc1 : 0 < copy := by omega
      have hc8 : s.pos % 8 + copy ≤ 8 := by omega
      have hcn : copy ≤ num := by omega
      simp only [← hcopy]
      have hsplit : ((bitsLE b).drop sum).take num =
          ((bitsLE b).drop sum).take copy ++ ((bitsLE b).drop (sum + copy)).take (num - copy) := by
        conv => lhs; rw [show num = copy + (num - copy) by omega, List.take_add, List.drop_drop]
      have hlc : (((bitsLE b).drop sum).take copy).length = copy := by
        simp [length_bitsLE]; omega
      have hne : ((bitsLE b).drop sum).take copy ≠ [] := by
        intro h; rw [h] at hlc; simp at hlc; omega
      rw [hsplit, ← specWrite_append _ _ _ hne]
      have ha : assertUB (sum < max W 32) = some () := by simp [assertUB]; omega
      simp only [ha, Option.bind_eq_bind, Option.bind_some]
      by_cases hin : s.pos / 8 < s.buf.length
      · simp only [rd_getD hin, Option.bind_some, wr_of_lt hin]
        rw [ih _ _ _ (by omega) (by omega)]
        have hw : specWrite (abs s) (((bitsLE b).drop sum).take copy) =
            some (abs ⟨s.buf.set (s.pos / 8) ((~~~(((1#8 <<< copy) - 1#8) <<< (s.pos % 8)) &&&
              s.buf.getD (s.pos / 8) 0#8) ||| ((((1#8 <<< copy) - 1#8) &&&
              (b >>> sum).setWidth 8) <<< (s.pos % 8))), s.pos + copy⟩) := by
          unfold specWrite abs
          rw [if_pos (by right; rw [hlc, length_flat]; change s.pos + _ ≤ _; omega)]
          rw [flat_set _ (s.pos / 8) (s.pos % 8) _ (((bitsLE b).drop sum).take copy) hin
            (by rw [hlc]; exact hc8)]
          · rw [hlc]; congr 3; change s.pos = _; omega
          · intro j hj
            rw [writebits_val _ _ _ _ _ hc8 hj, hlc]
            by_cases hcc : s.pos % 8 ≤ j ∧ j < s.pos % 8 + copy
            · rw [if_pos hcc, if_pos hcc, getD_take, if_pos (by omega), getD_drop, getD_bitsLE]
              simp [BitVec.getLsbD_setWidth, BitVec.getLsbD_ushiftRight]
              omega
            · rw [if_neg hcc, if_neg hcc]
        rw [hw, Option.bind_some]
      · rw [rd_none (by omega)]
        simp only [Option.bind_none, Option.map_none]
        unfold specWrite
        rw [if_neg]; · rfl
        rw [hlc]
        simp only [hne, abs, length_flat, false_or]; omega

theorem writebits_eq {W : Nat} (s : Stream) (b : BitVec W) (n : Nat) (h : n ≤ W) :
    (s.writebits b n).map abs = specWrite (abs s) ((bitsLE b).take n) := by
  have := writebitsLoop_eq b n s n 0 (by omega) (by omega)
  simpa [Stream.writebits] using this

theorem readbitsLoop_eq {W : Nat} : ∀ (fuel : Nat) (s : Stream) (a : BitVec W) (num sum : Nat),
    num ≤ fuel → sum + num ≤ W → (∀ j, sum ≤ j → a.getLsbD j = false) →
    (num = 0 ∨ s.pos + num ≤ 8 * s.buf.length → ∃ r, readbitsLoop fuel s a num sum =
        some (⟨s.buf, s.pos + num⟩, r) ∧
        ∀ j, r.getLsbD j = if j < sum then a.getLsbD j else
          (decide (j < sum + num) && bitAt s.buf (s.pos + (j - sum)))) ∧
    (¬ (num = 0 ∨ s.pos + num ≤ 8 * s.buf.length) → readbitsLoop fuel s a num sum = none) := by
  intro fuel
  induction fuel with
  | zero =>
    intro s a num sum h _ ha
    have : num = 0 := by omega
    subst this
    refine ⟨fun _ => ⟨a, by simp [readbitsLoop], fun j => ?_⟩, fun h => absurd (Or.inl rfl) h⟩
    by_cases hj : j < sum
    · rw [if_pos hj]
    · rw [if_neg hj, ha j (by omega)]; simp; omega
  | succ fuel ih =>
    intro s a num sum h hW ha
    by_cases hn : num = 0
    · subst hn
      refine ⟨fun _ => ⟨a, by simp [readbitsLoop], fun j => ?_⟩, fun h => absurd (Or.inl rfl) h⟩
      by_cases hj : j < sum
      · rw [if_pos hj]
      · rw [if_neg hj, ha j (by omega)]; simp; omega
    · unfold readbitsLoop
      rw [if_neg hn]
      obtain ⟨copy, hcopy⟩ : ∃ c, c = min (8 - s.pos % 8) num := ⟨_, rfl⟩
      have hc1 : 0 < copy := by omega
      have hc8 : s.pos % 8 + copy ≤ 8 := by omega
      have hcn : copy ≤ num := by omega
      have hcw : copy < num → s.pos % 8 + copy = 8 := by omega
      simp only [← hcopy]
      have has : assertUB (sum < max W 32) = some () := by simp [assertUB]; omega
      simp only [has, Option.bind_eq_bind, Option.bind_some]
      by_cases hin : s.pos / 8 < s.buf.length
      · simp only [rd_getD hin, Option.bind_some]
        have hval : ∀ j, (a ||| ((((1#8 <<< copy) - 1#8) &&&
              (s.buf.getD (s.pos / 8) 0#8 >>> (s.pos % 8))).setWidth W) <<< sum).getLsbD j =
            if j < sum then a.getLsbD j else
              (decide (j < sum + copy) && bitAt s.buf (s.pos + (j - sum))) := by
          intro j
          rw [BitVec.getLsbD_or, BitVec.getLsbD_shiftLeft]
          by_cases hj : j < sum
          · rw [if_pos hj]; simp [hj]
          · rw [if_neg hj, ha j (by omega)]
            simp only [hj, decide_false, Bool.not_false, Bool.and_true, Bool.false_or,
              BitVec.getLsbD_setWidth, BitVec.getLsbD_and, BitVec.getLsbD_ushiftRight]
            by_cases hj2 : j < sum + copy
            · rw [mask_bit copy (by omega) _ (by omega)]
              unfold bitAt
              rw [show (s.pos + (j - sum)) / 8 = s.pos / 8 by omega,
                show (s.pos + (j - sum)) % 8 = s.pos % 8 + (j - sum) by omega]
              simp [hj2, show j < W by omega, show j - sum < W by omega,
                show j - sum < copy by omega]
            · by_cases h8 : j - sum < 8
              · rw [mask_bit copy (by omega) _ h8]; simp [hj2, show ¬ j - sum < copy by omega]
              · rw [BitVec.getLsbD_of_ge ((1#8 <<< copy) - 1#8) _ (by omega)]; simp [hj2]
        have ih' := ih ⟨s.buf, s.pos + copy⟩ (a ||| ((((1#8 <<< copy) - 1#8) &&&
              (s.buf.getD (s.pos / 8) 0#8 >>> (s.pos % 8))).setWidth W) <<< sum)
              (num - copy) (sum + copy) (by omega) (by omega) (by
                intro j hj
                rw [hval j, if_neg (by omega)]; simp; omega)
        refine ⟨fun hb => ?_, fun hb => ?_⟩
        · obtain ⟨r, hr, hrv⟩ := ih'.1 (by
            change _ ∨ s.pos + copy + (num - copy) ≤ 8 * s.buf.length; omega)
          refine ⟨r, ?_, fun j => ?_⟩
          · rw [hr]
            change some (Stream.mk s.buf (s.pos + copy + (num - copy)), r) = _
            rw [show s.pos + copy + (num - copy) = s.pos + num by omega]
          · rw [hrv j, hval j]
            by_cases h1 : j < sum
            · rw [if_pos (by omega), if_pos h1, if_pos h1]
            · rw [if_neg h1, if_neg h1]
              by_cases h2 : j < sum + copy
              · rw [if_pos h2]; simp [h2, show j < sum + num by omega]
              · rw [if_neg h2]
                change (_ && bitAt s.buf (s.pos + copy + (j - (sum + copy)))) = _
                rw [show s.pos + copy + (j - (sum + copy)) = s.pos + (j - sum) by omega,
                  show sum + copy + (num - copy) = sum + num by omega]
        · exact ih'.2 (by
            change ¬ (_ ∨ s.pos + copy + (num - copy) ≤ 8 * s.buf.length); omega)
      · refine ⟨fun hb => by omega, fun _ => ?_⟩
        rw [rd_none (by omega)]; rfl

theorem readbits_eq (W : Nat) (s : Stream) (n : Nat) (h : n ≤ W) :
    (s.readbits W n).map (fun r => (abs r.1, bitsLE r.2)) =
      (specRead (abs s) n).map fun r => (r.1, r.2 ++ List.replicate (W - n) false) := by
  obtain ⟨h1, h2⟩ := readbitsLoop_eq (W := W) n s 0#W n 0 (by omega) (by omega) (by simp)
  unfold Stream.readbits specRead abs
  simp only [length_flat]
  by_cases hb : n = 0 ∨ s.pos + n ≤ 8 * s.buf.length
  · obtain ⟨r, hr, hv⟩ := h1 hb
    rw [if_pos hb, hr]
    simp only [Option.map_some, Option.some.injEq, Prod.mk.injEq, true_and]
    apply ext_getD false
    · simp only [length_bitsLE, List.length_append, List.length_take, List.length_drop,
        length_flat, List.length_replicate]; omega
    · intro i hi
      rw [length_bitsLE] at hi
      rw [getD_bitsLE, hv i, if_neg (by omega)]
      have hlt : (((flat s.buf).drop s.pos).take n).length = n := by
        rw [List.length_take, List.length_drop, length_flat]; omega
      by_cases hin : i < n
      · rw [List.getD_append _ _ _ _ (by omega), getD_take, if_pos hin, getD_drop, getD_flat]
        simp [hin]
      · rw [List.getD_append_right _ _ _ _ (by omega)]
        simp [hin, List.getD_eq_getElem?_getD, List.getElem?_replicate]
        split <;> rfl
  · rw [if_neg hb, h2 hb]; rfl

theorem reset_eq (s : Stream) :
    s.reset.map abs = some ⟨List.replicate (flat s.buf).length false, 0⟩ := by
  unfold Stream.reset
  rw [forUp_fill (g := fun _ => 0#8) (Nat.le_refl _)
    (fun j l hj hl => wr_of_lt (by omega))]
  simp only [List.drop_length, List.append_nil, Option.bind_eq_bind, Option.bind_some]
  change some _ = some _
  congr 1
  unfold abs
  congr 1
  apply ext_getD false
  · simp [length_flat]
  · intro i hi
    rw [getD_flat]
    unfold bitAt
    have : ((List.range s.buf.length).map fun _ => 0#8).getD (i / 8) 0#8 = 0#8 := by
      simp [List.getD_eq_getElem?_getD]
      cases (List.range s.buf.length)[i / 8]? <;> rfl
    rw [this]
    simp [List.getD_eq_getElem?_getD, List.getElem?_replicate]
    split <;> rfl

/-! ### Property theorems -/

/-- One call refines the flat bit array (including: it is UB exactly when the
specification's range check fails). -/
theorem C10_call_refines_bit_array (s : Stream) (o : SOp) (hv : o.Valid) :
    (s.call o).map (fun r => (abs r.1, r.2)) = specCall (abs s) o := by
  cases o with
  | seek p => rfl
  | tell => rfl
  | reset =>
    have := reset_eq s
    simp only [Stream.call, specCall, Option.map_map]
    rw [Option.map_eq_some_iff] at this
    obtain ⟨t, ht, he⟩ := this
    rw [ht]; simp only [Option.map_some, Function.comp, he]; rfl
  | putbit b =>
    simp only [Stream.call, specCall, Option.map_map, ← putbit_eq]; rfl
  | getbit =>
    simp only [Stream.call, specCall, Option.map_map, ← getbit_eq]; rfl
  | putbyte b =>
    simp only [Stream.call, specCall, Option.map_map, ← putbyte_eq]; rfl
  | getbyte =>
    simp only [Stream.call, specCall, Option.map_map, ← getbyte_eq]; rfl
  | writebytes src =>
    simp only [Stream.call, specCall, Option.map_map, ← writebytes_eq]; rfl
  | readbytes dst n =>
    have := readbytes_eq s dst n hv
    simp only [Stream.call, specCall, Option.map_map]
    have := congrArg (Option.map fun r : Abs × List Bool => (r.1, SOut.val r.2)) this
    simp only [Option.map_map] at this
    exact this
  | writebits W b n =>
    simp only [Stream.call, specCall, Option.map_map, ← writebits_eq s b n hv]; rfl
  | readbits W n =>
    have := readbits_eq W s n hv
    simp only [Stream.call, specCall, Option.map_map]
    have := congrArg (Option.map fun r : Abs × List Bool => (r.1, SOut.val r.2)) this
    simp only [Option.map_map] at this
    exact this

/-- **C10.** Every history of calls, freely mixing bit-wise and byte-wise operations, on a
stream with arbitrary buffer contents and position: the stream is UB exactly when the flat
bit-array specification leaves the array, and otherwise all returned values and the final
contents and position are those of the bit array. -/
theorem C10_stream_refines_bit_array (s : Stream) (os : List SOp) (hv : ∀ o ∈ os, o.Valid) :
    (s.run os).map (fun r => (abs r.1, r.2)) = specRun (abs s) os := by
  induction os generalizing s with
  | nil => rfl
  | cons o os ih =>
    have h := C10_call_refines_bit_array s o (hv o (by simp))
    simp only [Stream.run, specRun, ← h]
    cases hc : s.call o with
    | none => rfl
    | some r =>
      simp only [Option.bind_some, Option.map_some, Option.map_map]
      rw [← ih r.1 (fun o ho => hv o (by simp [ho])), Option.map_map]
      rfl

example : ∀ o ∈ [SOp.writebits 32 0xABC#32 12, .seek 3, .putbyte 0x5a#8, .readbits 8 5], o.Valid := by
  intro o ho
  simp at ho
  rcases ho with rfl | rfl | rfl | rfl <;> simp [SOp.Valid]

example : (specRun ⟨List.replicate 24 false, 0⟩
    [SOp.writebits 32 0xABC#32 12, .seek 3, .putbyte 0x5a#8, .readbits 8 5]).isSome = true := by
  decide

/-- **C10** frame: a successful operation never changes a bit outside `p..p+n-1`, and its
window is exactly the written string. -/
theorem C10_write_frame (a a' : Abs) (new : List Bool) (h : specWrite a new = some a') :
    a'.bits.length = a.bits.length ∧ a'.pos = a.pos + new.length ∧
    ∀ i, a'.bits.getD i false = if a.pos ≤ i ∧ i < a.pos + new.length then
      new.getD (i - a.pos) false else a.bits.getD i false := by
  unfold specWrite at h
  split at h
  · rename_i hc
    cases h
    rcases hc with rfl | hc
    · refine ⟨by simp [overwrite], rfl, fun i => ?_⟩
      simp [overwrite_nil]
      omega
    · exact ⟨length_overwrite _ _ _ hc, rfl, fun i => getD_overwrite _ _ _ _ hc⟩
  · cases h

/-- The observable part of a run. -/
def Stream.outs (s : Stream) (os : List SOp) : Option (List SOut × Nat) :=
  (s.run os).map fun r => (r.2, r.1.pos)

theorem outs_eq (s : Stream) (os : List SOp) (hv : ∀ o ∈ os, o.Valid) :
    s.outs os = (specRun (abs s) os).map fun r => (r.2, r.1.pos) := by
  rw [← C10_stream_refines_bit_array s os hv, Option.map_map]; rfl

theorem specRun_wr (a : Abs) (o o' : SOp) (new : List Bool) (k : List Bool → List Bool)
    (ho : ∀ a, specCall a o = (specWrite a new).map fun a => (a, .unit))
    (ho' : ∀ a, specCall a o' = (specRead a new.length).map fun r => (r.1, .val (k r.2)))
    (hin : a.pos + new.length ≤ a.bits.length) :
    (specRun a [o, .seek a.pos, o', .tell]).map (fun r => (r.2, r.1.pos)) =
      some ([.unit, .unit, .val (k new), .int (a.pos + new.length)], a.pos + new.length) := by
  have hov : ((overwrite a.bits a.pos new).drop a.pos).take new.length = new := by
    unfold overwrite
    rw [List.append_assoc, List.drop_append_of_le_length (by rw [List.length_take]; omega),
      List.drop_eq_nil_of_le (by rw [List.length_take]; omega), List.nil_append, List.take_left']
    rfl
  have h1 : specCall a o = some (⟨overwrite a.bits a.pos new, a.pos + new.length⟩, .unit) := by
    rw [ho, specWrite, if_pos (Or.inr hin)]; rfl
  have h2 : specCall ⟨overwrite a.bits a.pos new, a.pos⟩ o' =
      some (⟨overwrite a.bits a.pos new, a.pos + new.length⟩, .val (k new)) := by
    rw [ho', specRead]
    simp only [length_overwrite _ _ _ hin]
    rw [if_pos (Or.inr hin), hov]; rfl
  have h3 : ∀ b : Abs, specCall b (.seek a.pos) = some (⟨b.bits, a.pos⟩, .unit) := fun _ => rfl
  have h4 : ∀ b : Abs, specCall b .tell = some (b, .int b.pos) := fun _ => rfl
  simp only [specRun, h1, h2, h3, h4, Option.bind_some, Option.map_some]

/-- **C09** bits: `writebits(b, n)`, seek back, `readbits(n)` returns the low `n` bits of `b`
(as an integer: `b mod 2^n`) and leaves the position at `p+n`. -/
theorem C09_writebits_readbits (W : Nat) (s : Stream) (b : BitVec W) (n : Nat) (hn : n ≤ W)
    (hin : s.pos + n ≤ 8 * s.buf.length) :
    s.outs [.writebits W b n, .seek s.pos, .readbits W n, .tell] =
      some ([.unit, .unit, .val (bitsLE (BitVec.ofNat W (b.toNat % 2 ^ n))), .int (s.pos + n)],
        s.pos + n) := by
  rw [outs_eq _ _ (by intro o ho; simp at ho; rcases ho with rfl | rfl | rfl | rfl <;>
    simp [SOp.Valid, hn])]
  have hlen : ((bitsLE b).take n).length = n := by simp [length_bitsLE, hn]
  have hbits : (bitsLE b).take n ++ List.replicate (W - n) false =
      bitsLE (BitVec.ofNat W (b.toNat % 2 ^ n)) := by
    apply ext_getD false
    · simp [length_bitsLE]; omega
    · intro i hi
      have hi' : i < W := by simp [length_bitsLE] at hi; omega
      rw [getD_bitsLE, BitVec.getLsbD_ofNat]
      simp only [hi', decide_true, Bool.true_and, Nat.testBit_mod_two_pow]
      by_cases h : i < n
      · rw [List.getD_append _ _ _ _ (by omega), getD_take, if_pos h, getD_bitsLE]
        simp [h, BitVec.testBit_toNat]
      · rw [List.getD_append_right _ _ _ _ (by omega)]
        simp [h, List.getD_eq_getElem?_getD, List.getElem?_replicate]
        split <;> rfl
  have := specRun_wr (abs s) (.writebits W b n) (.readbits W n) ((bitsLE b).take n)
    (fun l => l ++ List.replicate (W - n) false) (fun a => rfl) (fun a => by rw [hlen]; rfl)
    (by rw [hlen]; change s.pos + n ≤ (flat s.buf).length; rw [length_flat]; exact hin)
  rw [hlen, hbits] at this
  exact this

/-- **C09** single bits. -/
theorem C09_putbit_getbit (s : Stream) (b : Bool) (hin : s.pos + 1 ≤ 8 * s.buf.length) :
    s.outs [.putbit b, .seek s.pos, .getbit, .tell] =
      some ([.unit, .unit, .val [b], .int (s.pos + 1)], s.pos + 1) := by
  rw [outs_eq _ _ (by intro o ho; simp at ho; rcases ho with rfl | rfl | rfl | rfl <;>
    simp [SOp.Valid])]
  exact specRun_wr (abs s) (.putbit b) .getbit [b] id (fun a => rfl) (fun a => rfl)
    (by change s.pos + 1 ≤ (flat s.buf).length; rw [length_flat]; exact hin)

/-- **C09** single bytes. -/
theorem C09_putbyte_getbyte (s : Stream) (b : BitVec 8) (hin : s.pos + 8 ≤ 8 * s.buf.length) :
    s.outs [.putbyte b, .seek s.pos, .getbyte, .tell] =
      some ([.unit, .unit, .val (bitsLE b), .int (s.pos + 8)], s.pos + 8) := by
  rw [outs_eq _ _ (by intro o ho; simp at ho; rcases ho with rfl | rfl | rfl | rfl <;>
    simp [SOp.Valid])]
  have := specRun_wr (abs s) (.putbyte b) .getbyte (bitsLE b) id (fun a => rfl)
    (fun a => by rw [length_bitsLE]; rfl)
    (by rw [length_bitsLE]; change s.pos + 8 ≤ (flat s.buf).length; rw [length_flat]; exact hin)
  rw [length_bitsLE] at this
  exact this

/-- **C09** byte arrays: `writebytes` then `readbytes` into an array of the same size returns
the same bytes. -/
theorem C09_writebytes_readbytes (s : Stream) (src dst : List (BitVec 8))
    (hd : dst.length = src.length) (hin : s.pos + 8 * src.length ≤ 8 * s.buf.length) :
    s.outs [.writebytes src, .seek s.pos, .readbytes dst src.length, .tell] =
      some ([.unit, .unit, .val (flat src), .int (s.pos + 8 * src.length)],
        s.pos + 8 * src.length) := by
  rw [outs_eq _ _ (by intro o ho; simp at ho; rcases ho with rfl | rfl | rfl | rfl <;>
    simp [SOp.Valid, hd])]
  have := specRun_wr (abs s) (.writebytes src) (.readbytes dst src.length) (flat src)
    (fun l => overwrite (flat dst) 0 l) (fun a => rfl) (fun a => by rw [length_flat]; rfl)
    (by rw [length_flat]; change s.pos + _ ≤ (flat s.buf).length; rw [length_flat]; exact hin)
  rw [length_flat] at this
  have e : overwrite (flat dst) 0 (flat src) = flat src := by
    unfold overwrite
    rw [List.take_zero, List.nil_append, List.drop_eq_nil_of_le (by simp [length_flat, hd]),
      List.append_nil]
  rw [e] at this
  exact this

/-- The bits determine the bytes, so equal `flat` values above mean equal byte arrays. -/
theorem C09_flat_injective (a b : List (BitVec 8)) (h : flat a = flat b) : a = b := by
  have hl : a.length = b.length := by
    have := congrArg List.length h; simp only [length_flat] at this; omega
  apply ext_getD 0#8 hl
  intro i hi
  apply BitVec.eq_of_getLsbD_eq
  intro j hj
  have := congrArg (fun l => l.getD (8 * i + j) false) h
  simp only [getD_flat, bitAt] at this
  rwa [show (8 * i + j) / 8 = i by omega, show (8 * i + j) % 8 = j by omega] at this

example : (⟨[1#8, 2#8, 3#8], 5⟩ : Stream).pos + 13 ≤ 8 * ([1#8, 2#8, 3#8]).length := by decide

end Verif.Bits
