import Verif.Cauchy.Bytes
import Verif.Cauchy.Props
import Verif.CauchyPF.Props
import Verif.Permute.Props
/- C71: whole buffers through the erasure codes, in bytes. -/
namespace Verif.Cauchy
open Verif.GF Verif.GF2 Finset
open Verif.RS (sb)

/-! ### Symbols and bytes -/

theorem littleWord_lt : ∀ bs : List Byte, littleWord bs < 256 ^ bs.length := by
  intro bs
  induction bs with
  | nil => simp [littleWord]
  | cons b bs ih =>
    rw [littleWord, List.length_cons, Nat.pow_succ]
    have := b.isLt
    omega

theorem littleBytes_length : ∀ S v, (littleBytes S v).length = S := by
  intro S
  induction S with
  | zero => intro v; rfl
  | succ S ih => intro v; rw [littleBytes, List.length_cons, ih]

theorem littleBytes_word : ∀ bs : List Byte, littleBytes bs.length (littleWord bs) = bs := by
  intro bs
  induction bs with
  | nil => rfl
  | cons b bs ih =>
    rw [List.length_cons, littleWord, littleBytes]
    have hb := b.isLt
    congr 1
    · apply BitVec.eq_of_toNat_eq
      rw [BitVec.toNat_ofNat]; omega
    · rw [show (b.toNat + 256 * littleWord bs) / 256 = littleWord bs by omega, ih]

theorem littleWord_bytes : ∀ S v, v < 256 ^ S → littleWord (littleBytes S v) = v := by
  intro S
  induction S with
  | zero => intro v h; rw [littleBytes, littleWord]; omega
  | succ S ih =>
    intro v h
    rw [Nat.pow_succ] at h
    rw [littleBytes, littleWord, ih (v / 256) (by omega), BitVec.toNat_ofNat]
    omega

theorem unword_length (big : Bool) (S v : Nat) : (unword big S v).length = S := by
  unfold unword; cases big <;> simp [littleBytes_length]

theorem unword_word (big : Bool) {S : Nat} {bs : List Byte} (h : bs.length = S) : unword big S (word big bs) = bs := by
  subst h
  unfold unword word
  cases big
  · simp [littleBytes_word]
  · simp only [if_true]
    have := littleBytes_word bs.reverse
    rw [List.length_reverse] at this
    rw [this, List.reverse_reverse]

theorem word_unword (big : Bool) {S v : Nat} (h : v < 256 ^ S) : word big (unword big S v) = v := by
  unfold unword word
  cases big <;> simp [littleWord_bytes S v h]

theorem word_lt (big : Bool) (bs : List Byte) : word big bs < 256 ^ bs.length := by
  unfold word
  cases big
  · exact littleWord_lt bs
  · have := littleWord_lt bs.reverse
    rw [List.length_reverse] at this
    exact this

theorem symbols_length (big : Bool) (S : Nat) : ∀ n mem, (symbols big S n mem).length = n := by
  intro n
  induction n with
  | zero => intro mem; rfl
  | succ n ih => intro mem; rw [symbols, List.length_cons, ih]

theorem symbols_lt (big : Bool) (S : Nat) : ∀ n mem, ∀ x ∈ symbols big S n mem, x < 256 ^ S := by
  intro n
  induction n with
  | zero => intro mem x hx; cases hx
  | succ n ih =>
    intro mem x hx
    rw [symbols, List.mem_cons] at hx
    rcases hx with rfl | hx
    · refine lt_of_lt_of_le (word_lt big _) (Nat.pow_le_pow_right (by omega) ?_)
      rw [List.length_take]; omega
    · exact ih _ x hx

theorem bytesOf_length (big : Bool) (S : Nat) (vs : List Nat) : (bytesOf big S vs).length = S * vs.length := by
  unfold bytesOf
  induction vs with
  | nil => simp
  | cons v vs ih => rw [List.flatMap_cons, List.length_append, ih, unword_length, List.length_cons, Nat.mul_succ, Nat.add_comm]

theorem bytesOf_symbols (big : Bool) (S : Nat) : ∀ n mem, S * n ≤ mem.length → bytesOf big S (symbols big S n mem) = mem.take (S * n) := by
  intro n
  induction n with
  | zero => intro mem _; simp [symbols, bytesOf]
  | succ n ih =>
    intro mem h
    rw [Nat.mul_succ] at h
    rw [symbols, bytesOf, List.flatMap_cons, unword_word big (by rw [List.length_take]; omega), ← bytesOf,
      ih _ (by rw [List.length_drop]; omega), Nat.mul_succ, Nat.add_comm, List.take_add]

theorem symbols_bytesOf (big : Bool) (S : Nat) : ∀ vs : List Nat, (∀ x ∈ vs, x < 256 ^ S) → ∀ tail, symbols big S vs.length (bytesOf big S vs ++ tail) = vs := by
  intro vs
  induction vs with
  | nil => intro _ tail; rfl
  | cons v vs ih =>
    intro h tail
    rw [List.length_cons, symbols, bytesOf, List.flatMap_cons, List.append_assoc, List.take_left' (unword_length _ _ _), List.drop_left' (unword_length _ _ _),
      word_unword big (h v (by simp)), ← bytesOf, ih (fun x hx => h x (by simp [hx]))]

theorem symbols_drop (big : Bool) (S : Nat) : ∀ k n mem, (symbols big S (k + n) mem).drop k = symbols big S n (mem.drop (S * k)) := by
  intro k
  induction k with
  | zero => intro n mem; simp
  | succ k ih =>
    intro n mem
    rw [show k + 1 + n = (k + n) + 1 by omega, symbols, List.drop_succ_cons, ih, List.drop_drop, Nat.mul_succ, Nat.add_comm]

theorem symbols_take (big : Bool) (S : Nat) : ∀ k n mem, (symbols big S (k + n) mem).take k = symbols big S k mem := by
  intro k
  induction k with
  | zero => intro n mem; simp [symbols]
  | succ k ih =>
    intro n mem
    rw [show k + 1 + n = (k + n) + 1 by omega, symbols, List.take_succ_cons, ih, symbols]

theorem view_length (big : Bool) (S : Nat) (mem : List Byte) : (view big S mem).length = mem.length / S := symbols_length _ _ _ _

/-- Memory whose first symbols have been replaced. -/
theorem putBack_view (big : Bool) {S : Nat} (hS : 0 < S) (mem : List Byte) (vs : List Nat) (h : vs.length ≤ mem.length / S) :
    putBack big S mem (vs ++ (view big S mem).drop vs.length) = bytesOf big S vs ++ mem.drop (S * vs.length) := by
  obtain ⟨n, hn⟩ : ∃ n, mem.length / S = vs.length + n := ⟨mem.length / S - vs.length, by omega⟩
  have hle : S * (vs.length + n) ≤ mem.length := by rw [← hn]; exact Nat.mul_div_le _ _
  rw [Nat.mul_add] at hle
  unfold putBack view
  rw [hn, symbols_drop, bytesOf, List.flatMap_append, ← bytesOf, ← bytesOf, bytesOf_symbols _ _ _ _ (by rw [List.length_drop]; omega), List.append_assoc]
  congr 1
  rw [List.length_append, symbols_length, Nat.mul_add, ← List.drop_drop, List.take_append_drop]

variable {w M P : Nat} {T : Tab}

theorem as_pos {p : Prop} [Decidable p] (h : p) : assertUB p = some () := if_pos h

theorem encodeBytes_eq (big : Bool) {B : Build} {data block : List Byte} {id S len cnt : Nat} {b : List Nat} (hS : w / 8 = S) (hS0 : 0 < S) (hb : b.length = len)
    (henc : ∀ block, len ≤ block.length → encode w M T B (view big S data) block id len cnt = some (b ++ block.drop len)) (hl : S * len ≤ block.length) :
    encodeBytes w M T big B data block id (S * len) cnt = some (bytesOf big S b ++ block.drop (S * len)) := by
  have hd : len ≤ block.length / S := (Nat.le_div_iff_mul_le hS0).2 (by rw [Nat.mul_comm]; exact hl)
  unfold encodeBytes
  rw [hS, as_pos (Nat.mul_mod_right S len), sb, Nat.mul_div_cancel_left _ hS0, henc _ (by rw [view_length]; exact hd), sb]
  subst hb
  rw [putBack_view big hS0 block b hd]
  rfl

theorem decodeBytes_eq (big : Bool) {B : Build} {st st' : Nat × Nat} {data blocks : List Byte} {ids : List Nat} {idx S len cnt : Nat} {b : List Nat} (hS : w / 8 = S)
    (hS0 : 0 < S) (hb : b.length = len) (hl : S * len ≤ data.length)
    (hdec : decode w M T B st (view big S data) (view big S blocks) ids idx len cnt = some (b ++ (view big S data).drop len, st')) :
    decodeBytes w M T big B st data blocks ids idx (S * len) cnt = some (bytesOf big S b ++ data.drop (S * len), st') := by
  have hd : len ≤ data.length / S := (Nat.le_div_iff_mul_le hS0).2 (by rw [Nat.mul_comm]; exact hl)
  unfold decodeBytes
  rw [hS, as_pos (Nat.mul_mod_right S len), sb, Nat.mul_div_cancel_left _ hS0, hdec, sb]
  subst hb
  dsimp only
  rw [putBack_view big hS0 data b hd]
  rfl

/-- What has been written after `i` blocks. -/
theorem range_flatMap_length (f : Nat → List Byte) (n : Nat) (k : Nat) (h : ∀ j, j < k → (f j).length = n) : ((List.range k).flatMap f).length = n * k := by
  induction k with
  | zero => simp
  | succ k ih =>
    rw [List.range_succ, List.flatMap_append, List.length_append, ih (fun j hj => h j (by omega)), List.flatMap_singleton, h k (by omega), Nat.mul_succ]

theorem bytesOf_flatMap (big : Bool) (S : Nat) (f : Nat → List Nat) (l : List Nat) : l.flatMap (fun j => bytesOf big S (f j)) = bytesOf big S (l.flatMap f) := by
  induction l with
  | nil => rfl
  | cons a l ih => rw [List.flatMap_cons, List.flatMap_cons, ih, bytesOf, bytesOf, bytesOf, List.flatMap_append]

theorem flatMap_lengthN (f : Nat → List Nat) (n : Nat) (k : Nat) (h : ∀ j, j < k → (f j).length = n) : ((List.range k).flatMap f).length = n * k := by
  induction k with
  | zero => simp
  | succ k ih =>
    rw [List.range_succ, List.flatMap_append, List.length_append, ih (fun j hj => h j (by omega)), List.flatMap_singleton, h k (by omega), Nat.mul_succ]

theorem blockOf_flatMap (f : Nat → List Nat) {len cnt : Nat} (h : ∀ j, j < cnt → (f j).length = len) {j : Nat} (hj : j < cnt) (tail : List Nat) :
    blockOf len ((List.range cnt).flatMap f ++ tail) j = f j := by
  obtain ⟨n, rfl⟩ : ∃ n, cnt = j + (n + 1) := ⟨cnt - j - 1, by omega⟩
  unfold blockOf
  rw [List.range_add, List.flatMap_append, List.append_assoc, List.drop_left' (flatMap_lengthN f len j (fun i hi => h i (by omega)))]
  rw [List.range_succ_eq_map, List.map_cons, List.flatMap_cons, Nat.add_zero, List.append_assoc, List.take_left' (h j (by omega))]

/-! ### C71 -/

/-- A buffer of `cnt` blocks of `S * len` bytes, read as symbols of `S` bytes each, all of them elements of the field, and distinct identifiers that may be used with it. -/
structure Frame (w M : Nat) (big : Bool) (S len cnt : Nat) (orig : List Byte) (ids : List Nat) : Prop where
  type : w / 8 = S ∧ 0 < S
  field : 2 ^ M ≤ 256 ^ S
  size : orig.length = S * len * cnt
  pos : 0 < cnt
  fits : S * len * (cnt - 1) < 2 ^ 31
  elements : ∀ x ∈ view big S orig, x ≤ 2 ^ M - 1
  count : cnt ≤ ids.length
  distinct : ids.Nodup
  low : ∀ x ∈ ids, cnt ≤ x
  high : ∀ x ∈ ids, x ≤ 2 ^ M - 1

theorem Frame.view_len {big : Bool} {S len cnt : Nat} {orig : List Byte} {ids : List Nat} (F : Frame w M big S len cnt orig ids) :
    (view big S orig).length = len * cnt := by
  rw [view_length, F.size, Nat.mul_assoc, Nat.mul_div_cancel_left _ F.type.2]

theorem Frame.fits' {big : Bool} {S len cnt : Nat} {orig : List Byte} {ids : List Nat} (F : Frame w M big S len cnt orig ids) : len * (cnt - 1) < 2 ^ 31 := by
  refine lt_of_le_of_lt ?_ F.fits
  exact Nat.mul_le_mul_right _ (Nat.le_mul_of_pos_left _ F.type.2)

theorem Frame.setup {big : Bool} {S len cnt : Nat} {orig : List Byte} {ids : List Nat} (F : Frame w M big S len cnt orig ids) :
    Setup M len cnt (view big S orig) ids :=
  ⟨F.elements, by rw [F.view_len], F.fits', F.count, F.distinct, F.low, F.high⟩

theorem Frame.id_ok {big : Bool} {S len cnt : Nat} {orig : List Byte} {ids : List Nat} (F : Frame w M big S len cnt orig ids) {j : Nat} (hj : j < cnt) :
    rd ids j = some (ids.getD j 0) ∧ cnt ≤ ids.getD j 0 ∧ ids.getD j 0 ≤ 2 ^ M - 1 := by
  have hl : j < ids.length := by have := F.count; omega
  have hm : ids.getD j 0 ∈ ids := by rw [← getElem_eq_getD hl 0]; exact List.getElem_mem _
  exact ⟨by rw [rd_of_lt hl, getElem_eq_getD hl 0], F.low _ hm, F.high _ hm⟩

/-- **C71** The encoding loop: block `j` of the buffer holds the bytes of the symbols `Σ orig[k][i] / (id + k)`; the rest of the buffer is left alone. -/
theorem C71_encode (R : Ready w M P T) {big : Bool} {S len cnt : Nat} {orig : List Byte} {ids : List Nat} (F : Frame w M big S len cnt orig ids) (B : Nat → Build) :
    letI := irr R
    ∃ b : Nat → List Nat, (∀ j, j < cnt → (b j).length = len ∧ (∀ x ∈ b j, x ≤ 2 ^ M - 1) ∧ (∀ i, i < len → toR P ((b j).getD i 0) =
        ∑ k ∈ range cnt, toR P ((blockOf len (view big S orig) k).getD i 0) / (toR P (ids.getD j 0) + toR P k))) ∧
      ∀ blocks, S * len * cnt ≤ blocks.length → encodeAll w M T big B orig blocks ids (S * len) cnt =
        some ((List.range cnt).flatMap (fun j => bytesOf big S (b j)) ++ blocks.drop (S * len * cnt)) := by
  haveI := irr R
  have key : ∀ j, ∃ b : List Nat, j < cnt → b.length = len ∧ (∀ x ∈ b, x ≤ 2 ^ M - 1) ∧ (∀ i, i < len → toR P (b.getD i 0) =
        ∑ k ∈ range cnt, toR P ((blockOf len (view big S orig) k).getD i 0) / (toR P (ids.getD j 0) + toR P k)) ∧
        ∀ block, len ≤ block.length → encode w M T (B j) (view big S orig) block (ids.getD j 0) len cnt = some (b ++ block.drop len) := by
    intro j
    by_cases hj : j < cnt
    · obtain ⟨b, h1, h2, h3, h4⟩ := C41_encode R (B j) F.pos F.elements (by rw [F.view_len]) F.fits' (F.id_ok hj).2
      exact ⟨b, fun _ => ⟨h1, h2, h3, h4⟩⟩
    · exact ⟨[], fun h => absurd h hj⟩
  choose b hb using key
  refine ⟨b, fun j hj => ⟨(hb j hj).1, (hb j hj).2.1, (hb j hj).2.2.1⟩, fun blocks hbl => ?_⟩
  have hlen : ∀ j, j < cnt → (bytesOf big S (b j)).length = S * len := fun j hj => by rw [bytesOf_length, (hb j hj).1]
  unfold encodeAll
  obtain ⟨r, hr, he⟩ := forUp_inv (f := fun i blocks => do
      let off ← intMul (S * len) i
      let id ← rd ids i
      let r ← encodeBytes w M T big (B i) orig (blocks.drop off) id (S * len) cnt
      return blocks.take off ++ r) (fun i (bl : List Byte) => bl = (List.range i).flatMap (fun j => bytesOf big S (b j)) ++ blocks.drop (S * len * i))
    (Nat.zero_le cnt) (s := blocks) (by simp) (by
      intro i bl _ hi h
      have hl := range_flatMap_length (fun j => bytesOf big S (b j)) (S * len) i (fun j hj => hlen j (by omega))
      rw [intMul_ok hi F.fits, sb, (F.id_ok hi).1, sb, h, List.drop_left' hl, List.take_left' hl]
      have hm := mul_block hi hbl
      rw [encodeBytes_eq big F.type.1 F.type.2 (hb i hi).1 (hb i hi).2.2.2 (by rw [List.length_drop]; omega), sb]
      refine Ok.pure ?_
      rw [List.range_succ, List.flatMap_append, List.flatMap_singleton, List.drop_drop, Nat.mul_succ, List.append_assoc])
  rw [hr, he]

/-- **C71** The whole buffer comes back: encode it under the given identifiers into any buffer, decode all blocks into any other; the compile options and the alignment may differ
from block to block, and the members may hold anything. -/
theorem C71_roundtrip (R : Ready w M P T) {big : Bool} {S len cnt : Nat} {orig : List Byte} {ids : List Nat} (F : Frame w M big S len cnt orig ids) (Be Bd : Nat → Build)
    (st : Nat × Nat) {blocks data : List Byte} (hb : blocks.length = S * len * cnt) (hd : S * len * cnt ≤ data.length) :
    ∃ blocks' st', encodeAll w M T big Be orig blocks ids (S * len) cnt = some blocks' ∧
      decodeAll w M T big Bd st data blocks' ids (S * len) cnt = some (orig ++ data.drop (S * len * cnt), st') := by
  haveI := irr R
  have hQ : 0 < 2 ^ M := by positivity
  obtain ⟨b, h1, h2⟩ := C71_encode R F Be
  have hlen : ∀ j, j < cnt → (b j).length = len := fun j hj => (h1 j hj).1
  have hsm : ∀ x ∈ (List.range cnt).flatMap b, x ≤ 2 ^ M - 1 := by
    intro x hx
    rw [List.mem_flatMap] at hx
    obtain ⟨j, hj, hx⟩ := hx
    exact (h1 j (List.mem_range.1 hj)).2.1 x hx
  set blocks' := (List.range cnt).flatMap (fun j => bytesOf big S (b j)) ++ blocks.drop (S * len * cnt) with hbl
  have hnil : blocks' = bytesOf big S ((List.range cnt).flatMap b) := by
    rw [hbl, List.drop_eq_nil_of_le (by omega), List.append_nil, bytesOf_flatMap]
  have hview : view big S blocks' = (List.range cnt).flatMap b := by
    have hv := symbols_bytesOf big S ((List.range cnt).flatMap b) (fun x hx => by have := hsm x hx; have := F.field; omega) []
    rw [List.append_nil] at hv
    unfold view
    rw [hnil, bytesOf_length, Nat.mul_div_cancel_left _ F.type.2]
    exact hv
  have hsize : len * cnt ≤ (view big S blocks').length := by rw [hview, flatMap_lengthN b len cnt hlen]
  have step : ∀ (idx : Nat), idx < cnt → ∀ (out : List Nat) (st : Nat × Nat), len ≤ out.length →
      ∃ st', decode w M T (Bd idx) st out (view big S blocks') ids idx len cnt = some (blockOf len (view big S orig) idx ++ out.drop len, st') := by
    intro idx hidx out st hout
    refine C41_roundtrip R F.setup hidx Be (Bd idx) st (buf := fun _ => List.replicate len 0) (enc := fun j => b j) (by simp) ?_ ?_ ?_ hsize hout
    · intro j hj
      obtain ⟨b', g1, g2, g3, g4⟩ := C41_encode R (Be j) F.pos F.elements (by rw [F.view_len]) F.fits' (F.id_ok hj).2
      rw [g4 _ (by simp), List.drop_eq_nil_of_le (by simp), List.append_nil]
      congr 1
      refine ext_getD 0 (by rw [g1, hlen j hj]) fun i hi => ?_
      rw [g1] at hi
      have r1 := getD_le g2 i
      have r2 := getD_le (h1 j hj).2.1 i
      exact toR_inj R.built.deg (by omega) (by omega) (by rw [g3 i hi, (h1 j hj).2.2 i hi])
    · intro j hj
      rw [hview, ← List.append_nil ((List.range cnt).flatMap b), blockOf_flatMap b hlen hj, List.take_of_length_le (by rw [hlen j hj])]
    · rw [hview]; exact hsm
  refine ⟨blocks', ?_⟩
  unfold decodeAll
  obtain ⟨⟨r, st'⟩, hr, he⟩ := forUp_inv (f := fun i (s : List Byte × (Nat × Nat)) => do
      let off ← intMul (S * len) i
      let (r, st) ← decodeBytes w M T big (Bd i) s.2 (s.1.drop off) blocks' ids i (S * len) cnt
      return (s.1.take off ++ r, st)) (fun i (s : List Byte × (Nat × Nat)) => s.1 = orig.take (S * len * i) ++ data.drop (S * len * i))
    (Nat.zero_le cnt) (s := (data, st)) (by simp) (by
      rintro i ⟨dl, st⟩ _ hi h
      dsimp only at h ⊢
      have hm := mul_block hi (le_of_eq F.size.symm)
      have hm' := mul_block hi hd
      have hl : (orig.take (S * len * i)).length = S * len * i := by rw [List.length_take]; omega
      rw [intMul_ok hi F.fits, sb, h, List.drop_left' hl, List.take_left' hl]
      have hbl := blockOf_length (le_of_eq F.view_len.symm) hi
      obtain ⟨st', hs⟩ := step i hi (view big S (data.drop (S * len * i))) st (by
        rw [view_length]
        refine (Nat.le_div_iff_mul_le F.type.2).2 ?_
        rw [Nat.mul_comm, List.length_drop]; omega)
      rw [decodeBytes_eq big F.type.1 F.type.2 hbl (by rw [List.length_drop]; omega) hs, sb]
      refine Ok.pure ?_
      dsimp only
      have hbytes : bytesOf big S (blockOf len (view big S orig) i) = (orig.drop (S * len * i)).take (S * len) := by
        unfold blockOf view
        obtain ⟨n, rfl⟩ : ∃ n, cnt = i + (1 + n) := ⟨cnt - i - 1, by omega⟩
        rw [F.size, Nat.mul_assoc S len, Nat.mul_div_cancel_left _ F.type.2, show len * (i + (1 + n)) = len * i + (len + len * n) by ring, symbols_drop, symbols_take,
          bytesOf_symbols _ _ _ _ (by rw [List.length_drop, ← Nat.mul_assoc]; omega), Nat.mul_assoc]
      rw [hbytes, List.drop_drop, Nat.mul_succ, ← List.append_assoc, ← List.take_add])
  refine ⟨st', h2 blocks (by omega), ?_⟩
  dsimp only at he
  refine hr.trans ?_
  rw [he, ← F.size, List.take_length]

/-- **C71** Where the symbols take all values of their type (bytes in GF(2^8), 16-bit words in GF(2^16)), there is no condition on the data at all. -/
theorem C71_every_byte {big : Bool} {S len cnt : Nat} {orig : List Byte} {ids : List Nat} (hS : 0 < S) (hlen : orig.length = S * len * cnt) (hcnt : 0 < cnt)
    (hfit : S * len * (cnt - 1) < 2 ^ 31) (hc : cnt ≤ ids.length) (hd : ids.Nodup) (hlow : ∀ x ∈ ids, cnt ≤ x) (hhigh : ∀ x ∈ ids, x < 2 ^ (8 * S)) :
    Frame (8 * S) (8 * S) big S len cnt orig ids := by
  have h256 : (256 : Nat) ^ S = 2 ^ (8 * S) := by rw [Nat.pow_mul]
  refine ⟨⟨Nat.mul_div_cancel_left _ (by omega), hS⟩, by rw [h256], hlen, hcnt, hfit, fun x hx => ?_, hc, hd, hlow, fun x hx => by have := hhigh x hx; omega⟩
  have := symbols_lt big S _ _ x hx
  rw [h256] at this
  omega

/-- **C71** A number of bytes that is no multiple of the size of a symbol is refused. -/
theorem C71_multiple {big : Bool} {B : Build} {st : Nat × Nat} {data block : List Byte} {ids : List Nat} {id idx bb cnt : Nat} (h : bb % (w / 8) ≠ 0) :
    encodeBytes w M T big B data block id bb cnt = none ∧ decodeBytes w M T big B st data block ids idx bb cnt = none := by
  unfold encodeBytes decodeBytes
  rw [show assertUB (bb % (w / 8) = 0) = none from if_neg h]
  exact ⟨rfl, rfl⟩

/-- Three blocks of two 16-bit symbols, with identifiers out of a longer list. -/
example : Frame 16 16 false 2 2 3 [1, 255, 0, 7, 99, 100, 0, 0, 255, 255, 17, 42] [60000, 3, 77, 4, 5] :=
  C71_every_byte (S := 2) (len := 2) (cnt := 3) (by decide) (by decide) (by decide) (by decide) (by decide) (by decide) (by decide) (by decide)

/-! ### The trials of the regression tests -/

/-- The identifiers of a trial are distinct and allowed, whatever is drawn. -/
theorem chooseIdents_ok {wid total cnt : Nat} {mem : List Nat} {hat : Nat → Nat} (hm : mem.length = total) (hw : cnt + total ≤ 2 ^ wid) (hc : cnt ≤ total)
    (hhat : ∀ i, i < cnt → hat i < total) :
    Ok (chooseIdents wid total cnt mem hat) (fun ids => ids.length = total ∧ ids.Nodup ∧ ∀ x ∈ ids, cnt ≤ x ∧ x < cnt + total) := by
  unfold chooseIdents
  rw [forUp_fill (g := fun i => cnt + i) (by omega) (fun j l hj hl => by rw [wr_of_lt (by omega), Nat.mod_eq_of_lt (by omega)]), sb, List.drop_eq_nil_of_le (by omega),
    List.append_nil]
  have h0 : ((List.range total).map (fun i => cnt + i)).Nodup := List.Nodup.map (fun a b h => by simpa using h) List.nodup_range
  refine Ok.mono (forUp_inv (fun _ ids => ids.Perm ((List.range total).map (fun i => cnt + i))) (Nat.zero_le _) (List.Perm.refl _) ?_) ?_
  · intro i ids _ hi hp
    have hl := hp.length_eq
    rw [List.length_map, List.length_range] at hl
    have hh := hhat i hi
    rw [as_pos (by omega), sb]
    obtain ⟨b, hb, _, hperm, _⟩ := Permute.swap_ok ids (i := i) (j := hat i) (by omega) (by omega)
    rw [hb]
    exact Ok.pure (hperm.trans hp)
  · intro ids hp
    refine ⟨by have := hp.length_eq; simpa using this, hp.nodup_iff.2 h0, fun x hx => ?_⟩
    have := hp.mem_iff.1 hx
    rw [List.mem_map] at this
    obtain ⟨i, hi, rfl⟩ := this
    have := List.mem_range.1 hi
    omega

theorem compareAll_ok {α : Type} [DecidableEq α] {data orig : List α} {n : Nat} (h : data.take n = orig.take n) (hn : n ≤ data.length) (ho : n ≤ orig.length) :
    compareAll data orig n = some () := by
  unfold compareAll
  obtain ⟨r, hr, _⟩ := forUp_inv (f := fun i (_ : Unit) => do
    let x ← rd data i
    let y ← rd orig i
    assertUB (x = y)) (fun _ _ => True) (Nat.zero_le n) (s := ()) trivial (fun i _ _ hi _ => by
      rw [rd_of_lt (by omega), sb, rd_of_lt (by omega), sb]
      have he : data[i]? = orig[i]? := by
        rw [← List.getElem?_take_of_lt hi, h, List.getElem?_take_of_lt hi]
      rw [List.getElem?_eq_getElem (by omega), List.getElem?_eq_getElem (by omega)] at he
      rw [as_pos (Option.some.inj he)]
      exact ⟨(), rfl, trivial⟩)
  exact hr

/-- A failed comparison ends the program: passing it means that the first `n` elements are equal. -/
theorem compareAll_some {α : Type} [DecidableEq α] {data orig : List α} {n : Nat} (h : compareAll data orig n = some ()) : ∀ i, i < n → data[i]? = orig[i]? := by
  unfold compareAll at h
  refine forUp_some_inv (fun k _ => ∀ i, i < k → data[i]? = orig[i]?) (Nat.zero_le n) (fun i hi => absurd hi (by omega)) h ?_
  intro j s s' _ hj hI hs i hi
  by_cases hij : i < j
  · exact hI i hij
  obtain rfl : i = j := by omega
  cases h1 : rd data i with
  | none => rw [h1] at hs; cases hs
  | some x =>
    cases h2 : rd orig i with
    | none => rw [h1, h2] at hs; cases hs
    | some y =>
      rw [h1, h2, sb, sb] at hs
      have hxy : x = y := by
        by_contra hne
        rw [show assertUB (x = y) = none from if_neg hne] at hs
        cases hs
      rw [show data[i]? = some x from h1, show orig[i]? = some y from h2, hxy]

/-- **C71** tests/crs_regression_test.cc, every trial it could make: any number of blocks up to half the size of the field, any size of the blocks (in symbols of `M = w` bits), any data, any
identifiers drawn, whatever the buffers and the members held, on any machine: the comparison at the end succeeds. -/
theorem C71_crs_test {S : Nat} (R : Ready (8 * S) (8 * S) P T) (big : Bool) (Be Bd : Nat → Build) (st : Nat × Nat) {len cnt : Nat} {orig data blocks : List Byte} {ids : List Nat}
    {hat : Nat → Nat} (hcnt : 0 < cnt) (hhalf : cnt ≤ 2 ^ (8 * S) / 2) (ho : orig.length = cnt * (S * len)) (hd : data.length = cnt * (S * len))
    (hb : blocks.length = cnt * (S * len)) (hfit : cnt * (S * len) < 2 ^ 31) (hi : ids.length = 2 ^ (8 * S) - cnt) (hhat : ∀ i, i < cnt → i ≤ hat i ∧ hat i ≤ 2 ^ (8 * S) - cnt - 1) :
    Ok (crsTrial (8 * S) (8 * S) T big Be Bd st orig data blocks ids hat (S * len) cnt) (fun _ => True) := by
  have hS : 0 < S := by have := R.hM; omega
  rw [Nat.mul_comm] at ho hd hb hfit
  unfold crsTrial
  obtain ⟨ids', h1, h2, h3, h4⟩ := chooseIdents_ok (wid := 8 * S) (cnt := cnt) (mem := ids) (hat := hat) hi (by omega) (by omega) (fun i hi => by have := hhat i hi; omega)
  have F : Frame (8 * S) (8 * S) big S len cnt orig ids' := C71_every_byte hS ho hcnt
    (lt_of_le_of_lt (Nat.mul_le_mul_left _ (by omega)) hfit) (by omega) h3 (fun x hx => (h4 x hx).1) (fun x hx => by have := h4 x hx; omega)
  obtain ⟨blocks', st', e1, e2⟩ := C71_roundtrip R F Be Bd st hb (le_of_eq hd.symm)
  rw [h1, sb, e1, sb, e2, sb]
  dsimp only
  rw [List.drop_eq_nil_of_le (by omega), List.append_nil, compareAll_ok rfl (by rw [ho, Nat.mul_comm]) (by rw [ho, Nat.mul_comm]), sb]
  exact Ok.pure trivial

/-- The two fields of the test. -/
example : (∃ T, Ready (8 * 1) (8 * 1) 0b100011101 T) ∧ ∃ T, Ready (8 * 2) (8 * 2) 0b10001000000001011 T := ⟨C18_tests_build.2.2.1, C18_tests_build.2.2.2.2.2.1⟩
/-- Its numbers: at most 256 blocks of at most 1024 vectors of 32 elements of 2 bytes. -/
example : 256 * (2 * (1024 * 32)) < 2 ^ 31 ∧ 256 ≤ 2 ^ (8 * 2) / 2 := by decide
example : chooseIdents 8 5 3 [9, 9, 9, 9, 9] (fun i => [4, 1, 4].getD i 0) = some [7, 4, 3, 6, 5] := by decide +kernel

end Verif.Cauchy

namespace Verif.CauchyPF
open Verif.PrimeField Finset
open Verif.Cauchy (chooseIdents chooseIdents_ok compareAll compareAll_ok as_pos)
open Verif.RS (sb)

variable {w P wio L : Nat}

theorem blockOf_append {len j i : Nat} {a b : List Nat} (hj : j < i) (ha : a.length = len * i) : blockOf len (a ++ b) j = blockOf len a j := by
  have hm : len * j + len ≤ len * i := by rw [← Nat.mul_succ]; exact Nat.mul_le_mul_left _ hj
  unfold blockOf
  rw [List.drop_append_of_le_length (by omega), List.take_append_of_le_length (by rw [List.length_drop]; omega)]

theorem blockOf_take {len j i : Nat} {a : List Nat} (hj : j < i) : blockOf len (a.take (len * i)) j = blockOf len a j := by
  have hm : len * j + len ≤ len * i := by rw [← Nat.mul_succ]; exact Nat.mul_le_mul_left _ hj
  unfold blockOf
  rw [List.drop_take, List.take_take, Nat.min_eq_left (by omega)]

/-- **C71** The loops over a prime field: all blocks are encoded one after the other into one buffer, the substitutes stored as values of `IO`; block `j` and substitute `j` are what a single
call gives under identifier `j`; and a decoder (of any state) gets all of the data back from them. -/
theorem C71_prime_field (h : Params w P wio L) [Fact P.Prime] {orig ids : List Nat} {len cnt : Nat} (S : Setup P wio L len cnt orig ids) (hcnt : 0 < cnt) (ho : orig.length = len * cnt)
    {st : St} (hst : Members P L st) {blocks subs : List Nat} (hb : blocks.length = len * cnt) (hs : cnt ≤ subs.length) :
    ∃ blocks' subs' st', encodeAll w P wio L st orig blocks subs ids len cnt = some (blocks', subs', st') ∧ Members P L st' ∧ blocks'.length = len * cnt ∧
      (∀ j, j < cnt → ∃ (s : St) (buf b : List Nat) (s' : St), Members P L s ∧ len ≤ buf.length ∧
        encode w P wio L s orig buf (ids.getD j 0) len cnt = some (b, subs'.getD j 0, s') ∧ blockOf len blocks' j = b.take len) ∧
      ∀ (st : St) (data : List Nat), Members P L st → len * cnt ≤ data.length →
        ∃ st'', decodeAll w P wio L st data blocks' subs' ids len cnt = some (orig ++ data.drop (len * cnt), st'') ∧ Members P L st'' := by
  have h5 := h.five
  have hl := h.len
  have hll := S.len
  have hmem : ∀ k, k < cnt → rd ids k = some (ids.getD k 0) ∧ cnt ≤ ids.getD k 0 ∧ ids.getD k 0 < P / 2 := fun k hk => by
    have hkl : k < ids.length := by have := S.count; omega
    have hm : ids.getD k 0 ∈ ids := by rw [← getElem_eq_getD hkl 0]; exact List.getElem_mem _
    exact ⟨by rw [rd_of_lt hkl, getElem_eq_getD hkl 0], S.low _ hm, S.high _ hm⟩
  have hcP : cnt ≤ P / 2 := by have := hmem 0 hcnt; omega
  obtain ⟨⟨blocks', subs', st'⟩, he, hI⟩ := forUp_inv (f := fun i (s : List Nat × List Nat × St) => do
      let off ← intMul len i
      let id ← rd ids i
      let (r, v, st) ← encode w P wio L s.2.2 orig (s.1.drop off) id len cnt
      let subs ← wr s.2.1 i (v % 2 ^ wio)
      return (s.1.take off ++ r, subs, st))
    (fun i (s : List Nat × List Nat × St) => Members P L s.2.2 ∧ s.1.length = len * cnt ∧ cnt ≤ s.2.1.length ∧
      ∀ j, j < i → ∃ (t : St) (buf b : List Nat) (t' : St), Members P L t ∧ len ≤ buf.length ∧
        encode w P wio L t orig buf (ids.getD j 0) len cnt = some (b, s.2.1.getD j 0, t') ∧ blockOf len s.1 j = b.take len ∧ ∀ x ∈ blockOf len s.1 j, x < P)
    (Nat.zero_le cnt) (s := (blocks, subs, st)) ⟨hst, hb, hs, fun j hj => absurd hj (by omega)⟩ (by
      rintro i ⟨bl, sl, st⟩ _ hi ⟨g1, g2, g3, g4⟩
      dsimp only at g1 g2 g3 g4 ⊢
      have hm := Cauchy.mul_block hi (le_of_eq g2.symm)
      have hdl : len ≤ (bl.drop (len * i)).length := by rw [List.length_drop]; omega
      rw [intMul_ok h.offset h5 (by omega) hi hcP, sb, (hmem i hi).1, sb]
      obtain ⟨b, v, st', e1, e2, u, u1, u2, u3, u4, u5, u6, u7⟩ := C43_encode h g1 (block := bl.drop (len * i)) hcnt S.field S.size hdl S.len (hmem i hi).2
      rw [e1, sb]
      dsimp only
      rw [wr_of_lt (by omega), sb, Nat.mod_eq_of_lt u4]
      refine Ok.pure ⟨e2, ?_, ?_, fun j hj => ?_⟩
      · dsimp only
        rw [List.length_append, List.length_take, u5, List.length_drop]; omega
      · dsimp only
        rw [List.length_set]; exact g3
      dsimp only
      have htl : (bl.take (len * i)).length = len * i := by rw [List.length_take]; omega
      by_cases hji : j < i
      · obtain ⟨t, buf, b', t', k1, k2, k3, k4, k5⟩ := g4 j hji
        rw [blockOf_append hji htl, blockOf_take hji]
        exact ⟨t, buf, b', t', k1, k2, by rw [getD_set, if_neg (by omega)]; exact k3, k4, k5⟩
      · obtain rfl : j = i := by omega
        have hbl : blockOf len (bl.take (len * j) ++ b) j = b.take len := by
          unfold blockOf
          rw [List.drop_left' htl]
        refine ⟨st, bl.drop (len * j), b, st', g1, hdl, by rw [getD_set, if_pos ⟨rfl, by omega⟩]; exact e1, hbl, fun x hx => ?_⟩
        rw [hbl] at hx
        obtain ⟨i, hi, rfl⟩ := List.mem_iff_getElem.1 hx
        rw [List.length_take] at hi
        have := (u7 i (by omega)).2.1
        rw [List.getElem_take, getElem_eq_getD (by omega) 0]
        omega)
  dsimp only at hI
  obtain ⟨i1, i2, i3, i4⟩ := hI
  refine ⟨blocks', subs', st', he, i1, i2, fun j hj => ?_, fun st data hst hd => ?_⟩
  · obtain ⟨t, buf, b', t', k1, k2, k3, k4, k5⟩ := i4 j hj
    exact ⟨t, buf, b', t', k1, k2, k3, k4⟩
  have hsym : ∀ x ∈ blocks', x < P := by
    intro x hx
    obtain ⟨n, hn, rfl⟩ := List.mem_iff_getElem.1 hx
    rw [i2] at hn
    have hl0 : 0 < len := Nat.pos_of_mul_pos_right (by omega : 0 < len * cnt)
    have hj : n / len < cnt := Nat.div_lt_of_lt_mul hn
    obtain ⟨_, _, _, _, _, _, _, _, k5⟩ := i4 (n / len) hj
    have hmod := Nat.mod_lt n hl0
    have hbl := blockOf_getD (data := blocks') (j := n / len) hmod
    rw [Nat.div_add_mod] at hbl
    rw [getElem_eq_getD (by omega) 0, ← hbl]
    have hlen : (blockOf len blocks' (n / len)).length = len := by
      have := Cauchy.mul_block hj (le_of_eq i2.symm)
      unfold blockOf
      rw [List.length_take, List.length_drop]; omega
    rw [← getElem_eq_getD (by omega) 0]
    exact k5 _ (List.getElem_mem _)
  have key : ∀ j, ∃ (t : St) (buf b : List Nat) (t' : St), j < cnt → (Members P L t ∧ len ≤ buf.length ∧
        encode w P wio L t orig buf (ids.getD j 0) len cnt = some (b, subs'.getD j 0, t') ∧ blockOf len blocks' j = b.take len) := by
    intro j
    by_cases hj : j < cnt
    · obtain ⟨t, buf, b', t', k1, k2, k3, k4, _⟩ := i4 j hj
      exact ⟨t, buf, b', t', fun _ => ⟨k1, k2, k3, k4⟩⟩
    · exact ⟨st, [], [], st, fun h => absurd h hj⟩
  choose ste buf enc ste' hk using key
  unfold decodeAll
  obtain ⟨⟨r, st''⟩, hr, hm, hre⟩ := forUp_inv (f := fun i (s : List Nat × St) => do
      let off ← intMul len i
      let (r, st) ← decode w P wio L s.2 (s.1.drop off) blocks' subs' ids i len cnt
      return (s.1.take off ++ r, st)) (fun i (s : List Nat × St) => Members P L s.2 ∧ s.1 = orig.take (len * i) ++ data.drop (len * i))
    (Nat.zero_le cnt) (s := (data, st)) ⟨hst, by simp⟩ (by
      rintro i ⟨dl, st⟩ _ hi ⟨g1, g2⟩
      dsimp only at g1 g2 ⊢
      have hm := Cauchy.mul_block hi (le_of_eq ho.symm)
      have hm' := Cauchy.mul_block hi hd
      have htl : (orig.take (len * i)).length = len * i := by rw [List.length_take]; omega
      rw [intMul_ok h.offset h5 (by omega) hi hcP, sb, g2, List.drop_left' htl, List.take_left' htl]
      obtain ⟨st', hs, hm''⟩ := C43_roundtrip (blocks := blocks') (out := data.drop (len * i)) h S hi (fun j hj => (hk j hj).1) g1 (fun j hj => (hk j hj).2.1) i3 (fun j hj => (hk j hj).2.2.1)
        (fun j hj => (hk j hj).2.2.2) hsym (le_of_eq i2.symm) (by rw [List.length_drop]; omega)
      rw [hs, sb]
      refine Ok.pure ⟨hm'', ?_⟩
      dsimp only
      unfold blockOf
      rw [List.drop_drop, Nat.mul_succ, ← List.append_assoc, ← List.take_add])
  refine ⟨st'', ?_, hm⟩
  dsimp only at hre
  refine hr.trans ?_
  rw [hre, ← ho, List.take_length]

/-- **C71** tests/cpf_regression_test.cc, every trial it could make. -/
theorem C71_cpf_test (h : Params w P wio L) [Fact P.Prime] {st : St} (hst : Members P L st) {len cnt : Nat} {orig data blocks subs ids : List Nat} {hat : Nat → Nat} (hcnt : 0 < cnt)
    (hq : cnt ≤ P / 4) (hlen : len ≤ L) (ho : orig.length = cnt * len) (hv : ∀ x ∈ orig, x < 2 ^ wio ∧ x < P) (hd : data.length = cnt * len) (hb : blocks.length = cnt * len)
    (hs : subs.length = cnt) (hi : ids.length = P / 2 - cnt) (hhat : ∀ i, i < cnt → i ≤ hat i ∧ hat i ≤ P / 2 - cnt - 1) :
    Ok (cpfTrial w P wio L st orig data blocks subs ids hat len cnt) (Members P L) := by
  have h5 := h.five
  have hio := h.io
  rw [Nat.mul_comm] at ho hd hb
  unfold cpfTrial
  obtain ⟨ids', h1, h2, h3, h4⟩ := chooseIdents_ok (wid := wio) (cnt := cnt) (mem := ids) (hat := hat) hi (by omega) (by omega) (fun i hi => by have := hhat i hi; omega)
  have S : Setup P wio L len cnt orig ids' := ⟨fun x hx => (hv x hx).2, fun x hx => (hv x hx).1, le_of_eq ho.symm, hlen, by omega, h3, fun x hx => (h4 x hx).1,
    fun x hx => by have := h4 x hx; omega⟩
  obtain ⟨blocks', subs', st', e1, e2, _, _, e3⟩ := C71_prime_field h S hcnt ho hst hb (le_of_eq hs.symm)
  obtain ⟨st'', e4, e5⟩ := e3 st' data e2 (le_of_eq hd.symm)
  rw [h1, sb, e1, sb]
  dsimp only
  rw [e4, sb]
  dsimp only
  rw [List.drop_eq_nil_of_le (by omega), List.append_nil, compareAll_ok rfl (by rw [ho, Nat.mul_comm]) (by rw [ho, Nat.mul_comm]), sb]
  exact Ok.pure e5

/-- A trial with P = 257. -/
example : (cpfTrial 32 257 8 3 st0 [255, 1, 0, 7] [9, 9, 9, 9] [8, 8, 8, 8] [7, 7] (List.replicate 126 0) (fun i => 100 + i) 2 2).isSome = true := by decide +kernel

end Verif.CauchyPF
