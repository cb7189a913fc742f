import Verif.Cauchy.Simd
/- Encoding and decoding of the Cauchy Reed-Solomon erasure code. -/
namespace Verif.Cauchy
open Verif.GF Verif.GF2 Finset
open Verif.RS (sb)

variable {w M P : Nat} {T : Tab}

theorem multiplyAccumulate_ok (R : Ready w M P T) (B : Build) (k : Nat) {c a : List Nat} {off b len : Nat} {init : Bool}
    (hb : b < 2 ^ M - 1) (ha : ∀ x ∈ a, x ≤ 2 ^ M - 1) (hal : off + len ≤ a.length) (hcl : len ≤ c.length)
    (hc : init = false → ∀ i, i < len → c.getD i 0 ≤ 2 ^ M - 1) :
    Ok (multiplyAccumulate w M T B k c a off b len init) (MacPost P M c a off b len init) := by
  unfold multiplyAccumulate
  cases B.isa with
  | none => exact macScalar_ok R hb ha hal hcl hc
  | some isa =>
    dsimp only
    split
    · rename_i h
      obtain ⟨hk, _, _, hlen⟩ := h
      rcases hk with ⟨rfl, rfl⟩ | ⟨rfl, rfl⟩
      · rw [if_pos rfl]
        exact macSimd8_ok R isa hb ha hal hcl hc hlen
      · rw [if_neg (by omega)]
        exact macSimd16_ok R isa hb ha hal hcl hc hlen
    · exact macScalar_ok R hb ha hal hcl hc

/-- State of the destination after `k` calls with the multipliers `x ^ β j`. -/
structure Acc (P M : Nat) (c a : List Nat) (len : Nat) (β : Nat → GFR P) (k : Nat) (c' : List Nat) : Prop where
  length : c'.length = c.length
  range : 0 < k → ∀ i, i < len → c'.getD i 0 ≤ 2 ^ M - 1
  value : 0 < k → ∀ i, i < len → toR P (c'.getD i 0) = ∑ j ∈ Finset.range k, β j * toR P (a.getD (len * j + i) 0)
  rest : ∀ i, len ≤ i → c'.getD i 0 = c.getD i 0

theorem Acc.zero (c a : List Nat) (len : Nat) (β : Nat → GFR P) : Acc P M c a len β 0 c :=
  ⟨rfl, by omega, by omega, fun _ _ => rfl⟩

theorem Acc.step {c a : List Nat} {len : Nat} {β : Nat → GFR P} {k b : Nat} {c' m : List Nat} (h : Acc P M c a len β k c')
    (hb : xR P ^ b = β k) (hm : MacPost P M c' a (len * k) b len (k == 0) m) : Acc P M c a len β (k + 1) m := by
  refine ⟨hm.length.trans h.length, fun _ => hm.range, fun _ i hi => ?_, fun i hi => (hm.rest i hi).trans (h.rest i hi)⟩
  rw [hm.value i hi, sum_range_succ, hb]
  by_cases hk : k = 0
  · subst hk; simp
  · rw [h.value (by omega) i hi, if_neg (by simpa using hk)]
    ring

theorem mul_block {len k cnt n : Nat} (hk : k < cnt) (h : len * cnt ≤ n) : len * k + len ≤ n := by
  have : len * (k + 1) ≤ len * cnt := Nat.mul_le_mul_left _ hk
  rw [Nat.mul_succ] at this
  omega

theorem intMul_ok {len k cnt : Nat} (hk : k < cnt) (h : len * (cnt - 1) < 2 ^ 31) : intMul len k = some (len * k) := by
  have : len * k ≤ len * (cnt - 1) := Nat.mul_le_mul_left _ (by omega)
  unfold intMul assertUB
  rw [if_pos (by omega)]; rfl

theorem encode_ok (R : Ready w M P T) (B : Build) {data block : List Nat} {id len cnt : Nat}
    (hd : ∀ x ∈ data, x ≤ 2 ^ M - 1) (hdl : len * cnt ≤ data.length) (hint : len * (cnt - 1) < 2 ^ 31) (hbl : len ≤ block.length) (hid : cnt ≤ id)
    (hid' : id ≤ 2 ^ M - 1) :
    letI := irr R
    Ok (encode w M T B data block id len cnt) (Acc P M block data len (fun k => (toR P id + toR P k)⁻¹) cnt) := by
  haveI := irr R
  unfold encode
  refine Ok.bind' (P := fun _ => True) (Ok.assertUB ⟨hid, by unfold gN gQ; rw [Nat.one_shiftLeft]; exact hid'⟩ trivial) fun _ _ => ?_
  refine forUp_inv (fun k c' => Acc P M block data len (fun k => (toR P id + toR P k)⁻¹) k c') (Nat.zero_le _)
    (Acc.zero _ _ _ _) ?_
  intro k c' _ hk h
  obtain ⟨a, ha, hal, hae⟩ := cauchyMatrix_ok R hid' (show k ≤ 2 ^ M - 1 by omega) (show id ≠ k by omega)
  rw [ha, sb, intMul_ok hk hint, sb]
  refine (multiplyAccumulate_ok R B k hal hd (mul_block hk hdl) (by rw [h.length]; exact hbl) ?_).mono ?_
  · intro h0
    exact h.range (by simp at h0; omega)
  · intro m hm
    exact h.step hae hm

theorem decode_ok (R : Ready w M P T) (B : Build) {st : Nat × Nat} {out blocks ids : List Nat} {idx len cnt : Nat}
    (hd : ∀ x ∈ blocks, x ≤ 2 ^ M - 1) (hdl : len * cnt ≤ blocks.length) (hint : len * (cnt - 1) < 2 ^ 31) (hbl : len ≤ out.length)
    (hr : ∀ x ∈ ids, x ≤ 2 ^ M - 1) (hl : cnt ≤ ids.length) (hlo : ∀ k, k < cnt → cnt ≤ ids.getD k 0) (hidx : idx < cnt)
    (hinj : ∀ k l, k < cnt → l < cnt → ids.getD k 0 = ids.getD l 0 → k = l) :
    letI := irr R
    Ok (decode w M T B st out blocks ids idx len cnt) (fun r => Acc P M out blocks len
      (fun k => binv cnt (fun k => toR P (ids.getD k 0)) (fun k => toR P k) idx k) cnt r.1) := by
  haveI := irr R
  have hcnt : cnt ≤ 2 ^ M := by
    have h1 := hlo 0 (by omega)
    have h2 := getD_le hr 0
    have : 0 < 2 ^ M := by positivity
    omega
  unfold decode
  refine Ok.mono (forUp_inv (fun k (s : List Nat × (Nat × Nat)) => Acc P M out blocks len
      (fun k => binv cnt (fun k => toR P (ids.getD k 0)) (fun k => toR P k) idx k) k s.1 ∧ (k = 0 ∨ RowOK P M ids idx cnt s.2))
      (Nat.zero_le _) ⟨Acc.zero _ _ _ _, Or.inl rfl⟩ ?_) (fun r h => h.1)
  rintro k ⟨c', st'⟩ _ hk ⟨h, hst⟩
  dsimp only at h hst ⊢
  obtain ⟨⟨b, st''⟩, hb, hbl', hrow, hbe⟩ := inverseCauchy_ok R (i := idx) (j := k) hr hl hcnt hidx hk hlo hinj hst
  rw [hb, sb]
  dsimp only at hbl' hrow hbe ⊢
  rw [intMul_ok hk hint, sb]
  refine Ok.bind' (multiplyAccumulate_ok R B k hbl' hd (mul_block hk hdl) (by rw [h.length]; exact hbl) ?_) ?_
  · intro h0
    exact h.range (by simp at h0; omega)
  · intro m hm
    exact Ok.pure ⟨h.step hbe hm, Or.inr hrow⟩

end Verif.Cauchy
