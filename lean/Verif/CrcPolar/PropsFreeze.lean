import Verif.CrcPolar.Freeze
import Verif.CrcPolar.Props
import Verif.Polar.PropsSysIff
import Verif.Freezer.Props
/- C69: frozen masks from reliability sequences: the construction of the tests, the table of tests/sequence.h, and `PolarSeqConst0`. -/
namespace Verif.CrcPolar
open Verif.Polar
open Verif.RS (sb)

/-- The mask that the tests build from a sequence of positions freezes exactly the first `n` of them: it stays inside its arrays, positions not among
them are free whatever the mask held before, the words after the mask are not touched, and `N - n` positions are left if the `n` entries are distinct. -/
theorem C69_freeze (frozen seq : List Nat) (N n : Nat) (hN : N % 32 = 0) (hl : N ≤ 32 * frozen.length) (hn : n ≤ seq.length)
    (hseq : ∀ s ∈ seq.take n, s < N) :
    ∃ bits, freezeFirst frozen seq N n = some bits ∧ bits.length = frozen.length ∧ (∀ i, i < N → (Frozen bits i ↔ i ∈ seq.take n)) ∧
      (∀ j, N / 32 ≤ j → bits.getD j 0 = frozen.getD j 0) ∧ (∀ j, j < N / 32 → bits.getD j 0 < 2 ^ 32) ∧
      ((seq.take n).Nodup → freeBelow bits N = N - n) := by
  obtain ⟨bits, e, h1, h2, h3, h4⟩ := freezeFirst_ok frozen seq N n hN hl hn hseq
  refine ⟨bits, e, h1, h2, h3, h4, fun hnd => ?_⟩
  rw [freeBelow_count h2 hnd hseq, List.length_take, Nat.min_eq_left hn]

example : freezeFirst [0xffffffff, 7] [3, 17, 5] 32 2 = some [0x20008, 7] := by decide +kernel

/-- Each of the positions 0 ... 1023 occurs exactly once in the table of tests/sequence.h. -/
theorem C69_table : sequence.Perm (List.range 1024) := sequence_perm

theorem mem_take_place {i n : Nat} (hi : i < 1024) : i ∈ sequence.take n ↔ place i < n := by
  have hpl : ∀ t (h : t < sequence.length), place sequence[t] = t := by
    intro t h
    have := List.all_eq_true.1 place_sequence (sequence[t], t) (by
      rw [List.mem_zipIdx_iff_getElem?, List.getElem?_eq_getElem h])
    simpa using this
  rw [List.mem_take_iff_getElem]
  constructor
  · rintro ⟨t, h, rfl⟩
    rw [hpl t (by omega)]; omega
  · intro h
    have hm : i ∈ sequence := sequence_perm.mem_iff.2 (List.mem_range.2 hi)
    obtain ⟨t, ht, rfl⟩ := List.getElem_of_mem hm
    rw [hpl t ht] at h
    exact ⟨t, by omega, rfl⟩

/-- Positions above a late position are later. -/
theorem place_mono {i j : Nat} (hi : i < 1024) (hj : j < 1024) (hij : j &&& i = i) (hp : 26 ≤ place i) : place i ≤ place j := by
  have step : ∀ a, a < 1024 → 26 ≤ place a → ∀ b, b < 10 → a.testBit b = false → place a ≤ place (a ||| 2 ^ b) := by
    intro a ha hpa b hb hab
    have h := List.all_eq_true.1 place_mono_check a (List.mem_range.2 ha)
    rw [Bool.or_eq_true] at h
    rcases h with h | h
    · rw [Nat.blt_eq] at h; omega
    · have h := List.all_eq_true.1 h b (List.mem_range.2 hb)
      rw [hab, Bool.false_or] at h
      exact Nat.le_of_ble_eq_true h
  have main : ∀ k, k ≤ 10 → place i ≤ place (i ||| j % 2 ^ k) := by
    intro k
    induction k with
    | zero => intro _; simp [Nat.mod_one]
    | succ k ih =>
      intro hk
      have ih := ih (by omega)
      set a := i ||| j % 2 ^ k with ha
      have hlt : a < 2 ^ 10 := Nat.or_lt_two_pow hi (lt_of_le_of_lt (Nat.mod_le _ _) hj)
      by_cases hb : j.testBit k = true ∧ i.testBit k = false
      · have hak : a.testBit k = false := by
          rw [ha, Nat.testBit_or, hb.2, Nat.testBit_mod_two_pow]; simp
        have e : i ||| j % 2 ^ (k + 1) = a ||| 2 ^ k := by
          apply Nat.eq_of_testBit_eq
          intro t
          rw [Nat.testBit_or, Nat.testBit_or, ha, Nat.testBit_or, Nat.testBit_mod_two_pow, Nat.testBit_mod_two_pow, Nat.testBit_two_pow]
          by_cases ht : k = t
          · subst ht; simp [hb.1]
          · have : (t < k + 1) = (t < k) := by apply propext; omega
            simp [this, ht]
        rw [e]
        exact ih.trans (step a hlt (hp.trans ih) k (by omega) hak)
      · have e : i ||| j % 2 ^ (k + 1) = a := by
          apply Nat.eq_of_testBit_eq
          intro t
          rw [ha, Nat.testBit_or, Nat.testBit_or, Nat.testBit_mod_two_pow, Nat.testBit_mod_two_pow]
          by_cases ht : k = t
          · subst ht
            cases h1 : j.testBit k <;> cases h2 : i.testBit k <;> simp_all
          · have : (t < k + 1) = (t < k) := by apply propext; omega
            simp [this]
        rw [e]; exact ih
  have h := main 10 (by omega)
  rw [Nat.mod_eq_of_lt (show j < 2 ^ 10 from hj)] at h
  have e : i ||| j = j := by
    apply Nat.eq_of_testBit_eq
    intro t
    have := congrArg (fun x => x.testBit t) hij
    simp only [Nat.testBit_and] at this
    rw [Nat.testBit_or, ← this]
    cases j.testBit t <;> simp
  rwa [e] at h

/-- The information sets of the table: with the first `n` positions of tests/sequence.h frozen the rest is closed under bit inclusion, as `PolarSysEnc` needs it, exactly
if `n = 0` or `n ≥ 26`. -/
theorem C69_table_closed (frozen : List Nat) (n : Nat) (hl : 1024 ≤ 32 * frozen.length) (hn : n ≤ 1024) :
    ∃ bits, freezeFirst frozen sequence 1024 n = some bits ∧ freeBelow bits 1024 = 1024 - n ∧ (Closed bits 10 ↔ n = 0 ∨ 26 ≤ n) := by
  obtain ⟨bits, e, h1, h2, h3, h4, h5⟩ := C69_freeze frozen sequence 1024 n (by norm_num) hl (by rw [sequence_length]; exact hn)
    (fun s hs => List.mem_range.1 (sequence_perm.mem_iff.1 (List.mem_of_mem_take hs)))
  have hfr : ∀ i, i < 1024 → (Frozen bits i ↔ place i < n) := fun i hi => (h2 i hi).trans (mem_take_place hi)
  refine ⟨bits, e, h5 ((sequence_perm.nodup_iff.2 List.nodup_range).sublist (List.take_sublist _ _)), fun h => ?_, fun h i j hi hj hni hij => ?_⟩
  · by_contra hc
    refine h 1 3 (by norm_num) (by norm_num) ?_ (by decide) ?_
    · rw [hfr 1 (by norm_num), show place 1 = 25 by decide +kernel]; omega
    · rw [hfr 3 (by norm_num), show place 3 = 0 by decide +kernel]; omega
  · have hi : i < 1024 := hi
    have hj : j < 1024 := hj
    rw [hfr i hi] at hni
    rw [hfr j hj]
    rcases h with h | h
    · omega
    · have := place_mono hi hj hij (by omega)
      omega

/-- `PolarSysEnc` with that table: if at least 26 positions are frozen every message appears in order at the positions that are not frozen, and if 1 to 25 positions are frozen some
message does not. -/
theorem C69_table_systematic (frozen : List Nat) (n : Nat) (codeword : List Int) (hl : 1024 ≤ 32 * frozen.length) (hn : n ≤ 1024) (hc : 1024 ≤ codeword.length) :
    ∃ bits, freezeFirst frozen sequence 1024 n = some bits ∧
      ((∀ message : List Int, message.length = 1024 - n → (∀ x ∈ message, x = 1 ∨ x = -1) → ∃ cw, sysEncode ph8 codeword message bits 10 = some cw ∧
        ∀ i, i < 1024 → ¬ Frozen bits i → cw.getD i 0 = message.getD (freeBelow bits i) 0) ↔ n = 0 ∨ 26 ≤ n) := by
  obtain ⟨bits, e, hk, hcl⟩ := C69_table_closed frozen n hl hn
  obtain ⟨_, e', h1, h2, -⟩ := C69_freeze frozen sequence 1024 n (by norm_num) hl (by rw [sequence_length]; exact hn)
    (fun s hs => List.mem_range.1 (sequence_perm.mem_iff.1 (List.mem_of_mem_take hs)))
  rw [e] at e'; cases e'
  have hfr : ∀ i, i < 1024 → (Frozen bits i ↔ place i < n) := fun i hi => (h2 i hi).trans (mem_take_place hi)
  refine ⟨bits, e, ?_⟩
  have hiff := C36_iff codeword bits 10 (by omega) (by rw [h1]; exact hl) hc
  rw [show (2 : Nat) ^ 10 = 1024 from rfl, hk] at hiff
  rw [hiff]
  constructor
  · intro h
    by_contra hcn
    have hev := h 7 1 (by norm_num) (by norm_num)
      (by rw [hfr 7 (by norm_num), show place 7 = 37 by decide +kernel]; omega)
      (by rw [hfr 1 (by norm_num), show place 1 = 25 by decide +kernel]; omega)
    have hset : (Finset.range (2 ^ 10)).filter (fun k => Frozen bits k ∧ k &&& 1 = 1 ∧ 7 &&& k = k) = {3} := by
      ext k
      simp only [Finset.mem_filter, Finset.mem_range, Finset.mem_singleton]
      constructor
      · rintro ⟨hk, hf, ha, hb⟩
        rw [hfr k hk] at hf
        have h8 : k < 8 := by
          have := @Nat.and_le_left 7 k
          omega
        have p1 : place 1 = 25 := by decide +kernel
        have p5 : place 5 = 26 := by decide +kernel
        have p7 : place 7 = 37 := by decide +kernel
        interval_cases k <;> first | rfl | (exfalso; omega) | (exfalso; revert ha; decide)
      · rintro rfl
        refine ⟨by norm_num, ?_, by decide, by decide⟩
        rw [hfr 3 (by norm_num), show place 3 = 0 by decide +kernel]; omega
    rw [hset, Finset.card_singleton] at hev
    exact absurd hev (by decide)
  · intro h
    exact (hcl.2 h).balanced

/-- Frozen masks from `PolarSeqConst0` (exact arithmetic, erasure probability strictly between 0 and 1): whatever number of positions is frozen, the rest is closed under
bit inclusion. -/
theorem C69_const0 {F : Type} [Field F] [LinearOrder F] [IsStrictOrderedRing F]
    (sort : (Nat → Nat → Option Bool) → List Nat → Option (List Nat)) (hsort : Verif.Freezer.IsSort sort) (MAX_M : Nat) (prob : List F)
    (seq frozen : List Nat) (level n : Nat) (pe : F) (h5 : 5 ≤ level) (hM : level ≤ MAX_M) (hp : prob.length = 2 ^ MAX_M) (hs : 2 ^ level ≤ seq.length)
    (h0 : 0 < pe) (h1 : pe < 1) (hl : 2 ^ level ≤ 32 * frozen.length) (hn : n ≤ 2 ^ level) :
    ∃ l bits, Verif.Freezer.seqConst0 (Verif.Freezer.exact F) sort MAX_M prob seq level pe = some l ∧ freezeFirst frozen l (2 ^ level) n = some bits ∧
      freeBelow bits (2 ^ level) = 2 ^ level - n ∧ Closed bits level := by
  obtain ⟨l, e, hperm, -⟩ := Verif.Freezer.C40_sequence (Verif.Freezer.exact F) sort hsort MAX_M prob seq level pe hM hp hs (Verif.Freezer.exact_weak _)
  obtain ⟨l', e', hord⟩ := Verif.Freezer.C40_sequence_order sort hsort MAX_M prob seq level pe hM hp hs h0 h1
  rw [e] at e'; cases e'
  have hll : l.length = 2 ^ level := by rw [hperm.length_eq, List.length_range]
  have htake : (l ++ seq.drop (2 ^ level)).take n = l.take n := List.take_append_of_le_length (by omega)
  have hN : 2 ^ level % 32 = 0 := by
    obtain ⟨k, rfl⟩ : ∃ k, level = 5 + k := ⟨level - 5, by omega⟩
    rw [pow_add]; omega
  obtain ⟨bits, eb, b1, b2, -, -, b5⟩ := C69_freeze frozen (l ++ seq.drop (2 ^ level)) (2 ^ level) n hN hl (by rw [List.length_append]; omega)
    (fun s hs => by rw [htake] at hs; exact List.mem_range.1 (hperm.mem_iff.1 (List.mem_of_mem_take hs)))
  have hnd : l.Nodup := hperm.nodup_iff.2 List.nodup_range
  refine ⟨_, bits, e, eb, b5 (by rw [htake]; exact hnd.sublist (List.take_sublist _ _)), fun i j hi hj hni hij hfj => ?_⟩
  rw [b2 i hi, htake] at hni
  rw [b2 j hj, htake, List.mem_take_iff_getElem] at hfj
  obtain ⟨t, ht, rfl⟩ := hfj
  have him : i ∈ l := hperm.mem_iff.2 (List.mem_range.2 hi)
  obtain ⟨s, hs', rfl⟩ := List.getElem_of_mem him
  have hsn : n ≤ s := by
    by_contra hlt
    exact hni (List.mem_take_iff_getElem.2 ⟨s, by omega, rfl⟩)
  have hne : l[s] ≠ l[t] := fun h => by
    have := (hnd.getElem_inj_iff).1 h
    omega
  have := hord s t l[s] l[t] (by omega) (by omega) (by rw [List.getElem?_append_left (by omega), List.getElem?_eq_getElem (by omega)])
    (by rw [List.getElem?_append_left (by omega), List.getElem?_eq_getElem (by omega)]) hij hne
  omega

/-! ### The parity schedule of the test -/

theorem dataBelow_eq (first stride r : Nat) : dataBelow first stride r = r - if r ≤ first then 0 else (r - first - 1) / (stride + 1) + 1 := by
  induction r with
  | zero => simp [dataBelow_zero]
  | succ r ih =>
    rw [dataBelow_succ, ih]
    unfold cAt
    by_cases h : r + 1 ≤ first
    · rw [if_pos (show r ≤ first by omega), if_pos h, if_pos (show r ≤ first by omega), if_pos (by omega)]; omega
    · rw [if_neg h]
      by_cases h' : r ≤ first
      · have : r = first := by omega
        subst this
        simp
      · rw [if_neg h', if_neg h']
        obtain ⟨a, rfl⟩ : ∃ a, r = first + 1 + a := ⟨r - first - 1, by omega⟩
        rw [show first + 1 + a + 1 - first - 1 = a + 1 by omega, show first + 1 + a - first - 1 = a by omega]
        have hlt := Nat.mod_lt a (show 0 < stride + 1 by omega)
        have hd := Nat.div_add_mod a (stride + 1)
        have hle : a / (stride + 1) ≤ a := Nat.div_le_self _ _
        rw [Nat.succ_div]
        by_cases hdv : stride + 1 ∣ a + 1
        · rw [if_pos hdv, if_neg]
          · omega
          · have := (Nat.dvd_iff_mod_eq_zero).1 hdv
            rw [mod_succ_eq _ _ (by omega)] at this
            split at this
            · omega
            · omega
        · rw [if_neg hdv, if_pos]
          · omega
          · intro h0
            apply hdv
            rw [Nat.dvd_iff_mod_eq_zero, mod_succ_eq _ _ (by omega), if_pos (by omega)]

/-- The schedule of the tests: of `K` symbols, with `first = K % (stride + 1)`, or that plus `stride`, exactly `K / (stride + 1)` are parity symbols, and
with the second choice the last symbol is one of them. -/
theorem C69_schedule (K stride : Nat) :
    dataBelow (K % (stride + 1)) stride K = K - K / (stride + 1) ∧ dataBelow (K % (stride + 1) + stride) stride K = K - K / (stride + 1) ∧
      (stride + 1 ≤ K → isParity (K % (stride + 1) + stride) stride (K - 1)) := by
  obtain ⟨P, F, hF, rfl⟩ : ∃ P F, F < stride + 1 ∧ K = (stride + 1) * P + F := ⟨K / (stride + 1), K % (stride + 1), Nat.mod_lt _ (by omega), (Nat.div_add_mod _ _).symm⟩
  have em : ((stride + 1) * P + F) % (stride + 1) = F := by rw [Nat.mul_add_mod, Nat.mod_eq_of_lt hF]
  have ed : ((stride + 1) * P + F) / (stride + 1) = P := by rw [Nat.mul_add_div (by omega), Nat.div_eq_of_lt hF, Nat.add_zero]
  rw [em, ed, dataBelow_eq, dataBelow_eq]
  rcases Nat.eq_zero_or_pos P with rfl | hP
  · simp only [Nat.mul_zero, Nat.zero_add]
    refine ⟨by simp, by simp, fun h => by omega⟩
  · obtain ⟨p, rfl⟩ : ∃ p, P = p + 1 := ⟨P - 1, by omega⟩
    have ex : (stride + 1) * (p + 1) = (stride + 1) * p + stride + 1 := by ring
    rw [ex]
    refine ⟨?_, ?_, fun _ => ⟨by omega, ?_⟩⟩
    · rw [if_neg (by omega), show (stride + 1) * p + stride + 1 + F - F - 1 = (stride + 1) * p + stride by omega, Nat.mul_add_div (by omega), Nat.div_eq_of_lt (by omega : stride < stride + 1)]
    · rw [if_neg (by omega), show (stride + 1) * p + stride + 1 + F - (F + stride) - 1 = (stride + 1) * p by omega, Nat.mul_div_cancel_left _ (by omega)]
    · rw [show (stride + 1) * p + stride + 1 + F - 1 - (F + stride) = (stride + 1) * p by omega, Nat.mul_mod_right]

/-- The configuration of tests/polar_list_regression_test.cc: 1024 positions, 308 of them frozen, 21 parity symbols, 695 message symbols. -/
example : ∃ bits, freezeFirst (List.replicate 32 0) sequence 1024 308 = some bits ∧ parK bits 10 32 23 = 695 ∧ Closed bits 10 ∧
    ParCall 32 10 (List.replicate 2048 (fun _ => 0)) (List.replicate 1024 (fun _ => 0)) (List.replicate 1024 (fun i => i)) (List.replicate 32 0) none
      (List.replicate 695 (fun _ => 0)) (List.replicate 1024 1) bits 10 32 23 := by
  obtain ⟨bits, e, hk, hcl⟩ := C69_table_closed (List.replicate 32 0) 308 (by simp) (by omega)
  obtain ⟨_, e', h1, h2, h3, h4, -⟩ := C69_freeze (List.replicate 32 0) sequence 1024 308 (by norm_num) (by simp) (by rw [sequence_length]; omega)
    (fun s hs => List.mem_range.1 (sequence_perm.mem_iff.1 (List.mem_of_mem_take hs)))
  rw [e] at e'; cases e'
  rw [List.length_replicate] at h1
  have hd : dataBelow 23 32 716 = 695 := (C69_schedule 716 32).1
  have hk' : freeBelow bits (2 ^ 10) = 716 := hk
  refine ⟨bits, e, ?_, hcl.2 (by omega), ⟨by omega, by omega, by omega, le_rfl, by rw [List.length_replicate]; norm_num, by rw [List.length_replicate]; norm_num,
    by rw [List.length_replicate]; norm_num, by rw [List.length_replicate], by simp, by rw [List.length_replicate]; norm_num, ?_, by rw [h1]; norm_num, ?_, by rw [hk']; omega, by omega, ?_⟩⟩
  · unfold parK; rw [hk', hd]
  · intro i hi
    rw [List.getD_eq_getElem?_getD, List.getElem?_replicate, if_pos (show i < 1024 from hi)]
    unfold PolarHelper.I8; decide
  · intro w hw
    obtain ⟨j, hj, rfl⟩ := List.getElem_of_mem hw
    rw [getElem_eq_getD]; exact h4 j (by omega)
  · rw [hk', hd, List.length_replicate]

end Verif.CrcPolar
