import Verif.Trials.ProofSort
import Verif.PrimeField.Props
import Mathlib.Data.List.Sort
/-
C84: the loops of tests/sort_regression_test.cc and tests/simd_sort_regression_test.cc and the assertions of
tests/pf_test.cc.  `std::stable_sort` and `std::sort` are any functions that do what the standard says:
`StableSort` (Sort/Spec.lean) determines the result, and so does "an ascending permutation" for integers.
-/
namespace Verif.Trials
open Verif.Sort

/-- One pass of sort_regression_test.cc: whatever is drawn, and whatever the arrays and the member of `merge_sort` hold
from earlier passes, no assertion fails and no access is out of bounds; the arrays `a`, `b` and `c` begin with the stable
sort of the drawn pairs (number, key), `e` with their numbers and `d` with their keys. -/
theorem C84_sort_test (std : List (Int × Int) → List (Int × Int)) (hstd : ∀ l, StableSort sndLt l (std l))
    (MAX M : Nat) (hM : 1 ≤ M) (hM' : M ≤ 2 ^ 30) (hMAX : MAX ≤ 2 ^ 30) (size : Nat) (h1 : 1 ≤ size) (h2 : size ≤ MAX)
    (draw : Nat → Int) (s : SortState) (hs : Room MAX s) :
    ∃ s', sortTrial std M size draw s = some s' ∧ Room MAX s' ∧
      StableSort sndLt ((List.range size).map fun i : Nat => ((i : Int), draw i)) (s'.a.take size) ∧
      s'.b.take size = s'.a.take size ∧ s'.c.take size = s'.a.take size ∧
      s'.e.take size = (s'.a.take size).map (·.1) ∧ s'.d.take size = (s'.a.take size).map (·.2) := by
  obtain ⟨t, e1, r1, fa, fb, fc, -⟩ := fillFirst_ok h2 s hs
  obtain ⟨u, e2, r2, ⟨fa, fb, fc⟩, ga, gb, gc, gd⟩ := fillSecond_ok h2 draw t r1 fa fb fc
  have la := r2.a; have lb := r2.b; have lc := r2.c; have ld := r2.d; have le := r2.e; have lt := r2.tmp
  have da := take_drawn (by omega) fa ga
  have db := take_drawn (by omega) fb gb
  have dc := take_drawn (by omega) fc gc
  have hA : StableSort sndLt (drawn size draw) (std (u.a.take size)) := by rw [← da]; exact hstd _
  have lA : (std (u.a.take size)).length = size := by rw [hA.perm.length_eq]; simp [drawn]
  have e3 : onRange std u.a size = some (std (u.a.take size) ++ u.a.drop size) := by
    unfold onRange assertUB; rw [if_pos (by omega)]; rfl
  obtain ⟨b, e4, l4, s4, -, -⟩ := C15_insertion_sort sndLt sndLt_weak u.b 0 size (by omega)
  simp only [List.drop_zero] at s4
  rw [db] at s4
  obtain ⟨c, tmp', e5, l5, s5, -⟩ := C17_merge_sort sndLt sndLt_weak M hM hM' u.tmp u.c size (by omega) (by omega) (by omega)
  rw [dc] at s5
  have ltmp := mergeSort_tmp_length e5
  obtain ⟨L, e6, s6⟩ := idx_pairs (fun i => (i : Int)) intLt intLt_weak u.e u.d size (by omega) (by omega) (by omega)
  have s7 : StableSort sndLt (drawn size draw) (L.map Prod.swap) := by
    have := stable_map (lt' := sndLt) Prod.swap Prod.swap Prod.swap_swap (fun x y => rfl) s6
    rwa [pairs_drawn (by omega) gd] at this
  have q1 := s4.unique sndLt_weak hA
  have q2 := s5.unique sndLt_weak hA
  have q3 := s7.unique sndLt_weak hA
  have lL : L.length = size := by rw [← lA, ← q3, List.length_map]
  have tA : (std (u.a.take size) ++ u.a.drop size).take size = std (u.a.take size) := List.take_left' lA
  have tE : (L.map (·.2) ++ u.e.drop size).take size = (std (u.a.take size)).map (·.1) := by
    rw [List.take_left' (by rw [List.length_map, lL]), ← q3, List.map_map]; rfl
  have tD : (L.map (·.1) ++ u.d.drop size).take size = (std (u.a.take size)).map (·.2) := by
    rw [List.take_left' (by rw [List.length_map, lL]), ← q3, List.map_map]; rfl
  refine ⟨⟨std (u.a.take size) ++ u.a.drop size, b, c, L.map (·.1) ++ u.d.drop size, L.map (·.2) ++ u.e.drop size, tmp'⟩, ?_,
    ⟨?_, ?_, ?_, ?_, ?_, ?_⟩, ?_, ?_, ?_, ?_, ?_⟩
  · unfold sortTrial
    simp only [Option.bind_eq_bind, Option.pure_def]
    rw [e1, Option.bind_some, e2, Option.bind_some, e3, Option.bind_some,
      e4, Option.bind_some,
      assertEq_ok (by rw [List.length_append]; omega) (by rw [tA, q1]) (by omega), Option.bind_some,
      e5, Option.bind_some]
    dsimp only
    rw [assertEq_ok (by rw [List.length_append]; omega) (by rw [tA, q2]) (by omega), Option.bind_some,
      e6, Option.bind_some]
    dsimp only
    rw [assertEq_ok (by rw [List.length_map, List.length_append]; omega) (by rw [← List.map_take, tA, tE])
      (by rw [List.length_append, List.length_map]; omega)]
    rfl
  · simp only [List.length_append, List.length_drop]; omega
  · simp only [l4]; exact lb
  · simp only [l5]; exact lc
  · simp only [List.length_append, List.length_drop, List.length_map]; omega
  · simp only [List.length_append, List.length_drop, List.length_map]; omega
  · dsimp only at ltmp ⊢; rw [ltmp]; exact lt
  · dsimp only; rw [tA]; exact hA
  · dsimp only; rw [tA, q1]
  · dsimp only; rw [tA, q2]
  · dsimp only; rw [tA, tE]
  · dsimp only; rw [tA, tD]

/-- Hence the whole test passes, with its `MAX_N = 128`, for every number of passes and all sizes from 1 to 128. -/
theorem C84_sort_test_passes (std : List (Int × Int) → List (Int × Int)) (hstd : ∀ l, StableSort sndLt l (std l))
    (trials : List (Nat × (Nat → Int))) (ht : ∀ t ∈ trials, 1 ≤ t.1 ∧ t.1 ≤ 128) (s : SortState) (hs : Room 128 s) :
    ∃ s', trials.foldlM (fun s t => sortTrial std 32 t.1 t.2 s) s = some s' := by
  induction trials generalizing s with
  | nil => exact ⟨s, rfl⟩
  | cons t trials ih =>
    obtain ⟨g1, g2⟩ := ht t (by simp)
    obtain ⟨s1, e1, r1, -⟩ := C84_sort_test std hstd 128 32 (by norm_num) (by norm_num) (by norm_num) t.1 g1 g2 t.2 s hs
    obtain ⟨s2, e2⟩ := ih (fun t h => ht t (by simp [h])) s1 r1
    exact ⟨s2, by rw [List.foldlM_cons, e1]; exact e2⟩

/-- The comparisons of the tests mean equality of the two ranges: the tests would notice any other result. -/
theorem C84_comparisons {β : Type} [DecidableEq β] (n : Nat) (x y : List β) (hx : n ≤ x.length) (hy : n ≤ y.length) :
    assertEq n x y = some () ↔ ∀ i < n, x[i]? = y[i]? := by
  rw [assertEq_iff hx hy]
  constructor
  · intro h i hi
    have := congrArg (·[i]?) h
    simpa [List.getElem?_take_of_lt hi] using this
  · intro h
    apply List.ext_getElem?
    intro i
    by_cases hi : i < n
    · rw [List.getElem?_take_of_lt hi, List.getElem?_take_of_lt hi]; exact h i hi
    · rw [List.getElem?_eq_none (by rw [List.length_take]; omega), List.getElem?_eq_none (by rw [List.length_take]; omega)]

/-- With a `std::sort` that is not stable the test can fail: here equal keys come out in reverse order. -/
example : sortTrial (fun _ => [(1, 5), (0, 5)]) 32 2 (fun _ => 5)
    ⟨[(0, 0), (0, 0)], [(0, 0), (0, 0)], [(0, 0), (0, 0)], [0, 0], [0, 0], [(0, 0), (0, 0)]⟩ = none := by decide

example : (sortTrial (fun _ => [(2, 3), (0, 5), (1, 5)]) 32 3 (fun i => if i < 2 then 5 else 3)
    ⟨List.replicate 4 (7, 7), List.replicate 4 (8, 8), List.replicate 4 (9, 9), [1, 2, 3, 4], [5, 6, 7, 8], List.replicate 4 (0, 0)⟩).map (fun s => (s.e, s.d)) =
    some ([2, 0, 1, 8], [3, 5, 5, 4]) := by decide

/-- There is such a `std::stable_sort`. -/
example : ∃ std : List (Int × Int) → List (Int × Int), ∀ l, StableSort sndLt l (std l) :=
  ⟨isort sndLt, isort_spec sndLt_weak⟩

example : Room 128 ⟨List.replicate 128 (0, 0), List.replicate 128 (1, 0), List.replicate 128 (0, 2), List.replicate 128 3, List.replicate 128 4, List.replicate 128 (5, 0)⟩ := by
  constructor <;> simp

/-- One pass of simd_sort_regression_test.cc, for any number of lanes that fits in the unsigned lanes, whatever is drawn
and whatever the uninitialised result holds: no assertion fails. -/
theorem C84_simd_sort_test (sort : List Int → List Int) (hsort : ∀ l, (sort l).Perm l ∧ (sort l).Pairwise (· ≤ ·))
    (stable : (Nat → Nat → Bool) → List Nat → List Nat) (hstable : ∀ lt l, StrictWeak lt → StableSort lt l (stable lt l))
    (w W : Nat) (hW : 1 ≤ W) (hw : W ≤ 2 ^ w) (p : List Nat) (hp : p.length = W) (a : List Int) (ha : a.length = W) :
    simdTrial sort stable w W p a = some () := by
  obtain ⟨b, e1, s1⟩ := C15_vsort intLt intLt_weak a
  rw [ha] at e1
  have hb : b = sort a := by
    refine s1.unique intLt_weak ?_
    obtain ⟨h1, h2⟩ := hsort a
    refine ⟨h2.imp fun {x y} h => by simp only [intLt, decide_eq_false_iff_not]; omega, h1, fun x => ?_⟩
    have : equiv intLt x = fun y => decide (y = x) := by
      funext y
      simp only [equiv, intLt]
      by_cases h : y = x
      · subst h; simp
      · simp only [h, decide_false]
        rcases lt_or_gt_of_ne h with h | h <;> simp [h]
    rw [this]
    have e := h1.filter (fun y => decide (y = x))
    have r : ∀ l : List Int, l.filter (fun y => decide (y = x)) = List.replicate (l.filter (fun y => decide (y = x))).length x := by
      intro l
      exact List.eq_replicate_iff.2 ⟨rfl, fun y hy => by simpa using (List.mem_filter.1 hy).2⟩
    rw [r (sort a), r a, e.length_eq]
  have lb : b.length = W := by rw [s1.perm.length_eq, ha]
  have tW : a.take W = a := List.take_of_length_le (by omega)
  have e2 : onRange sort a W = some b := by
    unfold onRange assertUB
    rw [if_pos (by omega), tW, List.drop_of_length_le (by omega), List.append_nil, hb]; rfl
  -- the indices
  obtain ⟨L, e3, s3⟩ := idx_pairs (fun i => i % 2 ^ w) intLt intLt_weak p a W (by omega) (by omega) (by omega)
  rw [tW] at s3
  have hmem : ∀ x ∈ L, x.1 = a.getD x.2 0 ∧ x.2 < W := by
    intro x hx
    obtain ⟨i, hi, rfl⟩ := List.getElem_of_mem (s3.perm.mem_iff.1 hx)
    rw [pairs_getElem]
    rw [pairs_length] at hi
    simp only
    rw [Nat.mod_eq_of_lt (by omega : i < 2 ^ w)]
    exact ⟨by simp [List.getD, List.getElem?_eq_getElem hi], by omega⟩
  have hpr : (pairs (fun i => i % 2 ^ w) a).map (·.2) = List.range W := by
    apply List.ext_getElem
    · simp [pairs_length, ha]
    · intro i hi hi'
      rw [List.getElem_map, pairs_getElem, List.getElem_range]
      simp only [List.length_range] at hi'
      exact Nat.mod_eq_of_lt (by omega)
  have hrel : ∀ x ∈ L, ∀ y ∈ L, byKey a x.2 y.2 = ltP intLt x y := by
    intro x hx y hy
    unfold byKey ltP intLt
    rw [(hmem x hx).1, (hmem y hy).1]
  have wk : StrictWeak (byKey a) := by
    constructor
    · intro x y h; simp only [byKey, decide_eq_true_eq, decide_eq_false_iff_not] at *; omega
    · intro x y z h; simp only [byKey, decide_eq_true_eq] at *; omega
  have s4 : StableSort (byKey a) (List.range W) (L.map (·.2)) := by
    refine ⟨?_, ?_, ?_⟩
    · rw [List.pairwise_map]
      exact s3.sorted.imp_of_mem fun {x y} hx hy h => by rw [hrel _ hy _ hx]; exact h
    · rw [← hpr]; exact s3.perm.map _
    · intro i
      rw [← hpr, List.filter_map, List.filter_map]
      congr 1
      have c : ∀ l : List (Int × Nat), (∀ x ∈ l, x ∈ L) →
          l.filter (equiv (byKey a) i ∘ fun x => x.2) = l.filter (equiv (ltP intLt) (a.getD i 0, i)) := by
        intro l hl
        apply List.filter_congr
        intro x hx
        simp only [Function.comp, equiv, byKey, ltP, intLt]
        rw [(hmem x (hl x hx)).1]
      rw [c L fun _ h => h, c _ fun x h => s3.perm.mem_iff.2 h]
      exact s3.stable _
  have q := s4.unique wk (hstable (byKey a) (List.range W) wk)
  have lL : L.length = W := by rw [s3.perm.length_eq, pairs_length, ha]
  have e4 : vorder intLt w W p a = some (L.map (·.2)) := by
    unfold vorder
    rw [e3]
    simp [List.drop_of_length_le (show p.length ≤ W by omega)]
  have e5 : onRange (stable (byKey a)) (List.range W) W = some (L.map (·.2)) := by
    unfold onRange assertUB
    rw [if_pos (by simp), List.take_of_length_le (by simp), List.drop_of_length_le (by simp), List.append_nil, ← q]; rfl
  unfold simdTrial
  simp only [Option.bind_eq_bind]
  rw [e1, Option.bind_some, e2, Option.bind_some, assertEq_ok (by omega) rfl (by omega),
    Option.bind_some, e4, Option.bind_some, e5, Option.bind_some]
  exact assertEq_ok (by rw [List.length_map]; omega) rfl (by rw [List.length_map]; omega)

/-- The test's own numbers (32 lanes of 32 bits), and standard algorithms that meet the hypotheses. -/
example : (32 : Nat) ≤ 2 ^ 32 := by norm_num
example : ∃ sort : List Int → List Int, ∀ l, (sort l).Perm l ∧ (sort l).Pairwise (· ≤ ·) := by
  refine ⟨isort intLt, fun l => ⟨(isort_spec intLt_weak l).perm, ?_⟩⟩
  exact (isort_spec intLt_weak l).sorted.imp fun {x y} h => by
    simp only [intLt, decide_eq_false_iff_not] at h; omega
example : ∃ stable : (Nat → Nat → Bool) → List Nat → List Nat, ∀ lt l, StrictWeak lt → StableSort lt l (stable lt l) :=
  ⟨fun lt => isort lt, fun _ l h => isort_spec h l⟩
example : simdTrial (fun _ => [1, 2, 2, 3]) (fun _ _ => [2, 1, 3, 0]) 8 4 [9, 9, 9, 9] [3, 2, 1, 2] = some () := by decide
example : simdTrial (fun _ => [1, 2, 2, 3]) (fun _ _ => [2, 3, 1, 0]) 8 4 [9, 9, 9, 9] [3, 2, 1, 2] = none := by decide

theorem loop_iff (lo hi : Nat) (f : Nat → Option Unit) :
    forUp lo hi () (fun i _ => f i) = some () ↔ ∀ i, lo ≤ i → i < hi → f i = some () := by
  have key : ∀ k lo, forN k lo () (fun i _ => f i) = some () ↔ ∀ i, lo ≤ i → i < lo + k → f i = some () := by
    intro k
    induction k with
    | zero => intro lo; exact ⟨fun _ i h1 h2 => by omega, fun _ => rfl⟩
    | succ k ih =>
      intro lo
      rw [forN, Option.bind_eq_some_iff]
      constructor
      · rintro ⟨⟨⟩, h1, h2⟩ i g1 g2
        by_cases h : i = lo
        · rw [h]; exact h1
        · exact (ih (lo + 1)).1 h2 i (by omega) (by omega)
      · intro h
        exact ⟨(), h lo (by omega) (by omega), (ih (lo + 1)).2 fun i g1 g2 => h i (by omega) (by omega)⟩
  unfold forUp
  rw [key]
  constructor
  · intro h i g1 g2; exact h i g1 (by omega)
  · intro h i g1 g2; exact h i g1 (by omega)

theorem assertUB_iff (b : Prop) [Decidable b] : assertUB b = some () ↔ b := by
  unfold assertUB
  split <;> simp_all

theorem seq_iff (x y : Option Unit) : (x >>= fun _ => y) = some () ↔ x = some () ∧ y = some () := by
  cases x <;> simp

open Verif.PrimeField in
/-- pf_test.cc passes for a template parameter that fits in TYPE exactly if `PRIME` is a prime and the product of two
reduced values fits in TYPE: the tests of all reciprocals find every number that is not prime. -/
theorem C84_pf_test (w P : Nat) (hP : P < 2 ^ w) :
    pfTest w P = some () ↔ P.Prime ∧ (P - 1) * (P - 1) < 2 ^ w := by
  unfold pfTest
  simp only [seq_iff, loop_iff, assertUB_iff]
  constructor
  · rintro ⟨⟨h0, h1⟩, -, h3, -⟩
    have hw : (P - 1) * (P - 1) < 2 ^ w := by
      have := (Nat.le_div_iff_mul_le (by omega)).1 h1
      omega
    refine ⟨?_, hw⟩
    rw [Nat.prime_def_lt]
    refine ⟨by omega, fun d hd hdv => ?_⟩
    by_contra hne
    have hd0 : d ≠ 0 := by rintro rfl; have := Nat.eq_zero_of_zero_dvd hdv; omega
    have h := h3 d (by omega) hd
    -- the product stays a multiple of `d` although it is reduced
    have hrl : rcp w P d < P := by
      have hloop : ∀ m t a, t < P → powLoop w P t a m < P := by
        intro m
        induction m using Nat.strongRecOn with
        | _ m ih =>
          intro t a ht
          rw [powLoop]
          by_cases hm : m = 0
          · rw [dif_pos hm]; exact ht
          · rw [dif_neg hm]
            refine ih _ (by omega) _ _ ?_
            split
            · exact Nat.mod_lt _ (by omega)
            · exact ht
      unfold rcp PrimeField.pow
      exact hloop _ _ _ (lt_of_le_of_lt (Nat.mod_le _ _) (by omega))
    have hlt : rcp w P d * d < 2 ^ w := lt_of_le_of_lt (Nat.mul_le_mul (by omega) (by omega)) hw
    unfold opMul reduce PrimeField.mul at h
    rw [Nat.mod_eq_of_lt hlt] at h
    have : d ∣ rcp w P d * d % P := (Nat.dvd_mod_iff hdv).2 (Dvd.intro_left _ rfl)
    rw [h] at this
    exact hne (Nat.dvd_one.1 this)
  · rintro ⟨hp, hw⟩
    have hf : Fits w P := ⟨hp, hP, hw⟩
    have h2 := hp.two_le
    refine ⟨⟨by omega, ?_⟩, ?_, ?_, ?_, ?_⟩
    · exact (Nat.le_div_iff_mul_le (by omega)).2 (by omega)
    · intro a _ _ b _ _; rfl
    · intro a h1 h2
      have := (C21_rcp hf h2 (by omega)).2.2
      unfold opMul PrimeField.mul at this ⊢
      rwa [Nat.mul_comm]
    · intro a _ _ b _ _; rfl
    · intro a _ ha b _ hb
      have hs := add_lt hf (a := P - 1) (b := P - 1) (by omega) (by omega)
      unfold opSub reduce PrimeField.sub
      by_cases hab : a < b
      · rw [if_pos hab, Nat.mod_add_mod]
      · rw [if_neg hab, show a + 2 ^ w - b + 0 = (a - b) + 2 ^ w by omega, show a + 2 ^ w - b = (a - b) + 2 ^ w by omega,
          Nat.add_mod_right, Nat.mod_eq_of_lt (show a - b < 2 ^ w by omega)]
        by_cases hw2 : a - b + P < 2 ^ w
        · rw [Nat.mod_eq_of_lt hw2, Nat.add_mod_right]
        · exfalso
          by_cases hP2 : P = 2
          · subst hP2
            have hw4 : 4 ≤ 2 ^ w := by
              have : 2 ≤ w := by
                by_contra hc
                have : (2 : Nat) ^ w ≤ 2 ^ 1 := Nat.pow_le_pow_right (by norm_num) (by omega)
                omega
              calc 4 = 2 ^ 2 := by norm_num
                _ ≤ 2 ^ w := Nat.pow_le_pow_right (by norm_num) this
            omega
          · by_cases hP3 : P = 3
            · subst hP3
              have hw8 : 8 ≤ 2 ^ w := by
                have : 3 ≤ w := by
                  by_contra hc
                  have : (2 : Nat) ^ w ≤ 2 ^ 2 := Nat.pow_le_pow_right (by norm_num) (by omega)
                  omega
                calc 8 = 2 ^ 3 := by norm_num
                  _ ≤ 2 ^ w := Nat.pow_le_pow_right (by norm_num) this
              omega
            · have : 3 * (P - 1) ≤ (P - 1) * (P - 1) := Nat.mul_le_mul_right _ (by omega)
              omega

/-- The two instances of the test pass. -/
theorem C84_pf_test_instances : pfTest 32 257 = some () ∧ pfTest 64 65537 = some () :=
  ⟨(C84_pf_test 32 257 (by norm_num)).2 ⟨by norm_num, by norm_num⟩, (C84_pf_test 64 65537 (by norm_num)).2 ⟨by norm_num, by norm_num⟩⟩

end Verif.Trials
