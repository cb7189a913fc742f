import Verif.Hadamard.Proof
/- The first stages, the unrolled decoders, the encoders, and the correlation of codewords. -/
namespace Verif.Hadamard
open Finset
open Verif.RS (sb)

/-! ### First stages -/

theorem tr_one (r : Nat) (y : Nat → Int) : tr 1 r y = y 0 + sg (r.testBit 0) * y 1 := by
  unfold tr chi
  simp [sum_range_succ, sg]

theorem hadFirst_ok {k B : Nat} {code sum : List Int} (hk : 1 ≤ k) (hc : code.length = 2 ^ k) (hs : sum.length = 2 ^ k)
    (hb : ∀ t, |code.getD t 0| ≤ B) (hB : 2 * B < 2 ^ 31) :
    Ok (hadFirst (2 ^ k) code sum) (Stage k 1 fun t => code.getD t 0) := by
  unfold hadFirst
  have hB' : (2 * B : Int) < 2 ^ 31 := by exact_mod_cast hB
  have hn : 2 ^ k = 2 * 2 ^ (k - 1) := by rw [← pow_succ']; congr 1; omega
  have hdiv : 2 ^ k / 2 = 2 ^ (k - 1) := by omega
  rw [hdiv]
  refine Ok.mono (forUp_inv (fun j (l : List Int) => l.length = 2 ^ k ∧ ∀ b, b < j →
    l.getD (2 * b) 0 = code.getD (2 * b) 0 + code.getD (2 * b + 1) 0 ∧
    l.getD (2 * b + 1) 0 = code.getD (2 * b) 0 - code.getD (2 * b + 1) 0) (Nat.zero_le _) ⟨hs, fun b hb => by omega⟩ ?_) ?_
  · rintro j l _ hj ⟨h1, h2⟩
    have e1 : |code.getD (2 * j) 0 + code.getD (2 * j + 1) 0| < 2 ^ 31 := by
      have := abs_add_le (code.getD (2 * j) 0) (code.getD (2 * j + 1) 0)
      have := hb (2 * j); have := hb (2 * j + 1)
      linarith
    have e2 : |code.getD (2 * j) 0 - code.getD (2 * j + 1) 0| < 2 ^ 31 := by
      have := abs_sub (code.getD (2 * j) 0) (code.getD (2 * j + 1) 0)
      have := hb (2 * j); have := hb (2 * j + 1)
      linarith
    rw [rd_of_lt (by omega), sb, getElem_eq_getD _ 0, rd_of_lt (by omega), sb, getElem_eq_getD _ 0, chk_ok e1, sb, chk_ok e2, sb,
      wr_of_lt (by omega), sb, wr_of_lt (by rw [List.length_set]; omega)]
    refine Ok.some ⟨by rw [List.length_set, List.length_set, h1], fun b hb => ?_⟩
    rw [getD_set, getD_set, getD_set, getD_set, List.length_set]
    by_cases hbj : b = j
    · subst hbj
      refine ⟨?_, ?_⟩
      · rw [if_neg (by omega), if_pos (by omega)]
      · rw [if_pos (by omega)]
    · have := h2 b (by omega)
      refine ⟨?_, ?_⟩
      · rw [if_neg (by omega), if_neg (by omega)]; exact this.1
      · rw [if_neg (by omega), if_neg (by omega)]; exact this.2
  · rintro l ⟨h1, h2⟩
    refine ⟨h1, fun b r hb hr => ?_⟩
    obtain ⟨e1, e2⟩ := h2 b hb
    rw [tr_one, pow_one]
    have hr2 : r < 2 := by simpa using hr
    interval_cases r
    · rw [add_zero, e1, Nat.zero_testBit, sg_false, one_mul]
    · rw [e2, Nat.testBit_one_zero]; simp [sg]; ring

/-- The values the simplex decoder works on: a zero in front of the soft values. -/
def ext (code : List Int) (t : Nat) : Int := if t = 0 then 0 else code.getD (t - 1) 0

theorem simFirst_ok {k B : Nat} {code sum : List Int} (hk : 1 ≤ k) (hc : code.length = 2 ^ k - 1) (hs : sum.length = 2 ^ k)
    (hb : ∀ t, |code.getD t 0| ≤ B) (hB : 2 * B < 2 ^ 31) :
    Ok (simFirst (2 ^ k) code sum) (Stage k 1 (ext code)) := by
  unfold simFirst
  have hB' : (2 * B : Int) < 2 ^ 31 := by exact_mod_cast hB
  have hn : 2 ^ k = 2 * 2 ^ (k - 1) := by rw [← pow_succ']; congr 1; omega
  have hp : 0 < 2 ^ (k - 1) := by positivity
  have hdiv : 2 ^ k / 2 = 2 ^ (k - 1) := by omega
  have e0 : |-code.getD 0 0| < 2 ^ 31 := by
    rw [abs_neg]; have := hb 0
    have h0 : (0 : Int) ≤ B := by omega
    linarith
  rw [hdiv, rd_of_lt (by omega), sb, getElem_eq_getD _ 0, wr_of_lt (by omega), sb, sb, chk_ok e0, sb,
    wr_of_lt (by rw [List.length_set]; omega), sb]
  refine Ok.mono (forUp_inv (fun j (l : List Int) => l.length = 2 ^ k ∧ ∀ b, b < j + 1 →
    l.getD (2 * b) 0 = ext code (2 * b) + ext code (2 * b + 1) ∧
    l.getD (2 * b + 1) 0 = ext code (2 * b) - ext code (2 * b + 1)) (Nat.zero_le _)
    ⟨by rw [List.length_set, List.length_set, hs], fun b hb => ?_⟩ ?_) ?_
  · obtain rfl : b = 0 := by omega
    rw [getD_set, getD_set, getD_set, getD_set, List.length_set, mul_zero, zero_add, if_neg (by omega), if_pos (by omega),
      if_pos (by omega)]
    simp [ext]
  · rintro j l _ hj ⟨h1, h2⟩
    have e1 : |code.getD (2 * j + 1) 0 + code.getD (2 * j + 1 + 1) 0| < 2 ^ 31 := by
      have := abs_add_le (code.getD (2 * j + 1) 0) (code.getD (2 * j + 1 + 1) 0)
      have := hb (2 * j + 1); have := hb (2 * j + 1 + 1)
      linarith
    have e2 : |code.getD (2 * j + 1) 0 - code.getD (2 * j + 1 + 1) 0| < 2 ^ 31 := by
      have := abs_sub (code.getD (2 * j + 1) 0) (code.getD (2 * j + 1 + 1) 0)
      have := hb (2 * j + 1); have := hb (2 * j + 1 + 1)
      linarith
    rw [rd_of_lt (by omega), sb, getElem_eq_getD _ 0, rd_of_lt (by omega), sb, getElem_eq_getD _ 0, chk_ok e1, sb, chk_ok e2, sb,
      wr_of_lt (by omega), sb, wr_of_lt (by rw [List.length_set]; omega)]
    refine Ok.some ⟨by rw [List.length_set, List.length_set, h1], fun b hb => ?_⟩
    rw [getD_set, getD_set, getD_set, getD_set, List.length_set]
    by_cases hbj : b = j + 1
    · subst hbj
      have x1 : ext code (2 * (j + 1)) = code.getD (2 * j + 1) 0 := by
        unfold ext; rw [if_neg (by omega)]; congr 1
      have x2 : ext code (2 * (j + 1) + 1) = code.getD (2 * j + 1 + 1) 0 := by
        unfold ext; rw [if_neg (by omega)]; congr 1
      rw [x1, x2]
      refine ⟨?_, ?_⟩
      · rw [if_neg (by omega), if_pos (by omega)]
      · rw [if_pos (by omega)]
    · have := h2 b (by omega)
      refine ⟨?_, ?_⟩
      · rw [if_neg (by omega), if_neg (by omega)]; exact this.1
      · rw [if_neg (by omega), if_neg (by omega)]; exact this.2
  · rintro l ⟨h1, h2⟩
    refine ⟨h1, fun b r hb hr => ?_⟩
    obtain ⟨e1, e2⟩ := h2 b (by omega)
    rw [tr_one, pow_one]
    have hr2 : r < 2 := by simpa using hr
    interval_cases r
    · rw [add_zero, e1, Nat.zero_testBit, sg_false, one_mul]
    · rw [e2, Nat.testBit_one_zero]; simp [sg]; ring

/-! ### The unrolled transforms -/

theorem getD_bound {l : List Int} {B : Nat} (h : ∀ x ∈ l, |x| ≤ B) (t : Nat) : |l.getD t 0| ≤ B := by
  by_cases ht : t < l.length
  · have := h _ (List.getElem_mem ht)
    rwa [getElem_eq_getD _ 0] at this
  · rw [List.getD_eq_default _ _ (by omega), abs_zero]; exact Int.natCast_nonneg _

/-- The values of an initialiser list. -/
def pval (l : List Int) (p : Bool × Nat × Nat) : Int :=
  if p.1 then l.getD p.2.1 0 + l.getD p.2.2 0 else l.getD p.2.1 0 - l.getD p.2.2 0

theorem pval_abs {l : List Int} {B : Nat} (h : ∀ x ∈ l, |x| ≤ B) (p : Bool × Nat × Nat) : |pval l p| ≤ (2 * B : Nat) := by
  unfold pval
  have := getD_bound h p.2.1; have := getD_bound h p.2.2
  push_cast
  split
  · have := abs_add_le (l.getD p.2.1 0) (l.getD p.2.2 0); linarith
  · have := abs_sub (l.getD p.2.1 0) (l.getD p.2.2 0); linarith

theorem pairs_ok {l : List Int} {B : Nat} (h : ∀ x ∈ l, |x| ≤ B) (hB : 2 * B < 2 ^ 31) :
    ∀ ps : List (Bool × Nat × Nat), (∀ p ∈ ps, p.2.1 < l.length ∧ p.2.2 < l.length) →
      pairs ps l = some (ps.map (pval l))
  | [], _ => rfl
  | p :: ps, hp => by
    obtain ⟨s, i, j⟩ := p
    have hB' : ((2 * B : Nat) : Int) < 2 ^ 31 := by exact_mod_cast hB
    have hi : i < l.length := (hp _ (List.mem_cons_self ..)).1
    have hj : j < l.length := (hp _ (List.mem_cons_self ..)).2
    have ih := pairs_ok h hB ps fun p hp' => hp p (List.mem_cons_of_mem _ hp')
    have hv := pval_abs h (s, i, j)
    have hx : (if s then plus l i j else minus l i j) = some (pval l (s, i, j)) := by
      have hv' := chk_ok (lt_of_le_of_lt hv hB')
      unfold plus minus
      cases s
      · rw [if_neg (by simp), rd_of_lt hi, sb, getElem_eq_getD _ 0, rd_of_lt hj, sb, getElem_eq_getD _ 0]; exact hv'
      · rw [if_pos rfl, rd_of_lt hi, sb, getElem_eq_getD _ 0, rd_of_lt hj, sb, getElem_eq_getD _ 0]; exact hv'
    have hun : pairs ((s, i, j) :: ps) l = ((if s then plus l i j else minus l i j) >>= fun x => pairs ps l >>= fun y => pure (x :: y)) := by
      rw [pairs]
      cases s <;> rfl
    rw [hun, hx, sb, ih]; rfl

theorem pairs_bound {l : List Int} {B : Nat} (h : ∀ x ∈ l, |x| ≤ B) (ps : List (Bool × Nat × Nat)) :
    ∀ x ∈ ps.map (pval l), |x| ≤ (2 * B : Nat) := by
  intro x hx
  obtain ⟨p, _, rfl⟩ := List.mem_map.1 hx
  exact pval_abs h p

theorem simHead_ok {l : List Int} {B : Nat} (h : ∀ x ∈ l, |x| ≤ B) (hB : 2 * B < 2 ^ 31) (hl : 0 < l.length)
    (ps : List (Bool × Nat × Nat)) (hp : ∀ p ∈ ps, p.2.1 < l.length ∧ p.2.2 < l.length) :
    simHead ps l = some (l.getD 0 0 :: -l.getD 0 0 :: ps.map (pval l)) := by
  unfold simHead
  have hB' : ((2 * B : Nat) : Int) < 2 ^ 31 := by exact_mod_cast hB
  have h0 := getD_bound h 0
  have : |-l.getD 0 0| < 2 ^ 31 := by rw [abs_neg]; push_cast at hB'; omega
  rw [rd_of_lt hl, sb, getElem_eq_getD _ 0, chk_ok this, sb, pairs_ok h hB ps hp, sb]; rfl

theorem simHead_bound {l : List Int} {B : Nat} (h : ∀ x ∈ l, |x| ≤ B) (ps : List (Bool × Nat × Nat)) :
    ∀ x ∈ (l.getD 0 0 :: -l.getD 0 0 :: ps.map (pval l)), |x| ≤ (2 * B : Nat) := by
  intro x hx
  have h0 := getD_bound h 0
  rcases List.mem_cons.1 hx with rfl | hx
  · push_cast; have := abs_nonneg (l.getD 0 0); linarith
  · rcases List.mem_cons.1 hx with rfl | hx
    · rw [abs_neg]; push_cast; have := abs_nonneg (l.getD 0 0); linarith
    · exact pairs_bound h ps x hx

theorem had2_ok {code : List Int} (hl : code.length = 2) (hb : ∀ x ∈ code, |x| ≤ 128) :
    Ok (had2 code) (fun r => ∃ s, Best (fun i => |([code.getD 0 0 + code.getD 1 0, code.getD 0 0 - code.getD 1 0] : List Int).getD i 0|)
      (fun i => (i : Int) + (2 : Nat) * (if ([code.getD 0 0 + code.getD 1 0, code.getD 0 0 - code.getD 1 0] : List Int).getD i 0 < 0 then 1 else 0))
      2 s ∧ r = if s.2.1 = s.2.2 then -1 else s.1) := by
  have h0 := getD_bound (B := 128) hb 0
  have h1 := getD_bound (B := 128) hb 1
  unfold had2
  rw [rd_of_lt (by omega), sb, getElem_eq_getD _ 0, rd_of_lt (by omega), sb, getElem_eq_getD _ 0]
  generalize code.getD 0 0 = c0 at *
  generalize code.getD 1 0 = c1 at *
  rw [abs_le] at h0 h1
  have e1 : chk (c0 + c1) = some (c0 + c1) := chk_ok (by rw [abs_lt]; omega)
  have e2 : chk (c0 - c1) = some (c0 - c1) := chk_ok (by rw [abs_lt]; omega)
  have hm : ∀ x : Int, |x| ≤ 300 → chk (if x < 0 then -x else x) = some |x| := by
    intro x hx
    have e : (if x < 0 then -x else x) = |x| := by
      split
      · rename_i h; rw [abs_of_neg h]
      · rename_i h; rw [abs_of_nonneg (by omega)]
    rw [e, chk_ok]; rw [abs_abs]; omega
  rw [e1, sb, e2, sb, hm _ (by rw [abs_le]; omega), sb, hm _ (by rw [abs_le]; omega), sb]
  have hb2 := ((Best.zero (fun i => |([c0 + c1, c0 - c1] : List Int).getD i 0|)
    (fun i => (i : Int) + (2 : Nat) * (if ([c0 + c1, c0 - c1] : List Int).getD i 0 < 0 then 1 else 0))).step).step
  have hx := abs_nonneg (c0 + c1)
  have hy := abs_nonneg (c0 - c1)
  have ex : (if |c0 + c1| = |c0 - c1| then pure (-1)
      else if |c0 + c1| > |c0 - c1| then pure (2 * if c0 + c1 < 0 then 1 else 0)
      else pure (1 + 2 * if c0 - c1 < 0 then 1 else 0) : Option Int) =
      some (if |c0 + c1| = |c0 - c1| then (-1)
      else if |c0 + c1| > |c0 - c1| then (2 * if c0 + c1 < 0 then 1 else 0)
      else (1 + 2 * if c0 - c1 < 0 then 1 else 0)) := by
    split
    · rfl
    · split <;> rfl
  rw [ex]
  refine Ok.some ⟨_, hb2, ?_⟩
  simp only [better, List.getD_cons_zero, List.getD_cons_succ, zero_add]
  push_cast
  clear ex hb2
  generalize (if c0 + c1 < 0 then (1 : Int) else 0) = u
  generalize (if c0 - c1 < 0 then (1 : Int) else 0) = v
  by_cases a1 : |c0 + c1| = |c0 - c1|
  · rw [if_pos a1, ← a1]
    by_cases a2 : |c0 + c1| > 0
    · simp [a2]
    · simp [a2]
  · rw [if_neg a1]
    by_cases a2 : |c0 + c1| > |c0 - c1|
    · have a3 : |c0 + c1| > 0 := by omega
      have a4 : ¬ |c0 - c1| > |c0 + c1| := by omega
      rw [if_pos a2]
      simp only [a3, a4, if_true, if_false]
      by_cases a5 : |c0 - c1| > 0
      · simp [a5, a1]
      · have : |c0 - c1| = 0 := by omega
        simp only [this, if_false, gt_iff_lt, lt_irrefl]
        rw [if_neg (by omega)]; simp
    · have a3 : |c0 - c1| > 0 := by omega
      rw [if_neg a2]
      by_cases a5 : |c0 + c1| > 0
      · have : |c0 - c1| > |c0 + c1| := by omega
        simp only [a5, this, if_true]
        rw [if_neg (by omega)]
      · simp only [a5, if_false, a3, if_true]
        rw [if_neg (by omega)]

theorem Best.congr {mag mag' msg msg' : Nat → Int} {k : Nat} {s : Int × Int × Int} (h1 : ∀ i, i < k → mag i = mag' i)
    (h2 : ∀ i, i < k → msg i = msg' i) (h : Best mag msg k s) : Best mag' msg' k s := by
  obtain ⟨a, b, c⟩ := h
  refine ⟨a, fun i hi => by rw [← h1 i hi]; exact b i hi, fun hp => ?_⟩
  obtain ⟨i, hi, w, m, o, n⟩ := c hp
  refine ⟨i, hi, by rw [w, h2 i hi], by rw [← h1 i hi, m], fun j hj hji => by rw [← h1 j hj]; exact o j hj hji, fun hq => ?_⟩
  obtain ⟨j, hj, hji, hm⟩ := n hq
  exact ⟨j, hj, hji, by rw [← h1 j hj]; exact hm⟩

/-- The outcome of the Hadamard decoder in terms of the transform. -/
def HadOut (k : Nat) (y : Nat → Int) (r : Int) : Prop :=
  ∃ s, Best (fun i => |tr k i y|) (fun i => (i : Int) + (2 ^ k : Nat) * (if tr k i y < 0 then 1 else 0)) (2 ^ k) s ∧
    r = if s.2.1 = s.2.2 then -1 else s.1

/-- The outcome of the simplex decoder in terms of the transform. -/
def SimOut (k : Nat) (y : Nat → Int) (r : Int) : Prop :=
  ∃ s, Best (fun i => tr k i y) (fun i => (i : Int)) (2 ^ k) s ∧ r = if s.2.1 = s.2.2 then -1 else s.1

theorem hadPick_tr {k B : Nat} {y : Nat → Int} {sum : List Int} (hl : sum.length = 2 ^ k) (hv : ∀ r, r < 2 ^ k → sum.getD r 0 = tr k r y)
    (hy : ∀ t, |y t| ≤ B) (hB : 2 ^ k * B < 2 ^ 31) (hk : k ≤ 30) : Ok (hadPick (2 ^ k) sum) (HadOut k y) := by
  have hB' : (2 ^ k * B : Int) < 2 ^ 31 := by exact_mod_cast hB
  have h30 : 2 * 2 ^ k ≤ 2 ^ 31 := by
    rw [← pow_succ']; exact Nat.pow_le_pow_right (by norm_num) (by omega)
  refine Ok.mono (hadPick_ok (by omega) (fun i hi => ?_) h30) ?_
  · rw [hv i hi]; exact lt_of_le_of_lt (tr_abs hy) hB'
  · rintro r ⟨s, hs, hr⟩
    exact ⟨s, hs.congr (fun i hi => by rw [hv i hi]) (fun i hi => by rw [hv i hi]), hr⟩

theorem simPick_tr {k : Nat} {y : Nat → Int} {sum : List Int} (hl : sum.length = 2 ^ k) (hv : ∀ r, r < 2 ^ k → sum.getD r 0 = tr k r y) :
    Ok (simPick (2 ^ k) sum) (SimOut k y) := by
  refine Ok.mono (simPick_ok (by omega)) ?_
  rintro r ⟨s, hs, hr⟩
  exact ⟨s, hs.congr (fun i hi => by rw [hv i hi]) (fun _ _ => rfl), hr⟩

theorem had3_ok {code : List Int} (hl : code.length = 4) (hb : ∀ x ∈ code, |x| ≤ (128 : Nat)) :
    Ok (had3 code) (HadOut 2 fun t => code.getD t 0) := by
  unfold had3
  rw [pairs_ok hb (by norm_num) _ (by rw [hl]; decide), sb,
    pairs_ok (pairs_bound hb _) (by norm_num) _ (by simp only [List.length_map, List.length_cons, List.length_nil]; decide), sb]
  refine hadPick_tr (k := 2) (B := 128) rfl (fun r hr => ?_) (getD_bound hb) (by norm_num) (by norm_num)
  simp only [Nat.reducePow] at hr
  interval_cases r <;>
  · simp [pval, tr, chi, sum_range_succ, prod_range_succ, sg, Nat.testBit_succ]
    try ring

theorem had4_ok {code : List Int} (hl : code.length = 8) (hb : ∀ x ∈ code, |x| ≤ (128 : Nat)) :
    Ok (had4 code) (HadOut 3 fun t => code.getD t 0) := by
  unfold had4
  rw [pairs_ok hb (by norm_num) _ (by rw [hl]; decide), sb,
    pairs_ok (pairs_bound hb _) (by norm_num) _ (by simp only [List.length_map, List.length_cons, List.length_nil]; decide), sb,
    pairs_ok (pairs_bound (pairs_bound hb _) _) (by norm_num) _ (by simp only [List.length_map, List.length_cons, List.length_nil]; decide), sb]
  refine hadPick_tr (k := 3) (B := 128) rfl (fun r hr => ?_) (getD_bound hb) (by norm_num) (by norm_num)
  simp only [Nat.reducePow] at hr
  interval_cases r <;>
  · simp [pval, tr, chi, sum_range_succ, prod_range_succ, sg, Nat.testBit_succ]
    try ring

theorem sim2_ok {code : List Int} (hl : code.length = 3) (hb : ∀ x ∈ code, |x| ≤ (128 : Nat)) :
    Ok (sim2 code) (SimOut 2 (ext code)) := by
  unfold sim2
  rw [simHead_ok hb (by norm_num) (by omega) _ (by rw [hl]; decide), sb,
    pairs_ok (simHead_bound hb _) (by norm_num) _ (by simp only [List.length_map, List.length_cons, List.length_nil]; decide), sb]
  refine simPick_tr (k := 2) rfl (fun r hr => ?_)
  simp only [Nat.reducePow] at hr
  interval_cases r <;>
  · simp [pval, tr, chi, sum_range_succ, prod_range_succ, sg, Nat.testBit_succ, ext]
    try ring

theorem sim3_ok {code : List Int} (hl : code.length = 7) (hb : ∀ x ∈ code, |x| ≤ (128 : Nat)) :
    Ok (sim3 code) (SimOut 3 (ext code)) := by
  unfold sim3
  rw [simHead_ok hb (by norm_num) (by omega) _ (by rw [hl]; decide), sb,
    pairs_ok (simHead_bound hb _) (by norm_num) _ (by simp only [List.length_map, List.length_cons, List.length_nil]; decide), sb,
    pairs_ok (pairs_bound (simHead_bound hb _) _) (by norm_num) _ (by simp only [List.length_map, List.length_cons, List.length_nil]; decide), sb]
  refine simPick_tr (k := 3) rfl (fun r hr => ?_)
  simp only [Nat.reducePow] at hr
  interval_cases r <;>
  · simp [pval, tr, chi, sum_range_succ, prod_range_succ, sg, Nat.testBit_succ, ext]
    try ring

set_option maxHeartbeats 4000000 in
theorem sim4_ok {code : List Int} (hl : code.length = 15) (hb : ∀ x ∈ code, |x| ≤ (128 : Nat)) :
    Ok (sim4 code) (SimOut 4 (ext code)) := by
  unfold sim4
  rw [simHead_ok hb (by norm_num) (by omega) _ (by rw [hl]; decide), sb,
    pairs_ok (simHead_bound hb _) (by norm_num) _ (by simp only [List.length_map, List.length_cons, List.length_nil]; decide), sb,
    pairs_ok (pairs_bound (simHead_bound hb _) _) (by norm_num) _ (by simp only [List.length_map, List.length_cons, List.length_nil]; decide), sb,
    pairs_ok (pairs_bound (pairs_bound (simHead_bound hb _) _) _) (by norm_num) _ (by simp only [List.length_map, List.length_cons, List.length_nil]; decide), sb]
  refine simPick_tr (k := 4) rfl (fun r hr => ?_)
  simp only [Nat.reducePow] at hr
  interval_cases r <;>
  · simp [pval, tr, chi, sum_range_succ, prod_range_succ, sg, Nat.testBit_succ, ext]
    try ring

theorem hadDecode_ok {K : Nat} {sum code : List Int} (hK : 2 ≤ K) (hK' : K ≤ 24) (hs : sum.length = 2 ^ (K - 1))
    (hl : code.length = 2 ^ (K - 1)) (hb : ∀ x ∈ code, |x| ≤ (128 : Nat)) :
    Ok (hadDecode K sum code) (HadOut (K - 1) fun t => code.getD t 0) := by
  unfold hadDecode
  split
  · rename_i h; subst h
    refine Ok.mono (had2_ok hl hb) ?_
    rintro r ⟨s, hs, hr⟩
    have hv : ∀ i, i < 2 → ([code.getD 0 0 + code.getD 1 0, code.getD 0 0 - code.getD 1 0] : List Int).getD i 0 =
        tr 1 i fun t => code.getD t 0 := by
      intro i hi
      interval_cases i <;> simp [tr_one, sg]
      ring
    exact ⟨s, hs.congr (fun i hi => by rw [hv i hi]) (fun i hi => by rw [hv i hi]; rfl), hr⟩
  · split
    · rename_i h; subst h; exact had3_ok hl hb
    · split
      · rename_i h; subst h; exact had4_ok hl hb
      · have hB : 2 ^ (K - 1) * 128 < 2 ^ 31 := by
          have : 2 ^ (K - 1) ≤ 2 ^ 23 := Nat.pow_le_pow_right (by norm_num) (by omega)
          omega
        unfold hadGeneric
        refine Ok.bind' (hadFirst_ok (by omega) hl hs (getD_bound hb) (by norm_num)) fun l1 h1 => ?_
        refine Ok.bind' (stages_ok (by omega) (getD_bound hb) hB h1) fun l2 h2 => ?_
        exact hadPick_tr h2.1 h2.2 (getD_bound hb) hB (by omega)

theorem ext_bound {code : List Int} {B : Nat} (hb : ∀ x ∈ code, |x| ≤ B) (t : Nat) : |ext code t| ≤ B := by
  unfold ext
  split
  · rw [abs_zero]; exact Int.natCast_nonneg _
  · exact getD_bound hb _

theorem simDecode_ok {K : Nat} {sum code : List Int} (hK : 1 ≤ K) (hK' : K ≤ 23) (hs : sum.length = 2 ^ K)
    (hl : code.length = 2 ^ K - 1) (hb : ∀ x ∈ code, |x| ≤ (128 : Nat)) :
    Ok (simDecode K sum code) (SimOut K (ext code)) := by
  unfold simDecode
  split
  · rename_i h; subst h; exact sim2_ok hl hb
  · split
    · rename_i h; subst h; exact sim3_ok hl hb
    · split
      · rename_i h; subst h; exact sim4_ok hl hb
      · have hB : 2 ^ K * 128 < 2 ^ 31 := by
          have : 2 ^ K ≤ 2 ^ 23 := Nat.pow_le_pow_right (by norm_num) (by omega)
          omega
        unfold simGeneric
        refine Ok.bind' (simFirst_ok (by omega) hl hs (getD_bound hb) (by norm_num)) fun l1 h1 => ?_
        refine Ok.bind' (stages_ok (by omega) (ext_bound hb) hB h1) fun l2 h2 => ?_
        exact simPick_tr h2.1 h2.2

/-! ### The encoders -/

theorem one_bit (x : Nat) : (decide (x &&& 1 ≠ 0)) = x.testBit 0 := by
  rw [Nat.testBit_zero, Nat.and_one_is_mod]
  rcases Nat.mod_two_eq_zero_or_one x with h | h <;> simp [h]

theorem parity_sg {x : Nat} (hx : x < 2 ^ 32) : sg (parity x) = ∏ b ∈ range 32, sg (x.testBit b) := by
  unfold parity
  have hhi : ∀ b, 32 ≤ b → x.testBit b = false := fun b hb =>
    Nat.testBit_eq_false_of_lt (lt_of_lt_of_le hx (Nat.pow_le_pow_right (by norm_num) hb))
  rw [one_bit]
  simp only [Nat.testBit_xor, Nat.testBit_shiftRight, sg_xor, prod_range_succ, prod_range_zero]
  norm_num
  ring

theorem mkMod_eq {K : Nat} {mod : List Int} (hl : mod.length = 2 ^ K) :
    mkMod K mod = some ((List.range (2 ^ K)).map fun i => sg (parity i)) := by
  unfold mkMod
  rw [forUp_fill (g := fun i => sg (parity i)) (by omega)]
  · rw [← hl, List.drop_length, List.append_nil]
  · intro j l hj hl'
    rw [wr_of_lt (by omega)]
    congr 2
    cases parity j <;> rfl

theorem getD_map_range {n i : Nat} (f : Nat → Int) (h : i < n) : ((List.range n).map f).getD i 0 = f i := by
  rw [List.getD_eq_getElem _ _ (by simpa using h)]; simp

theorem table_rd {K x : Nat} (h : x < 2 ^ K) : rd ((List.range (2 ^ K)).map fun i => sg (parity i)) x = some (sg (parity x)) := by
  rw [rd_of_lt (by simpa using h)]; simp

theorem hadEncode_eq {K : Nat} {code : List Int} {msg : Nat} (hl : code.length = 2 ^ (K - 1)) (hm : msg < 2 ^ K) :
    hadEncode K ((List.range (2 ^ K)).map fun i => sg (parity i)) code msg =
      some ((List.range (2 ^ (K - 1))).map fun i => sg (parity (msg &&& (i ||| 2 ^ (K - 1))))) := by
  unfold hadEncode
  rw [forUp_fill (g := fun i => sg (parity (msg &&& (i ||| 2 ^ (K - 1))))) (by omega)]
  · rw [← hl, List.drop_length, List.append_nil]
  · intro j l hj hl'
    rw [table_rd (lt_of_le_of_lt Nat.and_le_left hm), sb, wr_of_lt (by omega)]

theorem simEncode_eq {K : Nat} {code : List Int} {msg : Nat} (hl : code.length = 2 ^ K - 1) (hm : msg < 2 ^ K) :
    simEncode K ((List.range (2 ^ K)).map fun i => sg (parity i)) code msg =
      some ((List.range (2 ^ K - 1)).map fun i => sg (parity (msg &&& (i + 1)))) := by
  unfold simEncode
  rw [forUp_fill (g := fun i => sg (parity (msg &&& (i + 1)))) (by omega)]
  · rw [← hl, List.drop_length, List.append_nil]
  · intro j l hj hl'
    rw [table_rd (lt_of_le_of_lt Nat.and_le_left hm), sb, wr_of_lt (by omega)]

theorem parity_and {K msg t : Nat} (hK : K ≤ 32) (hm : msg < 2 ^ K) : sg (parity (msg &&& t)) = chi K msg t := by
  have h32 : msg &&& t < 2 ^ 32 :=
    lt_of_le_of_lt Nat.and_le_left (lt_of_lt_of_le hm (Nat.pow_le_pow_right (by norm_num) hK))
  rw [parity_sg h32]
  unfold chi
  refine (prod_subset (range_subset_range.2 hK) fun b _ hb => ?_).symm.trans (prod_congr rfl fun b _ => by rw [Nat.testBit_and])
  rw [Nat.testBit_and, Nat.testBit_eq_false_of_lt (lt_of_lt_of_le hm (Nat.pow_le_pow_right (by norm_num) (by
    have := mem_range.not.1 hb; omega))), Bool.false_and]; rfl

/-! ### Orthogonality -/

theorem tr_const (n r : Nat) (hr : r < 2 ^ n) : tr n r (fun _ => 1) = if r = 0 then 2 ^ n else 0 := by
  induction n generalizing r with
  | zero =>
    obtain rfl : r = 0 := by simpa using hr
    simp [tr, chi]
  | succ n ih =>
    by_cases h : r < 2 ^ n
    · rw [tr_succ_low h, ih r h]
      split
      · rw [pow_succ]; ring
      · rfl
    · obtain ⟨q, rfl⟩ : ∃ q, r = 2 ^ n + q := ⟨r - 2 ^ n, by omega⟩
      have hq : q < 2 ^ n := by rw [pow_succ] at hr; omega
      rw [tr_succ_high hq, ih q hq]
      have : 0 < 2 ^ n := by positivity
      rw [if_neg (show ¬ 2 ^ n + q = 0 by omega)]; ring

theorem chi_sum (n r : Nat) (hr : r < 2 ^ n) : ∑ t ∈ range (2 ^ n), chi n r t = if r = 0 then 2 ^ n else 0 := by
  rw [← tr_const n r hr]; unfold tr; simp

theorem tr_sum (n : Nat) (y : Nat → Int) : ∑ r ∈ range (2 ^ n), tr n r y = 2 ^ n * y 0 := by
  unfold tr
  rw [sum_comm]
  have : ∀ t ∈ range (2 ^ n), ∑ r ∈ range (2 ^ n), chi n r t * y t = (if t = 0 then 2 ^ n else 0) * y t := by
    intro t ht
    rw [← sum_mul, sum_congr rfl fun r _ => chi_comm n r t, chi_sum n t (mem_range.1 ht)]
  rw [sum_congr rfl this, sum_eq_single 0]
  · rw [if_pos rfl]
  · intro b _ hb; rw [if_neg hb, zero_mul]
  · intro h; exact absurd (mem_range.2 (by positivity)) h

end Verif.Hadamard
