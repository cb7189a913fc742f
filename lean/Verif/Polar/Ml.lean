import Verif.Polar.PropsScl
/- Path metrics and the distance of codewords; full lists. -/
namespace Verif.Polar
open PolarHelper (I8)
variable {L : Nat}

/-- What the symbols `x` cost on the `n` soft values `s`: the magnitudes of those that point to the other symbol. -/
def disagreement (n : Nat) (s x : Nat → Int) : Int := ∑ j ∈ Finset.range n, penalty (s j) (x j)

theorem penalty_nonneg (s b : Int) : 0 ≤ penalty s b := by unfold penalty; omega

theorem disagreement_nonneg (n : Nat) (s x : Nat → Int) : 0 ≤ disagreement n s x := Finset.sum_nonneg fun _ _ => penalty_nonneg _ _

theorem polar_low {M : Nat} {u : Nat → Int} {j : Nat} (hj : j < 2 ^ M) : polar (M + 1) u j = polar M u j * polar M (fun t => u (2 ^ M + t)) j := by
  have h1 := P_prod (M + 1) u j (by rw [pow_succ]; omega)
  have h2 := P_prod M u j hj
  have h3 := P_prod M (fun t => u (2 ^ M + t)) j hj
  unfold polar
  rw [← h1, ← h2, ← h3]
  exact P_low _ hj

theorem polar_high {M : Nat} {u : Nat → Int} {j : Nat} (hj : j < 2 ^ M) : polar (M + 1) u (2 ^ M + j) = polar M (fun t => u (2 ^ M + t)) j := by
  have h1 := P_prod (M + 1) u (2 ^ M + j) (by rw [pow_succ]; omega)
  have h3 := P_prod M (fun t => u (2 ^ M + t)) j hj
  unfold polar
  rw [← h1, ← h3]
  exact P_high _ hj

theorem polar_sym {M : Nat} {u : Nat → Int} (hu : ∀ i, Sym (u i)) {j : Nat} (hj : j < 2 ^ M) : Sym (polar M u j) := by
  unfold polar; rw [← P_prod M u j hj]; exact P_sym _ _ hu j

theorem sum_halves (M : Nat) (f : Nat → Int) : ∑ j ∈ Finset.range (2 ^ (M + 1)), f j = ∑ j ∈ Finset.range (2 ^ M), (f j + f (2 ^ M + j)) := by
  rw [two_pow_succ', Finset.sum_range_add, Finset.sum_add_distrib]

theorem softF_eq {a b : Int} : softF a b = (if a < 0 then -1 else 1) * ((if b < 0 then -1 else 1) * min (min |a| 127) (min |b| 127)) := by
  unfold softF
  rcases lt_trichotomy a 0 with h | h | h <;> rcases lt_trichotomy b 0 with h' | h' | h' <;>
    simp [h, h', Int.sign_eq_neg_one_of_neg, Int.sign_eq_one_of_pos, le_of_lt, not_lt_of_gt]

/-- Combining two symbols loses nothing but what is above 127. -/
theorem pair_cost {a b h v : Int} (ha : I8 a) (hb : I8 b) (hh : Sym h) (hv : Sym v) :
    penalty (softF a b) h + penalty (softG h a b) v ≤ penalty a (h * v) + penalty b v ∧
    min 127 (penalty a (h * v) + penalty b v) ≤ penalty (softF a b) h + penalty (softG h a b) v := by
  rw [softF_eq]
  unfold penalty softG I8 at *
  have e1 : |a| = if a < 0 then -a else a := by split; exact abs_of_neg ‹_›; exact abs_of_nonneg (by omega)
  have e2 : |b| = if b < 0 then -b else b := by split; exact abs_of_neg ‹_›; exact abs_of_nonneg (by omega)
  rw [e1, e2]
  rcases hh with rfl | rfl <;> rcases hv with rfl | rfl <;> by_cases h1 : a < 0 <;> by_cases h2 : b < 0 <;> simp only [h1, h2, if_true, if_false] <;> constructor <;> omega

theorem softF_range (a b : Int) : I8 (softF a b) := by
  rw [softF_eq]
  unfold I8
  have := abs_nonneg a
  have := abs_nonneg b
  split <;> split <;> constructor <;> omega

theorem softG_range (h a b : Int) : I8 (softG h a b) := by unfold softG I8; omega

theorem pathMetric_nonneg : ∀ (M : Nat) (fr : Nat → Prop) (s u : Nat → Int), 0 ≤ pathMetric M fr s u := by
  intro M
  induction M with
  | zero => intro fr s u; rw [pathMetric]; exact penalty_nonneg _ _
  | succ M ih =>
    intro fr s u
    rw [pathMetric]
    split
    · exact Finset.sum_nonneg fun _ _ => penalty_nonneg _ _
    · exact add_nonneg (ih _ _ _) (ih _ _ _)

theorem min_sum (n : Nat) (f : Nat → Int) (hf : ∀ i, 0 ≤ f i) : min 127 (∑ i ∈ Finset.range n, f i) ≤ ∑ i ∈ Finset.range n, min 127 (f i) := by
  induction n with
  | zero => simp
  | succ n ih =>
    rw [Finset.sum_range_succ, Finset.sum_range_succ]
    have := hf n
    have : (0 : Int) ≤ ∑ i ∈ Finset.range n, f i := Finset.sum_nonneg fun i _ => hf i
    omega

theorem pathMetric_bounds : ∀ (M : Nat) (fr : Nat → Prop) (s u : Nat → Int), (∀ i, i < 2 ^ M → I8 (s i)) → (∀ i, Sym (u i)) → (∀ i, i < 2 ^ M → fr i → u i = 1) →
    pathMetric M fr s u ≤ disagreement (2 ^ M) s (polar M u) ∧ min 127 (disagreement (2 ^ M) s (polar M u)) ≤ pathMetric M fr s u := by
  intro M
  induction M with
  | zero =>
    intro fr s u hs hu hf
    have : polar 0 u 0 = u 0 := by have := P_prod 0 u 0 (by norm_num); unfold polar; rw [← this]; rfl
    rw [pathMetric, disagreement, pow_zero, Finset.sum_range_one, this]
    exact ⟨le_rfl, min_le_right _ _⟩
  | succ M ih =>
    intro fr s u hs hu hf
    rw [pathMetric]
    split
    · rename_i hz
      have : disagreement (2 ^ (M + 1)) s (polar (M + 1) u) = ∑ i ∈ Finset.range (2 ^ (M + 1)), penalty (s i) 1 := by
        refine Finset.sum_congr rfl fun j _ => ?_
        have : polar (M + 1) u j = 1 := by
          unfold polar
          exact Finset.prod_eq_one fun i hi => hf i (by simpa using (Finset.mem_filter.1 hi).1) (hz.2 i (by simpa using (Finset.mem_filter.1 hi).1))
        rw [this]
      rw [this]
      exact ⟨le_rfl, min_le_right _ _⟩
    · have e := two_pow_succ' M
      obtain ⟨l1, l2⟩ := ih fr (fun i => softF (s i) (s (2 ^ M + i))) u (fun i _ => softF_range _ _) hu (fun i hi h => hf i (by omega) h)
      obtain ⟨r1, r2⟩ := ih (fun i => fr (2 ^ M + i)) (fun i => softG (polar M u i) (s i) (s (2 ^ M + i))) (fun i => u (2 ^ M + i)) (fun i _ => softG_range _ _ _)
        (fun i => hu _) (fun i hi h => hf _ (by omega) h)
      have hp : ∀ j, j < 2 ^ M → _ := fun j hj => pair_cost (hs j (by omega)) (hs (2 ^ M + j) (by omega)) (polar_sym hu hj) (polar_sym (u := fun i => u (2 ^ M + i)) (fun i => hu _) hj)
      have hD : disagreement (2 ^ (M + 1)) s (polar (M + 1) u) = ∑ j ∈ Finset.range (2 ^ M), (penalty (s j) (polar M u j * polar M (fun t => u (2 ^ M + t)) j) +
          penalty (s (2 ^ M + j)) (polar M (fun t => u (2 ^ M + t)) j)) := by
        unfold disagreement
        rw [sum_halves]
        refine Finset.sum_congr rfl fun j hj => ?_
        rw [polar_low (Finset.mem_range.1 hj), polar_high (Finset.mem_range.1 hj)]
      have hS : disagreement (2 ^ M) (fun i => softF (s i) (s (2 ^ M + i))) (polar M u) +
          disagreement (2 ^ M) (fun i => softG (polar M u i) (s i) (s (2 ^ M + i))) (polar M fun i => u (2 ^ M + i)) =
          ∑ j ∈ Finset.range (2 ^ M), (penalty (softF (s j) (s (2 ^ M + j))) (polar M u j) + penalty (softG (polar M u j) (s j) (s (2 ^ M + j))) (polar M (fun t => u (2 ^ M + t)) j)) := by
        unfold disagreement
        rw [Finset.sum_add_distrib]
      have c1 : disagreement (2 ^ M) (fun i => softF (s i) (s (2 ^ M + i))) (polar M u) +
          disagreement (2 ^ M) (fun i => softG (polar M u i) (s i) (s (2 ^ M + i))) (polar M fun i => u (2 ^ M + i)) ≤ disagreement (2 ^ (M + 1)) s (polar (M + 1) u) := by
        rw [hS, hD]
        exact Finset.sum_le_sum fun j hj => (hp j (Finset.mem_range.1 hj)).1
      have c2 : min 127 (disagreement (2 ^ (M + 1)) s (polar (M + 1) u)) ≤ disagreement (2 ^ M) (fun i => softF (s i) (s (2 ^ M + i))) (polar M u) +
          disagreement (2 ^ M) (fun i => softG (polar M u i) (s i) (s (2 ^ M + i))) (polar M fun i => u (2 ^ M + i)) := by
        rw [hS, hD]
        refine (min_sum _ _ fun j => add_nonneg (penalty_nonneg _ _) (penalty_nonneg _ _)).trans ?_
        exact Finset.sum_le_sum fun j hj => (hp j (Finset.mem_range.1 hj)).2
      have n1 := disagreement_nonneg (2 ^ M) (fun i => softF (s i) (s (2 ^ M + i))) (polar M u)
      have n2 := disagreement_nonneg (2 ^ M) (fun i => softG (polar M u i) (s i) (s (2 ^ M + i))) (polar M fun i => u (2 ^ M + i))
      omega

/-! ### Nothing is lost -/

theorem mem_best {n : Nat} {l : List Path} {x : Path} {B : Int} (hx : x ∈ l) (hB : x.2 < B) (hn : (l.filter fun a => decide (a.2 < B)).length ≤ n) : x ∈ best n l := by
  unfold best
  set m := l.mergeSort fun a b => decide (a.2 ≤ b.2) with hm
  have hp : m.Perm l := List.mergeSort_perm _ _
  have hs : m.Pairwise fun a b => decide (a.2 ≤ b.2) = true := List.pairwise_mergeSort (fun a b c h1 h2 => by simp at *; omega) (fun a b => by simp; omega) l
  have hxm : x ∈ m := hp.mem_iff.2 hx
  rw [← List.take_append_drop n m] at hxm
  rcases List.mem_append.1 hxm with h | h
  · exact h
  · exfalso
    have hlen : n < m.length := by
      by_contra hc
      rw [List.drop_of_length_le (by omega)] at h
      simp at h
    have hle : ∀ a ∈ m.take n, a.2 < B := by
      rw [← List.take_append_drop n m, List.pairwise_append] at hs
      intro a ha
      have := hs.2.2 a ha x h
      simp at this; omega
    have hc : (m.filter fun a => decide (a.2 < B)).length = (l.filter fun a => decide (a.2 < B)).length := (hp.filter _).length_eq
    rw [← List.take_append_drop n m, List.filter_append, List.length_append, List.filter_eq_self.2 (by simpa using hle), List.length_take] at hc
    have : 1 ≤ ((m.drop n).filter fun a => decide (a.2 < B)).length := List.length_pos_of_mem (List.mem_filter.2 ⟨h, by simpa using hB⟩)
    omega

theorem best_count {n : Nat} (l : List Path) (B : Int) : ((best n l).filter fun a => decide (a.2 < B)).length ≤ (l.filter fun a => decide (a.2 < B)).length := by
  unfold best
  have hp := (List.mergeSort_perm l fun a b => decide (a.2 ≤ b.2)).filter fun a => decide (a.2 < B)
  rw [← hp.length_eq]
  exact ((List.take_sublist _ _).filter _).length_le

theorem mem_of_best {n : Nat} {l : List Path} {x : Path} (h : x ∈ best n l) : x ∈ l := (List.mergeSort_perm _ _).mem_iff.1 (List.mem_of_mem_take h)

theorem nodeSoft_congr (M : Nat) (s : Nat → Int) {u v : Nat → Int} : ∀ (t n : Nat), t ≤ M → (∀ j, j < n * 2 ^ (M - t) → u j = v j) → ∀ i, nodeSoft M s u t n i = nodeSoft M s v t n i := by
  intro t
  induction t with
  | zero => intro n _ _ i; rfl
  | succ t ih =>
    intro n ht h i
    have e : 2 ^ (M - t) = 2 * 2 ^ (M - (t + 1)) := by rw [show M - t = M - (t + 1) + 1 by omega, pow_succ]; ring
    have hn : n / 2 * 2 ^ (M - t) ≤ n * 2 ^ (M - (t + 1)) := by
      rw [e, ← mul_assoc]
      exact Nat.mul_le_mul_right _ (Nat.div_mul_le_self n 2)
    have hp := ih (n / 2) (by omega) fun j hj => h j (by omega)
    simp only [nodeSoft]
    rw [hp, hp]
    split
    · rfl
    · rename_i ho
      rw [polar_congr (v := fun j => v ((n - 1) * 2 ^ (M - (t + 1)) + j))]
      intro j hj
      refine h _ ?_
      obtain ⟨k, rfl⟩ : ∃ k, n = k + 1 := ⟨n - 1, by omega⟩
      rw [Nat.add_sub_cancel, Nat.add_mul, Nat.one_mul]; omega

theorem flatMap_count (B : Int) (c : Path → Int → Int) (F : Nat) (hB : ∀ a b, B ≤ a.2 → B ≤ c a b) : ∀ l : List Path,
    (∀ a ∈ l, a.2 < B → 1 ≤ F ∧ (c a 1 < B → c a (-1) < B → 2 ≤ F)) →
    ((l.flatMap fun a => [(a.1 ++ [1], c a 1), (a.1 ++ [-1], c a (-1))]).filter fun a => decide (a.2 < B)).length ≤ F * (l.filter fun a => decide (a.2 < B)).length := by
  intro l
  induction l with
  | nil => intro _; simp
  | cons a l ih =>
    intro h
    have ih := ih fun x hx => h x (by simp [hx])
    rw [List.flatMap_cons, List.filter_append, List.length_append]
    by_cases ha : a.2 < B
    · obtain ⟨h1, h2⟩ := h a (by simp) ha
      rw [List.filter_cons_of_pos (a := a) (by simpa using ha), List.length_cons, Nat.mul_add, Nat.mul_one]
      have : (List.filter (fun a => decide (a.2 < B)) [(a.1 ++ [1], c a 1), (a.1 ++ [-1], c a (-1))]).length ≤ F := by
        by_cases q1 : c a 1 < B <;> by_cases q2 : c a (-1) < B <;> simp [List.filter_cons, q1, q2] <;> [exact h2 q1 q2; exact h1; exact h1]
      omega
    · rw [List.filter_cons_of_neg (a := a) (by simpa using ha)]
      have q1 := hB a 1 (by omega)
      have q2 := hB a (-1) (by omega)
      have : (List.filter (fun a => decide (a.2 < B)) [(a.1 ++ [1], c a 1), (a.1 ++ [-1], c a (-1))]).length = 0 := by
        simp [List.filter_cons, not_lt.2 q1, not_lt.2 q2]
      omega

/-- A path of metric less than `B` stays in the list if there is room for all paths of metric less than `B`: `N p` bounds the number of these after `p` positions. -/
theorem full_list (M : Nat) (s : Nat → Int) (fr : Nat → Prop) (cost : List Int → Int → Int → Int → Int) (B : Int) (N : Nat → Nat)
    (hB : ∀ w μ s b, B ≤ μ → B ≤ cost w μ s b) (hN0 : ∀ p, N p ≤ N (p + 1))
    (hN : ∀ (w : List Int) μ s, ¬ fr w.length → cost w μ s 1 < B → cost w μ s (-1) < B → 2 * N w.length ≤ N (w.length + 1)) (hL : N (2 ^ M) ≤ L)
    (u : List Int) (hul : u.length = 2 ^ M) (hf : ∀ i, i < 2 ^ M → fr i → u.getD i 1 = 1) (hs : ∀ x ∈ u, Sym x)
    (hu : ∀ i μ s, i < 2 ^ M → ¬ fr i → cost (u.take i) μ s (u.getD i 1) = μ + penalty s (u.getD i 1)) :
    ∀ d t n, t + d = M → n < 2 ^ t → ∀ (ps : List Path) (μ : Int), (∀ a ∈ ps, a.1.length = n * 2 ^ d) →
      (ps.filter fun a => decide (a.2 < B)).length ≤ N (n * 2 ^ d) → (u.take (n * 2 ^ d), μ) ∈ ps → 0 ≤ μ →
      μ + pathMetric d (fun i => fr (n * 2 ^ d + i)) (nodeSoft M s (u.getD · 1) t n) (fun i => u.getD (n * 2 ^ d + i) 1) < B →
      (∀ a ∈ (steps fr d n).foldl (sclStep L M s fr cost) ps, a.1.length = n * 2 ^ d + 2 ^ d) ∧
      (((steps fr d n).foldl (sclStep L M s fr cost) ps).filter fun a => decide (a.2 < B)).length ≤ N (n * 2 ^ d + 2 ^ d) ∧
      (u.take (n * 2 ^ d + 2 ^ d), μ + pathMetric d (fun i => fr (n * 2 ^ d + i)) (nodeSoft M s (u.getD · 1) t n) (fun i => u.getD (n * 2 ^ d + i) 1)) ∈
        (steps fr d n).foldl (sclStep L M s fr cost) ps := by
  have hmono : ∀ p q, p ≤ q → N p ≤ N q := fun p q h => monotone_nat_of_le_succ hN0 h
  have hsoft : ∀ d t n, t + d = M → n < 2 ^ t → ∀ i, nodeSoft M s ((u.take (n * 2 ^ d)).getD · 1) (M - d) n i = nodeSoft M s (u.getD · 1) t n i := by
    intro d t n hM hn i
    rw [show M - d = t by omega]
    refine nodeSoft_congr M s t n (by omega) (fun j hj => ?_) i
    rw [show M - t = d by omega] at hj
    rw [getD_take_lt hj]
  have htake : ∀ d t n, t + d = M → n < 2 ^ t → n * 2 ^ d + 2 ^ d ≤ 2 ^ M := by
    intro d t n hM hn
    rw [← hM, pow_add 2 t d]
    calc n * 2 ^ d + 2 ^ d = (n + 1) * 2 ^ d := by ring
      _ ≤ _ := Nat.mul_le_mul_right _ hn
  have frozen : ∀ d t n, t + d = M → n < 2 ^ t → (∀ i, i < 2 ^ d → fr (n * 2 ^ d + i)) → ∀ (ps : List Path) (μ : Int), (∀ a ∈ ps, a.1.length = n * 2 ^ d) →
      (ps.filter fun a => decide (a.2 < B)).length ≤ N (n * 2 ^ d) → (u.take (n * 2 ^ d), μ) ∈ ps →
      (∀ a ∈ sclStep L M s fr cost ps (d, n), a.1.length = n * 2 ^ d + 2 ^ d) ∧
      ((sclStep L M s fr cost ps (d, n)).filter fun a => decide (a.2 < B)).length ≤ N (n * 2 ^ d + 2 ^ d) ∧
      (u.take (n * 2 ^ d + 2 ^ d), μ + ∑ i ∈ Finset.range (2 ^ d), penalty (nodeSoft M s (u.getD · 1) t n i) 1) ∈ sclStep L M s fr cost ps (d, n) := by
    intro d t n hM hn hz ps μ h1 h2 h3
    have hp := Nat.two_pow_pos d
    have hle := htake d t n hM hn
    have e : sclStep L M s fr cost ps (d, n) = ps.map fun a => (a.1 ++ List.replicate (2 ^ d) 1, a.2 + ∑ i ∈ Finset.range (2 ^ d), penalty (nodeSoft M s (a.1.getD · 1) (M - d) n i) 1) := by
      unfold sclStep
      rw [if_pos (by have := hz 0 hp; simpa using this)]
    rw [e]
    refine ⟨fun a ha => ?_, ?_, ?_⟩
    · obtain ⟨a', ha', rfl⟩ := List.mem_map.1 ha
      simp [h1 a' ha']
    · rw [List.filter_map, List.length_map]
      refine le_trans (List.Sublist.length_le ?_) (h2.trans (hmono _ _ (by omega)))
      refine List.monotone_filter_right _ fun a ha => ?_
      simp only [Function.comp, decide_eq_true_eq] at ha ⊢
      have : (0 : Int) ≤ ∑ i ∈ Finset.range (2 ^ d), penalty (nodeSoft M s (a.1.getD · 1) (M - d) n i) 1 := Finset.sum_nonneg fun _ _ => penalty_nonneg _ _
      omega
    · refine List.mem_map.2 ⟨_, h3, ?_⟩
      dsimp only
      rw [Finset.sum_congr rfl fun i _ => by rw [hsoft d t n hM hn i]]
      congr 1
      refine ext_getD 1 (by simp; omega) fun i hi => ?_
      have hi' : i < n * 2 ^ d + 2 ^ d := by simp at hi; omega
      rw [getD_take_lt hi']
      by_cases hlt : i < n * 2 ^ d
      · rw [← getElem_eq_getD hi, List.getElem_append_left (by simp; omega), getElem_eq_getD _ 1, getD_take_lt hlt]
      · rw [← getElem_eq_getD hi, List.getElem_append_right (by simp; omega), List.getElem_replicate]
        have := hz (i - n * 2 ^ d) (by omega)
        rw [show n * 2 ^ d + (i - n * 2 ^ d) = i by omega] at this
        exact (hf i (by omega) this).symm
  intro d
  induction d with
  | zero =>
    intro t n hM hn ps μ h1 h2 h3 h0 h4
    have hle := htake 0 t n hM hn
    rw [steps, List.foldl_cons, List.foldl_nil]
    by_cases hz : fr n
    · have := frozen 0 t n hM hn (fun i hi => by
        rw [pow_zero, Nat.mul_one]; have : i = 0 := by simpa using hi
        rw [this]; exact hz) ps μ h1 h2 h3
      rw [pathMetric]
      have hu1 : u.getD (n * 2 ^ 0 + 0) 1 = 1 := hf _ (by simpa using hle) (by simpa using hz)
      rw [hu1]
      simpa only [pow_zero, Finset.sum_range_one] using this
    · rw [pathMetric] at h4 ⊢
      simp only [pow_zero, Nat.mul_one, Nat.add_zero] at *
      have hso := hsoft 0 t n hM hn 0
      rw [pow_zero, Nat.mul_one] at hso
      have e : sclStep L M s fr cost ps (0, n) = best L (ps.flatMap fun a => [(a.1 ++ [1], cost a.1 a.2 (nodeSoft M s (a.1.getD · 1) (M - 0) n 0) 1), (a.1 ++ [-1], cost a.1 a.2 (nodeSoft M s (a.1.getD · 1) (M - 0) n 0) (-1))]) := by
        unfold sclStep
        rw [if_neg (by simpa using hz)]
      have hcount : ((ps.flatMap fun a => [(a.1 ++ [1], cost a.1 a.2 (nodeSoft M s (a.1.getD · 1) (M - 0) n 0) 1), (a.1 ++ [-1], cost a.1 a.2 (nodeSoft M s (a.1.getD · 1) (M - 0) n 0) (-1))]).filter
          fun a => decide (a.2 < B)).length ≤ N (n + 1) := by
        by_cases hboth : 2 * N n ≤ N (n + 1)
        · refine (flatMap_count B (fun a b => cost a.1 a.2 (nodeSoft M s (a.1.getD · 1) (M - 0) n 0) b) 2 (fun a b h => hB _ _ _ _ h) ps fun a _ _ => ⟨by omega, fun _ _ => le_rfl⟩).trans ?_
          omega
        · refine (flatMap_count B (fun a b => cost a.1 a.2 (nodeSoft M s (a.1.getD · 1) (M - 0) n 0) b) 1 (fun a b h => hB _ _ _ _ h) ps fun a ha _ => ⟨le_rfl, fun q1 q2 => ?_⟩).trans ?_
          · have hl := h1 a ha
            have := hN a.1 a.2 _ (by rw [hl]; exact hz) q1 q2
            rw [hl] at this
            exact absurd this hboth
          · have := hN0 n
            omega
      rw [e]
      refine ⟨fun a ha => ?_, (best_count _ _).trans hcount, ?_⟩
      · obtain ⟨a', ha', h⟩ := List.mem_flatMap.1 (mem_of_best ha)
        simp only [List.mem_cons, List.not_mem_nil, or_false] at h
        rcases h with rfl | rfl <;> simp [h1 a' ha']
      · refine mem_best ?_ h4 (hcount.trans ((hmono _ _ hle).trans hL))
        refine List.mem_flatMap.2 ⟨_, h3, ?_⟩
        have hun : u.take (n + 1) = u.take n ++ [u.getD n 1] := by
          rw [List.take_add_one, List.getElem?_eq_getElem (by omega), ← getElem_eq_getD]; rfl
        have hc := hu n μ (nodeSoft M s (u.getD · 1) t n 0) (by omega) hz
        rw [hun]
        dsimp only
        rw [hso]
        have hsy : Sym (u.getD n 1) := getD_Sym (fun x hx => hs x hx) n
        rcases hsy with h | h
        · rw [h] at hc ⊢; rw [← hc]; simp
        · rw [h] at hc ⊢; rw [← hc]; simp
  | succ d ih =>
    intro t n hM hn ps μ h1 h2 h3 h0 h4
    have p1 : n * 2 ^ (d + 1) = 2 * n * 2 ^ d := by rw [pow_succ]; ring
    have p2 : n * 2 ^ (d + 1) + 2 ^ d = (2 * n + 1) * 2 ^ d := by rw [pow_succ]; ring
    have p3 : n * 2 ^ (d + 1) + 2 ^ (d + 1) = (2 * n + 1) * 2 ^ d + 2 ^ d := by rw [pow_succ]; ring
    have hn1 : 2 * n < 2 ^ (t + 1) := by rw [pow_succ]; omega
    have hn2 : 2 * n + 1 < 2 ^ (t + 1) := by rw [pow_succ]; omega
    have ht : M - (t + 1) = d := by omega
    rw [steps]
    by_cases hz : d + 1 ≤ 5 ∧ ∀ i, i < 2 ^ (d + 1) → fr (n * 2 ^ (d + 1) + i)
    · rw [if_pos hz, List.foldl_cons, List.foldl_nil]
      rw [pathMetric, if_pos hz]
      exact frozen (d + 1) t n hM hn hz.2 ps μ h1 h2 h3
    · rw [if_neg hz, List.foldl_append]
      rw [pathMetric, if_neg hz] at h4 ⊢
      have eF : (fun i => softF (nodeSoft M s (u.getD · 1) t n i) (nodeSoft M s (u.getD · 1) t n (2 ^ d + i))) = nodeSoft M s (u.getD · 1) (t + 1) (2 * n) := by
        funext i
        rw [nodeSoft]
        simp only [ht]
        rw [if_pos (by omega), show 2 * n / 2 = n by omega]
      have eG : (fun i => softG (polar d (fun i => u.getD (n * 2 ^ (d + 1) + i) 1) i) (nodeSoft M s (u.getD · 1) t n i) (nodeSoft M s (u.getD · 1) t n (2 ^ d + i))) =
          nodeSoft M s (u.getD · 1) (t + 1) (2 * n + 1) := by
        funext i
        rw [nodeSoft]
        simp only [ht]
        rw [if_neg (by omega), show (2 * n + 1) / 2 = n by omega, show 2 * n + 1 - 1 = 2 * n by omega, p1]
      have e1 : (fun i => fr (n * 2 ^ (d + 1) + (2 ^ d + i))) = fun i => fr ((2 * n + 1) * 2 ^ d + i) := by
        funext i; rw [← Nat.add_assoc, p2]
      have e2 : (fun i => u.getD (n * 2 ^ (d + 1) + (2 ^ d + i)) 1) = fun i => u.getD ((2 * n + 1) * 2 ^ d + i) 1 := by
        funext i; rw [← Nat.add_assoc, p2]
      rw [eF, eG, e1, e2] at h4 ⊢
      rw [p3]
      rw [p1] at h1 h2 h3 h4 ⊢
      have r0 := pathMetric_nonneg d (fun i => fr ((2 * n + 1) * 2 ^ d + i)) (nodeSoft M s (u.getD · 1) (t + 1) (2 * n + 1)) (fun i => u.getD ((2 * n + 1) * 2 ^ d + i) 1)
      have l0 := pathMetric_nonneg d (fun i => fr (2 * n * 2 ^ d + i)) (nodeSoft M s (u.getD · 1) (t + 1) (2 * n)) (fun i => u.getD (2 * n * 2 ^ d + i) 1)
      obtain ⟨l1, l2, l3⟩ := ih (t + 1) (2 * n) (by omega) hn1 ps μ h1 h2 h3 h0 (by omega)
      have p4 : 2 * n * 2 ^ d + 2 ^ d = (2 * n + 1) * 2 ^ d := by ring
      rw [p4] at l1 l2 l3
      have := ih (t + 1) (2 * n + 1) (by omega) hn2 _ _ l1 l2 l3 (by omega) (by omega)
      rw [Int.add_assoc] at this
      exact this

end Verif.Polar
