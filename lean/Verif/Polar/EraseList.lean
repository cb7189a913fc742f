import Verif.Polar.PropsMl
/- The list decoder on erased soft values: which nodes are erased, and how many paths cost nothing. -/
namespace Verif.Polar
variable {L : Nat}

/-- A soft value of 0 if erased, otherwise one of the sign of the symbol. -/
def RelS (e : Bool) (v x : Int) : Prop := if e then v = 0 else (x = 1 ∧ 0 < v) ∨ (x = -1 ∧ v < 0)

/-- Which soft values of a node are erased. -/
def eAt (M : Nat) (e : Nat → Bool) : Nat → Nat → Nat → Bool
  | 0, _, i => e i
  | t + 1, n, i =>
    let a := eAt M e t (n / 2) i
    let b := eAt M e t (n / 2) (2 ^ (M - (t + 1)) + i)
    if n % 2 = 0 then a || b else a && b

theorem softF_rel {a b x y : Int} {e f : Bool} (hx : Sym x) (hy : Sym y) (ha : RelS e a (x * y)) (hb : RelS f b y) : RelS (e || f) (softF a b) x := by
  unfold RelS at *
  cases e with
  | true =>
    simp only [if_true, Bool.true_or] at ha ⊢
    subst ha; simp [softF]
  | false =>
    cases f with
    | true =>
      simp only [if_true, Bool.or_true] at hb ⊢
      subst hb; simp [softF]
    | false =>
      simp only [Bool.false_eq_true, if_false, Bool.or_false] at ha hb ⊢
      have pa : 0 < min |a| 127 := lt_min (abs_pos.2 (by omega)) (by omega)
      have pb : 0 < min |b| 127 := lt_min (abs_pos.2 (by omega)) (by omega)
      have hm : 0 < min (min |a| 127) (min |b| 127) := lt_min pa pb
      unfold softF
      generalize min (min |a| 127) (min |b| 127) = m at hm
      rcases ha with ⟨ha, ha'⟩ | ⟨ha, ha'⟩ <;> rcases hb with ⟨hb, hb'⟩ | ⟨hb, hb'⟩ <;>
        simp only [Int.sign_eq_one_of_pos, Int.sign_eq_neg_one_of_neg, ha', hb'] <;> rcases hx with rfl | rfl <;> omega

theorem softG_rel {a b x y : Int} {e f : Bool} (hx : Sym x) (hy : Sym y) (ha : RelS e a (x * y)) (hb : RelS f b y) : RelS (e && f) (softG x a b) y := by
  unfold RelS at *
  cases e <;> cases f <;> simp only [Bool.false_eq_true, if_false, if_true, Bool.and_false, Bool.and_true, Bool.false_and] at ha hb ⊢ <;>
    unfold softG <;> rcases hx with rfl | rfl <;> rcases hy with rfl | rfl <;> omega

theorem half {M t : Nat} (ht : t + 1 ≤ M) : 2 ^ (M - t) = 2 ^ (M - (t + 1)) + 2 ^ (M - (t + 1)) := by
  rw [show M - t = M - (t + 1) + 1 by omega, two_pow_succ']

/-- With the decisions of an input that fits the received symbols, the soft values of a node are erased or have the signs of the node's symbols. -/
theorem node_rel {M : Nat} {s u : Nat → Int} {e : Nat → Bool} (hu : ∀ i, Sym (u i)) (hs : ∀ j, j < 2 ^ M → RelS (e j) (s j) (polar M u j)) :
    ∀ (t n : Nat), t ≤ M → n < 2 ^ t → ∀ i, i < 2 ^ (M - t) → RelS (eAt M e t n i) (nodeSoft M s u t n i) (polar (M - t) (fun j => u (n * 2 ^ (M - t) + j)) i) := by
  intro t
  induction t with
  | zero =>
    intro n _ hn i hi
    obtain rfl : n = 0 := by simpa using hn
    simp only [Nat.zero_mul, Nat.zero_add, Nat.sub_zero] at hi ⊢
    exact hs i hi
  | succ t ih =>
    intro n ht hn i hi
    have hh := half ht
    have hn2 : n / 2 < 2 ^ t := by rw [pow_succ] at hn; omega
    have a := ih (n / 2) (by omega) hn2 i (by omega)
    have b := ih (n / 2) (by omega) hn2 (2 ^ (M - (t + 1)) + i) (by omega)
    have hd : M - t = M - (t + 1) + 1 := by omega
    have ea : polar (M - t) (fun j => u (n / 2 * 2 ^ (M - t) + j)) i =
        polar (M - (t + 1)) (fun j => u (n / 2 * 2 ^ (M - t) + j)) i * polar (M - (t + 1)) (fun j => u (n / 2 * 2 ^ (M - t) + (2 ^ (M - (t + 1)) + j))) i := by
      rw [hd]; exact polar_low hi
    have eb : polar (M - t) (fun j => u (n / 2 * 2 ^ (M - t) + j)) (2 ^ (M - (t + 1)) + i) =
        polar (M - (t + 1)) (fun j => u (n / 2 * 2 ^ (M - t) + (2 ^ (M - (t + 1)) + j))) i := by
      rw [hd]; exact polar_high hi
    rw [ea] at a
    rw [eb] at b
    have s1 : Sym (polar (M - (t + 1)) (fun j => u (n / 2 * 2 ^ (M - t) + j)) i) := polar_sym (fun _ => hu _) hi
    have s2 : Sym (polar (M - (t + 1)) (fun j => u (n / 2 * 2 ^ (M - t) + (2 ^ (M - (t + 1)) + j))) i) := polar_sym (fun _ => hu _) hi
    have hq : n / 2 * 2 ^ (M - t) = n / 2 * 2 * 2 ^ (M - (t + 1)) := by rw [hh]; ring
    simp only [eAt, nodeSoft]
    by_cases hp : n % 2 = 0
    · rw [if_pos hp, if_pos hp]
      have : n / 2 * 2 = n := by omega
      rw [hq, this] at a b s1 s2
      exact softF_rel s1 s2 a b
    · rw [if_neg hp, if_neg hp]
      have e1 : n / 2 * 2 = n - 1 := by omega
      have e2 : n * 2 ^ (M - (t + 1)) = (n - 1) * 2 ^ (M - (t + 1)) + 2 ^ (M - (t + 1)) := by
        obtain ⟨k, rfl⟩ : ∃ k, n = k + 1 := ⟨n - 1, by omega⟩
        rw [Nat.add_sub_cancel]; ring
      rw [hq, e1] at a b s1 s2
      simp only [← Nat.add_assoc, ← e2] at a b s2
      exact softG_rel s1 s2 a b

/-- Symbols of a node that do not show up in the symbols of the node that are left can be extended to an input that does not show up in the symbols
that are left. -/
theorem lift {M : Nat} {e : Nat → Bool} : ∀ (t n : Nat), t ≤ M → n < 2 ^ t → ∀ x : Nat → Int, (∀ i, Sym (x i)) →
    (∀ i, i < 2 ^ (M - t) → eAt M e t n i = false → polar (M - t) x i = 1) →
    ∃ v : Nat → Int, (∀ i, Sym (v i)) ∧ (∀ k, k < n * 2 ^ (M - t) → v k = 1) ∧ (∀ i, i < 2 ^ (M - t) → v (n * 2 ^ (M - t) + i) = x i) ∧
      ∀ j, j < 2 ^ M → e j = false → polar M v j = 1 := by
  intro t
  induction t with
  | zero =>
    intro n _ hn x hx h
    obtain rfl : n = 0 := by simpa using hn
    exact ⟨x, hx, by simp, by simp, h⟩
  | succ t ih =>
    intro n ht hn x hx h
    have hh := half ht
    have hn2 : n / 2 < 2 ^ t := by rw [pow_succ] at hn; omega
    have hd : M - t = M - (t + 1) + 1 := by omega
    have hq : n / 2 * 2 ^ (M - t) = n / 2 * 2 * 2 ^ (M - (t + 1)) := by rw [hh]; ring
    set d := M - (t + 1) with hdd
    simp only [eAt, ← hdd] at h
    by_cases hp : n % 2 = 0
    · simp only [if_pos hp] at h
      set c : Nat → Int := fun j => if eAt M e t (n / 2) (2 ^ d + j) then P (· * ·) d x j else 1 with hc
      have hcs : ∀ j, Sym (c j) := by
        intro j
        rw [hc]; dsimp only; split
        · exact P_sym d x hx j
        · exact Or.inl rfl
      set r := P (· * ·) d c with hr
      have hrs : ∀ j, Sym (r j) := P_sym d c hcs
      have hrc : ∀ j, j < 2 ^ d → polar d r j = c j := by
        intro j hj
        unfold polar
        rw [← P_prod d r j hj, hr, P_invol d c (fun t => (hcs t).sq) j hj]
      have hPx : ∀ j, j < 2 ^ d → P (· * ·) d x j = polar d x j := fun j hj => P_prod d x j hj
      set y : Nat → Int := fun i => if i < 2 ^ d then x i else r (i - 2 ^ d) with hy
      have y1 : ∀ j, polar d y j = polar d x j := fun j => polar_congr (fun i hi => by rw [hy]; dsimp only; rw [if_pos hi]) j
      have y2 : ∀ j, polar d (fun i => y (2 ^ d + i)) j = polar d r j := fun j => polar_congr (fun i _ => by
        rw [hy]; dsimp only; rw [if_neg (by omega), Nat.add_sub_cancel_left]) j
      obtain ⟨v, v1, v2, v3, v4⟩ := ih (n / 2) (by omega) hn2 y (fun i => by
        rw [hy]; dsimp only; split
        · exact hx i
        · exact hrs _) fun i hi hf => by
        rw [hd]
        by_cases hi' : i < 2 ^ d
        · rw [polar_low hi', y1, y2, hrc i hi', hc]
          dsimp only
          split
          · rw [hPx i hi']; exact (polar_sym hx hi').sq
          · rename_i hb
            rw [mul_one]
            exact h i hi' (by rw [hf]; simpa using hb)
        · obtain ⟨k, rfl⟩ : ∃ k, i = 2 ^ d + k := ⟨i - 2 ^ d, by omega⟩
          rw [polar_high (by omega), y2, hrc k (by omega), hc]
          dsimp only
          rw [hf]; rfl
      have e1 : n / 2 * 2 = n := by omega
      rw [hq, e1] at v2 v3
      refine ⟨v, v1, v2, fun i hi => ?_, v4⟩
      rw [v3 i (by omega), hy]
      dsimp only; rw [if_pos hi]
    · simp only [if_neg hp] at h
      set y : Nat → Int := fun i => if i < 2 ^ d then 1 else x (i - 2 ^ d) with hy
      have y1 : ∀ j, polar d y j = 1 := fun j => by
        unfold polar
        refine Finset.prod_eq_one fun i hi => ?_
        simp only [Finset.mem_filter, Finset.mem_range] at hi
        rw [hy]; dsimp only; rw [if_pos hi.1]
      have y2 : ∀ j, polar d (fun i => y (2 ^ d + i)) j = polar d x j := fun j => polar_congr (fun i _ => by
        rw [hy]; dsimp only; rw [if_neg (by omega), Nat.add_sub_cancel_left]) j
      obtain ⟨v, v1, v2, v3, v4⟩ := ih (n / 2) (by omega) hn2 y (fun i => by
        rw [hy]; dsimp only; split
        · exact Or.inl rfl
        · exact hx _) fun i hi hf => by
        rw [hd]
        by_cases hi' : i < 2 ^ d
        · rw [polar_low hi', y1, y2, one_mul]
          exact h i hi' (by rw [hf]; rfl)
        · obtain ⟨k, rfl⟩ : ∃ k, i = 2 ^ d + k := ⟨i - 2 ^ d, by omega⟩
          rw [polar_high (by omega), y2]
          exact h k (by omega) (by rw [hf, Bool.and_false])
      have e1 : n / 2 * 2 = n - 1 := by omega
      have e2 : n * 2 ^ d = (n - 1) * 2 ^ d + 2 ^ d := by
        obtain ⟨k, rfl⟩ : ∃ k, n = k + 1 := ⟨n - 1, by omega⟩
        rw [Nat.add_sub_cancel]; ring
      rw [hq, e1] at v2 v3
      refine ⟨v, v1, fun k hk => ?_, fun i hi => ?_, v4⟩
      · by_cases hlt : k < (n - 1) * 2 ^ d
        · exact v2 k hlt
        · have := v3 (k - (n - 1) * 2 ^ d) (by omega)
          rw [show (n - 1) * 2 ^ d + (k - (n - 1) * 2 ^ d) = k by omega] at this
          rw [this, hy]; dsimp only; rw [if_pos (by omega)]
      · have := v3 (2 ^ d + i) (by omega)
        rw [← Nat.add_assoc, ← e2] at this
        rw [this, hy]; dsimp only; rw [if_neg (by omega), Nat.add_sub_cancel_left]

/-! ### Paths that cost nothing -/

/-- The decisions `w` can be continued to an input that fits the symbols that are left. -/
def Fits (M : Nat) (e : Nat → Bool) (x : Nat → Int) (w : List Int) : Prop :=
  ∃ v : Nat → Int, (∀ i, Sym (v i)) ∧ (∀ i, i < w.length → v i = w.getD i 1) ∧ ∀ j, j < 2 ^ M → e j = false → polar M v j = x j

theorem polar_mul (M : Nat) (u v : Nat → Int) (j : Nat) : polar M (fun i => u i * v i) j = polar M u j * polar M v j := Finset.prod_mul_distrib

theorem penalty_zero {v b x : Int} (hb : Sym b) (h : RelS false v x) : penalty v b = 0 ↔ b = x := by
  unfold RelS at h
  simp only [Bool.false_eq_true, if_false] at h
  unfold penalty
  rcases hb with rfl | rfl <;> rcases h with ⟨rfl, h⟩ | ⟨rfl, h⟩ <;> omega

section
variable {M : Nat} {s x : Nat → Int} {e : Nat → Bool}

theorem fits_soft (hs : ∀ j, j < 2 ^ M → RelS (e j) (s j) (x j)) {w : List Int} {v : Nat → Int} (h1 : ∀ i, Sym (v i)) (h2 : ∀ i, i < w.length → v i = w.getD i 1)
    (h3 : ∀ j, j < 2 ^ M → e j = false → polar M v j = x j) {t n : Nat} (ht : t ≤ M) (hn : n < 2 ^ t) (hw : w.length = n * 2 ^ (M - t)) {i : Nat} (hi : i < 2 ^ (M - t)) :
    RelS (eAt M e t n i) (nodeSoft M s (w.getD · 1) t n i) (polar (M - t) (fun j => v (n * 2 ^ (M - t) + j)) i) := by
  rw [nodeSoft_congr M s (v := v) t n ht (fun j hj => (h2 j (by omega)).symm) i]
  refine node_rel h1 (fun j hj => ?_) t n ht hn i hi
  have := hs j hj
  cases he : e j with
  | true => rw [he] at this; exact this
  | false => rw [h3 j hj he, ← he]; exact this

theorem fits_block_of {w : List Int} {v : Nat → Int} (h1 : ∀ i, Sym (v i)) (h2 : ∀ i, i < w.length → v i = w.getD i 1)
    (h3 : ∀ j, j < 2 ^ M → e j = false → polar M v j = x j) {t n : Nat} (ht : t ≤ M) (hn : n < 2 ^ t) (hw : w.length = n * 2 ^ (M - t))
    (hz : ∀ i, i < 2 ^ (M - t) → eAt M e t n i = false → polar (M - t) (fun j => v (n * 2 ^ (M - t) + j)) i = 1) :
    Fits M e x (w ++ List.replicate (2 ^ (M - t)) 1) := by
  obtain ⟨z, z1, z2, z3, z4⟩ := lift (e := e) t n ht hn (fun i => v (n * 2 ^ (M - t) + i)) (fun _ => h1 _) hz
  refine ⟨fun i => v i * z i, fun i => (h1 i).mul (z1 i), fun i hi => ?_, fun j hj he => ?_⟩
  · dsimp only
    by_cases hlt : i < w.length
    · rw [z2 i (by omega), mul_one, h2 i hlt, List.getD_append _ _ _ _ hlt]
    · have hi' : i - n * 2 ^ (M - t) < 2 ^ (M - t) := by simp at hi; omega
      have q := z3 _ hi'
      rw [show n * 2 ^ (M - t) + (i - n * 2 ^ (M - t)) = i by omega] at q
      rw [q, List.getD_append_right _ _ _ _ (by omega), ← getElem_eq_getD (by simp; omega), List.getElem_replicate]
      exact (h1 i).sq
  · rw [polar_mul, z4 j hj he, mul_one, h3 j hj he]

theorem fits_block (hs : ∀ j, j < 2 ^ M → RelS (e j) (s j) (x j)) {w : List Int} (h : Fits M e x w) {t n : Nat} (ht : t ≤ M) (hn : n < 2 ^ t)
    (hw : w.length = n * 2 ^ (M - t)) (hz : ∀ i, i < 2 ^ (M - t) → penalty (nodeSoft M s (w.getD · 1) t n i) 1 = 0) :
    Fits M e x (w ++ List.replicate (2 ^ (M - t)) 1) := by
  obtain ⟨v, h1, h2, h3⟩ := h
  refine fits_block_of h1 h2 h3 ht hn hw fun i hi hf => ?_
  have := fits_soft hs h1 h2 h3 ht hn hw hi
  rw [hf] at this
  exact ((penalty_zero (Or.inl rfl) this).1 (hz i hi)).symm

theorem polar_leaf (v : Nat → Int) (n : Nat) : polar (M - M) (fun j => v (n * 2 ^ (M - M) + j)) 0 = v n := by
  rw [Nat.sub_self, pow_zero, Nat.mul_one]
  unfold polar
  rw [show (Finset.range (2 ^ 0)).filter (fun i => i &&& 0 = 0) = {0} from rfl, Finset.prod_singleton]
  rfl

theorem fits_leaf_of {w : List Int} {v : Nat → Int} (h1 : ∀ i, Sym (v i)) (h2 : ∀ i, i < w.length → v i = w.getD i 1)
    (h3 : ∀ j, j < 2 ^ M → e j = false → polar M v j = x j) (hw : w.length < 2 ^ M) {b : Int} (hb : Sym b) (hz : eAt M e M w.length 0 = false → b = v w.length) :
    Fits M e x (w ++ [b]) := by
  by_cases hbv : b = v w.length
  · refine ⟨v, h1, fun i hi => ?_, h3⟩
    by_cases hlt : i < w.length
    · rw [h2 i hlt, List.getD_append _ _ _ _ hlt]
    · have : i = w.length := by simp at hi; omega
      subst this
      rw [List.getD_append_right _ _ _ _ le_rfl, Nat.sub_self, hbv]; rfl
  · have he : eAt M e M w.length 0 = true := by
      cases he : eAt M e M w.length 0 with
      | true => rfl
      | false => exact absurd (hz he) hbv
    obtain ⟨z, z1, z2, z3, z4⟩ := lift (e := e) M w.length le_rfl hw (fun _ => -1) (fun _ => Or.inr rfl) fun i hi hf => by
      obtain rfl : i = 0 := by simpa using hi
      rw [he] at hf; cases hf
    simp only [Nat.sub_self, pow_zero, Nat.mul_one] at z2 z3
    refine ⟨fun i => v i * z i, fun i => (h1 i).mul (z1 i), fun i hi => ?_, fun j hj he => ?_⟩
    · dsimp only
      by_cases hlt : i < w.length
      · rw [z2 i hlt, mul_one, h2 i hlt, List.getD_append _ _ _ _ hlt]
      · have : i = w.length := by simp at hi; omega
        subst this
        have q := z3 0 (by simp)
        rw [Nat.add_zero] at q
        rw [q, List.getD_append_right _ _ _ _ le_rfl, Nat.sub_self]
        show v w.length * -1 = b
        have := h1 w.length
        unfold Sym at this hb
        omega
    · rw [polar_mul, z4 j hj he, mul_one, h3 j hj he]

theorem fits_leaf (hs : ∀ j, j < 2 ^ M → RelS (e j) (s j) (x j)) {w : List Int} (h : Fits M e x w) (hw : w.length < 2 ^ M) :
    (∀ b, Sym b → penalty (nodeSoft M s (w.getD · 1) M w.length 0) b = 0 → Fits M e x (w ++ [b])) ∧
      (penalty (nodeSoft M s (w.getD · 1) M w.length 0) 1 = 0 → penalty (nodeSoft M s (w.getD · 1) M w.length 0) (-1) = 0 → eAt M e M w.length 0 = true) := by
  obtain ⟨v, h1, h2, h3⟩ := h
  have hrel := fits_soft hs h1 h2 h3 (t := M) (n := w.length) le_rfl hw (by simp) (i := 0) (by simp)
  rw [polar_leaf] at hrel
  constructor
  · intro b hb hz
    refine fits_leaf_of h1 h2 h3 hw hb fun he => ?_
    rw [he] at hrel
    exact (penalty_zero hb hrel).1 hz
  · intro p1 p2
    cases he : eAt M e M w.length 0 with
    | true => rfl
    | false =>
      rw [he] at hrel
      have q1 := (penalty_zero (Or.inl rfl) hrel).1 p1
      have q2 := (penalty_zero (Or.inr rfl) hrel).1 p2
      omega

/-- A path that costs nothing stays in the list if there is room for two alternatives for every erased decision. -/
theorem zero_list (fr : Nat → Prop) (cost : List Int → Int → Int → Int → Int) (N : Nat → Nat)
    (hc1 : ∀ w μ s b, 0 ≤ μ → 0 ≤ cost w μ s b ∧ (cost w μ s b < 1 → μ < 1 ∧ penalty s b = 0)) (hs : ∀ j, j < 2 ^ M → RelS (e j) (s j) (x j)) (hN0 : ∀ p, N p ≤ N (p + 1))
    (hN : ∀ (w : List Int) μ s, w.length < 2 ^ M → ¬ fr w.length → eAt M e M w.length 0 = true → cost w μ s 1 < 1 → cost w μ s (-1) < 1 → 2 * N w.length ≤ N (w.length + 1)) (hL : N (2 ^ M) ≤ L)
    (u : List Int) (hul : u.length = 2 ^ M) (hf : ∀ i, i < 2 ^ M → fr i → u.getD i 1 = 1) (hus : ∀ x ∈ u, Sym x)
    (hcu : ∀ i s, i < 2 ^ M → ¬ fr i → cost (u.take i) 0 s (u.getD i 1) = penalty s (u.getD i 1)) :
    ∀ d t n, t + d = M → n < 2 ^ t → ∀ (ps : List Path), (∀ a ∈ ps, a.1.length = n * 2 ^ d ∧ 0 ≤ a.2 ∧ (a.2 < 1 → Fits M e x a.1)) →
      (ps.filter fun a => decide (a.2 < 1)).length ≤ N (n * 2 ^ d) → (u.take (n * 2 ^ d), 0) ∈ ps →
      pathMetric d (fun i => fr (n * 2 ^ d + i)) (nodeSoft M s (u.getD · 1) t n) (fun i => u.getD (n * 2 ^ d + i) 1) = 0 →
      (∀ a ∈ (steps fr d n).foldl (sclStep L M s fr cost) ps, a.1.length = n * 2 ^ d + 2 ^ d ∧ 0 ≤ a.2 ∧ (a.2 < 1 → Fits M e x a.1)) ∧
      (((steps fr d n).foldl (sclStep L M s fr cost) ps).filter fun a => decide (a.2 < 1)).length ≤ N (n * 2 ^ d + 2 ^ d) ∧
      (u.take (n * 2 ^ d + 2 ^ d), 0) ∈ (steps fr d n).foldl (sclStep L M s fr cost) ps := by
  have hmono : ∀ p q, p ≤ q → N p ≤ N q := fun p q h => monotone_nat_of_le_succ hN0 h
  have hsoft : ∀ d t n, t + d = M → n < 2 ^ t → ∀ i, nodeSoft M s ((u.take (n * 2 ^ d)).getD · 1) (M - d) n i = nodeSoft M s (u.getD · 1) t n i := by
    intro d t n hM hn i
    rw [show M - d = t by omega]
    refine nodeSoft_congr M s t n (by omega) (fun j hj => ?_) i
    rw [show M - t = d by omega] at hj
    rw [getD_take_lt hj]
  have htake : ∀ d t n, t + d = M → n < 2 ^ t → n * 2 ^ d + 2 ^ d ≤ 2 ^ M := by
    intro d t n hM hn
    rw [← hM, pow_add 2 t d]
    calc n * 2 ^ d + 2 ^ d = (n + 1) * 2 ^ d := by ring
      _ ≤ _ := Nat.mul_le_mul_right _ hn
  have frozen : ∀ d t n, t + d = M → n < 2 ^ t → (∀ i, i < 2 ^ d → fr (n * 2 ^ d + i)) → ∀ (ps : List Path),
      (∀ a ∈ ps, a.1.length = n * 2 ^ d ∧ 0 ≤ a.2 ∧ (a.2 < 1 → Fits M e x a.1)) →
      (ps.filter fun a => decide (a.2 < 1)).length ≤ N (n * 2 ^ d) → (u.take (n * 2 ^ d), 0) ∈ ps →
      ∑ i ∈ Finset.range (2 ^ d), penalty (nodeSoft M s (u.getD · 1) t n i) 1 = 0 →
      (∀ a ∈ sclStep L M s fr cost ps (d, n), a.1.length = n * 2 ^ d + 2 ^ d ∧ 0 ≤ a.2 ∧ (a.2 < 1 → Fits M e x a.1)) ∧
      ((sclStep L M s fr cost ps (d, n)).filter fun a => decide (a.2 < 1)).length ≤ N (n * 2 ^ d + 2 ^ d) ∧
      (u.take (n * 2 ^ d + 2 ^ d), 0) ∈ sclStep L M s fr cost ps (d, n) := by
    intro d t n hM hn hz ps h1 h2 h3 h4
    have hp := Nat.two_pow_pos d
    have hle := htake d t n hM hn
    have hdt : M - d = t := by omega
    have htd : M - t = d := by omega
    have e : sclStep L M s fr cost ps (d, n) = ps.map fun a => (a.1 ++ List.replicate (2 ^ d) 1, a.2 + ∑ i ∈ Finset.range (2 ^ d), penalty (nodeSoft M s (a.1.getD · 1) (M - d) n i) 1) := by
      unfold sclStep
      rw [if_pos (by have := hz 0 hp; simpa using this)]
    rw [e]
    have hge : ∀ a : Path, (0 : Int) ≤ ∑ i ∈ Finset.range (2 ^ d), penalty (nodeSoft M s (a.1.getD · 1) (M - d) n i) 1 := fun a => Finset.sum_nonneg fun _ _ => penalty_nonneg _ _
    refine ⟨fun a ha => ?_, ?_, ?_⟩
    · obtain ⟨a', ha', rfl⟩ := List.mem_map.1 ha
      obtain ⟨q1, q2, q3⟩ := h1 a' ha'
      have q4 := hge a'
      refine ⟨by simp [q1], by dsimp only; omega, fun hlt => ?_⟩
      dsimp only at hlt
      have q5 : ∑ i ∈ Finset.range (2 ^ d), penalty (nodeSoft M s (a'.1.getD · 1) (M - d) n i) 1 = 0 := by omega
      rw [Finset.sum_eq_zero_iff_of_nonneg fun _ _ => penalty_nonneg _ _] at q5
      have := fits_block hs (q3 (by omega)) (t := t) (n := n) (by omega) hn (by rw [htd]; exact q1) fun i hi => by
        rw [htd] at hi
        rw [← hdt]
        exact q5 i (Finset.mem_range.2 hi)
      rwa [htd] at this
    · rw [List.filter_map, List.length_map]
      refine le_trans (List.Sublist.length_le ?_) (h2.trans (hmono _ _ (by omega)))
      refine List.monotone_filter_right _ fun a ha => ?_
      simp only [Function.comp, decide_eq_true_eq] at ha ⊢
      have := hge a
      omega
    · refine List.mem_map.2 ⟨_, h3, ?_⟩
      dsimp only
      rw [Finset.sum_congr rfl fun i _ => by rw [hsoft d t n hM hn i], h4, add_zero]
      congr 1
      refine ext_getD 1 (by simp; omega) fun i hi => ?_
      have hi' : i < n * 2 ^ d + 2 ^ d := by simp at hi; omega
      rw [getD_take_lt hi']
      by_cases hlt : i < n * 2 ^ d
      · rw [← getElem_eq_getD hi, List.getElem_append_left (by simp; omega), getElem_eq_getD _ 1, getD_take_lt hlt]
      · rw [← getElem_eq_getD hi, List.getElem_append_right (by simp; omega), List.getElem_replicate]
        have := hz (i - n * 2 ^ d) (by omega)
        rw [show n * 2 ^ d + (i - n * 2 ^ d) = i by omega] at this
        exact (hf i (by omega) this).symm
  intro d
  induction d with
  | zero =>
    intro t n hM hn ps h1 h2 h3 h4
    have hle := htake 0 t n hM hn
    rw [steps, List.foldl_cons, List.foldl_nil]
    by_cases hz : fr n
    · have := frozen 0 t n hM hn (fun i hi => by
        rw [pow_zero, Nat.mul_one]; have : i = 0 := by simpa using hi
        rw [this]; exact hz) ps h1 h2 h3
      rw [pathMetric] at h4
      have hu1 : u.getD (n * 2 ^ 0 + 0) 1 = 1 := hf _ (by simpa using hle) (by simpa using hz)
      rw [hu1] at h4
      exact this (by simpa only [pow_zero, Finset.sum_range_one] using h4)
    · rw [pathMetric] at h4
      simp only [pow_zero, Nat.mul_one, Nat.add_zero] at *
      have hso := hsoft 0 t n hM hn 0
      rw [pow_zero, Nat.mul_one] at hso
      have e1 : sclStep L M s fr cost ps (0, n) = best L (ps.flatMap fun a => [(a.1 ++ [1], cost a.1 a.2 (nodeSoft M s (a.1.getD · 1) M n 0) 1), (a.1 ++ [-1], cost a.1 a.2 (nodeSoft M s (a.1.getD · 1) M n 0) (-1))]) := by
        unfold sclStep
        rw [if_neg (by simpa using hz)]
        rfl
      have hcount : ((ps.flatMap fun a => [(a.1 ++ [1], cost a.1 a.2 (nodeSoft M s (a.1.getD · 1) M n 0) 1), (a.1 ++ [-1], cost a.1 a.2 (nodeSoft M s (a.1.getD · 1) M n 0) (-1))]).filter
          fun a => decide (a.2 < 1)).length ≤ N (n + 1) := by
        have hB : ∀ (a : Path) (b : Int), 1 ≤ a.2 → 1 ≤ cost a.1 a.2 (nodeSoft M s (a.1.getD · 1) M n 0) b := fun a b h => by
          by_contra hlt
          have := ((hc1 a.1 a.2 (nodeSoft M s (a.1.getD · 1) M n 0) b (by omega)).2 (by omega)).1
          omega
        by_cases hboth : 2 * N n ≤ N (n + 1)
        · refine (flatMap_count 1 (fun a b => cost a.1 a.2 (nodeSoft M s (a.1.getD · 1) M n 0) b) 2 hB ps fun a _ _ => ⟨by omega, fun _ _ => le_rfl⟩).trans ?_
          omega
        · refine (flatMap_count 1 (fun a b => cost a.1 a.2 (nodeSoft M s (a.1.getD · 1) M n 0) b) 1 hB ps fun a ha hlt => ⟨le_rfl, fun q1 q2 => ?_⟩).trans ?_
          · obtain ⟨hl, h0, hfit⟩ := h1 a ha
            have := (fits_leaf hs (hfit hlt) (by omega)).2
            rw [hl] at this
            have n1 := (hc1 a.1 a.2 (nodeSoft M s (a.1.getD · 1) M n 0) 1 h0).2 q1
            have n2 := (hc1 a.1 a.2 (nodeSoft M s (a.1.getD · 1) M n 0) (-1) h0).2 q2
            have := hN a.1 a.2 (nodeSoft M s (a.1.getD · 1) M n 0) (by omega) (by rw [hl]; exact hz) (by rw [hl]; exact this n1.2 n2.2) q1 q2
            rw [hl] at this
            exact absurd this hboth
          · have := hN0 n
            omega
      rw [e1]
      refine ⟨fun a ha => ?_, (best_count _ _).trans hcount, ?_⟩
      · obtain ⟨a', ha', h⟩ := List.mem_flatMap.1 (mem_of_best ha)
        obtain ⟨q1, q2, q3⟩ := h1 a' ha'
        have hstep : ∀ b, Sym b → a = (a'.1 ++ [b], cost a'.1 a'.2 (nodeSoft M s (a'.1.getD · 1) M n 0) b) → a.1.length = n + 1 ∧ 0 ≤ a.2 ∧ (a.2 < 1 → Fits M e x a.1) := by
          rintro b hb rfl
          have hcc := hc1 a'.1 a'.2 (nodeSoft M s (a'.1.getD · 1) M n 0) b q2
          refine ⟨by simp [q1], hcc.1, fun hlt => ?_⟩
          dsimp only at hlt
          have hlt := hcc.2 hlt
          have q4 := (fits_leaf hs (q3 hlt.1) (by omega)).1 b hb
          rw [q1] at q4
          exact q4 hlt.2
        simp only [List.mem_cons, List.not_mem_nil, or_false] at h
        rcases h with h | h
        · exact hstep 1 (Or.inl rfl) h
        · exact hstep (-1) (Or.inr rfl) h
      · refine mem_best ?_ (B := 1) (by dsimp only; omega) (hcount.trans ((hmono _ _ hle).trans hL))
        refine List.mem_flatMap.2 ⟨_, h3, ?_⟩
        have hun : u.take (n + 1) = u.take n ++ [u.getD n 1] := by
          rw [List.take_add_one, List.getElem?_eq_getElem (by omega), ← getElem_eq_getD]; rfl
        rw [hun]
        dsimp only
        rw [show (M : Nat) - 0 = M from rfl] at hso
        rw [hso]
        have hsy : Sym (u.getD n 1) := getD_Sym (fun x hx => hus x hx) n
        rcases hsy with h | h
        · have hq := hcu n (nodeSoft M s (u.getD · 1) t n 0) (by omega) hz
          rw [h] at h4 hq ⊢; rw [hq, h4]; simp
        · have hq := hcu n (nodeSoft M s (u.getD · 1) t n 0) (by omega) hz
          rw [h] at h4 hq ⊢; rw [hq, h4]; simp
  | succ d ih =>
    intro t n hM hn ps h1 h2 h3 h4
    have p1 : n * 2 ^ (d + 1) = 2 * n * 2 ^ d := by rw [pow_succ]; ring
    have p2 : n * 2 ^ (d + 1) + 2 ^ d = (2 * n + 1) * 2 ^ d := by rw [pow_succ]; ring
    have p3 : n * 2 ^ (d + 1) + 2 ^ (d + 1) = (2 * n + 1) * 2 ^ d + 2 ^ d := by rw [pow_succ]; ring
    have hn1 : 2 * n < 2 ^ (t + 1) := by rw [pow_succ]; omega
    have hn2 : 2 * n + 1 < 2 ^ (t + 1) := by rw [pow_succ]; omega
    have ht : M - (t + 1) = d := by omega
    rw [steps]
    by_cases hz : d + 1 ≤ 5 ∧ ∀ i, i < 2 ^ (d + 1) → fr (n * 2 ^ (d + 1) + i)
    · rw [if_pos hz, List.foldl_cons, List.foldl_nil]
      rw [pathMetric, if_pos hz] at h4
      exact frozen (d + 1) t n hM hn hz.2 ps h1 h2 h3 h4
    · rw [if_neg hz, List.foldl_append]
      rw [pathMetric, if_neg hz] at h4
      have eF : (fun i => softF (nodeSoft M s (u.getD · 1) t n i) (nodeSoft M s (u.getD · 1) t n (2 ^ d + i))) = nodeSoft M s (u.getD · 1) (t + 1) (2 * n) := by
        funext i
        rw [nodeSoft]
        simp only [ht]
        rw [if_pos (by omega), show 2 * n / 2 = n by omega]
      have eG : (fun i => softG (polar d (fun i => u.getD (n * 2 ^ (d + 1) + i) 1) i) (nodeSoft M s (u.getD · 1) t n i) (nodeSoft M s (u.getD · 1) t n (2 ^ d + i))) =
          nodeSoft M s (u.getD · 1) (t + 1) (2 * n + 1) := by
        funext i
        rw [nodeSoft]
        simp only [ht]
        rw [if_neg (by omega), show (2 * n + 1) / 2 = n by omega, show 2 * n + 1 - 1 = 2 * n by omega, p1]
      have e1 : (fun i => fr (n * 2 ^ (d + 1) + (2 ^ d + i))) = fun i => fr ((2 * n + 1) * 2 ^ d + i) := by
        funext i; rw [← Nat.add_assoc, p2]
      have e2 : (fun i => u.getD (n * 2 ^ (d + 1) + (2 ^ d + i)) 1) = fun i => u.getD ((2 * n + 1) * 2 ^ d + i) 1 := by
        funext i; rw [← Nat.add_assoc, p2]
      rw [eF, eG, e1, e2] at h4
      rw [p3]
      rw [p1] at h1 h2 h3 h4
      have r0 := pathMetric_nonneg d (fun i => fr ((2 * n + 1) * 2 ^ d + i)) (nodeSoft M s (u.getD · 1) (t + 1) (2 * n + 1)) (fun i => u.getD ((2 * n + 1) * 2 ^ d + i) 1)
      have l0 := pathMetric_nonneg d (fun i => fr (2 * n * 2 ^ d + i)) (nodeSoft M s (u.getD · 1) (t + 1) (2 * n)) (fun i => u.getD (2 * n * 2 ^ d + i) 1)
      obtain ⟨l1, l2, l3⟩ := ih (t + 1) (2 * n) (by omega) hn1 ps h1 h2 h3 (by omega)
      have p4 : 2 * n * 2 ^ d + 2 ^ d = (2 * n + 1) * 2 ^ d := by ring
      rw [p4] at l1 l2 l3
      exact ih (t + 1) (2 * n + 1) (by omega) hn2 _ l1 l2 l3 (by omega)
end

end Verif.Polar
