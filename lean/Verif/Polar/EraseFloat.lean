import Verif.Polar.EraseList
import Verif.Polar.PropsFloatMl
/- The list decoders on erased floating point soft values: how many paths cost nothing. -/
namespace Verif.Polar
variable {L : Nat} {F : Rounding}

/-- A number of the format that is 0 if erased and otherwise has the sign of the symbol. -/
def RelQ (F : Rounding) (e : Bool) (v : ℚ) (x : Int) : Prop := F.rep v ∧ qsign v = if e then 0 else x

theorem qsign_zero {v : ℚ} (h : qsign v = 0) : v = 0 := by
  rcases qsign_cases v with ⟨_, e⟩ | ⟨a, _⟩ | ⟨_, e⟩
  · omega
  · exact a
  · omega

theorem rep_sym_mul {x : Int} (hx : Sym x) {a : ℚ} (ha : F.rep a) : F.rep ((x : ℚ) * a) := by
  rcases hx with rfl | rfl
  · simpa using ha
  · simpa using F.neg _ ha

theorem qsign_sym_mul {x : Int} (hx : Sym x) (a : ℚ) : qsign ((x : ℚ) * a) = x * qsign a := by
  rcases hx with rfl | rfl
  · simp
  · rw [Int.cast_neg, Int.cast_one, neg_one_mul, qsign_negate, neg_one_mul]

theorem minF_relQ {a b : ℚ} {x y : Int} {e f : Bool} (hy : Sym y) (ha : RelQ F e a (x * y)) (hb : RelQ F f b y) : RelQ F (e || f) ((minSum F.rnd).F a b) x := by
  refine ⟨?_, ?_⟩
  · obtain ⟨c, hc, h⟩ := minF_cases a b
    have : F.rep c := by
      rcases hc with rfl | rfl | rfl <;> first | exact ha.1 | exact hb.1 | exact F.zero
    show F.rep (qsign a * qsign b * min |a| |b|)
    rcases h with h | h <;> rw [h]
    · exact this
    · exact F.neg _ this
  · show qsign (qsign a * qsign b * min |a| |b|) = _
    rw [minF_sign, ha.2, hb.2]
    cases e <;> cases f <;> simp
    rw [mul_assoc, hy.sq, mul_one]

theorem maddF_relQ {a b : ℚ} {x y : Int} {e f : Bool} (hx : Sym x) (hy : Sym y) (ha : RelQ F e a (x * y)) (hb : RelQ F f b y) : RelQ F (e && f) ((minSum F.rnd).G x a b) y := by
  have hr := rep_sym_mul hx ha.1
  have hq := qsign_sym_mul hx a
  refine ⟨F.out _, ?_⟩
  show qsign (F.rnd (x * a + b)) = _
  rw [ha.2] at hq
  generalize (x : ℚ) * a = c at *
  cases e with
  | true =>
    simp only [if_true, mul_zero] at hq
    rw [qsign_zero hq, zero_add, F.exact b hb.1, hb.2]
    simp
  | false =>
    simp only [Bool.false_eq_true, if_false, ← mul_assoc, hx.sq, one_mul] at hq
    cases f with
    | true =>
      have := hb.2
      simp only [if_true] at this
      rw [qsign_zero this, add_zero, F.exact c hr, hq]
      simp
    | false =>
      have hb' := hb.2
      simp only [Bool.false_eq_true, if_false] at hb'
      simp only [Bool.and_self, Bool.false_eq_true, if_false]
      have h1 := qsign_mul hy hq
      have h2 := qsign_mul hy hb'
      rcases hy with rfl | rfl
      · push_cast at h1 h2
        exact qsign_pos (Fl.rnd_pos hr (by linarith) (by linarith))
      · push_cast at h1 h2
        exact qsign_neg (Fl.rnd_neg hr (by linarith) (by linarith))

/-- With the decisions of an input that fits the received symbols, the soft values of a node are erased or have the signs of the node's symbols. -/
theorem node_relQ {M : Nat} {s : Nat → ℚ} {u : Nat → Int} {e : Nat → Bool} (hu : ∀ i, Sym (u i)) (hs : ∀ j, j < 2 ^ M → RelQ F (e j) (s j) (polar M u j)) :
    ∀ (t n : Nat), t ≤ M → n < 2 ^ t → ∀ i, i < 2 ^ (M - t) → RelQ F (eAt M e t n i) (softAt (minSum F.rnd) M s u t n i) (polar (M - t) (fun j => u (n * 2 ^ (M - t) + j)) i) := by
  intro t
  induction t with
  | zero =>
    intro n _ hn i hi
    obtain rfl : n = 0 := by simpa using hn
    simp only [Nat.zero_mul, Nat.zero_add, Nat.sub_zero] at hi ⊢
    exact hs i hi
  | succ t ih =>
    intro n ht hn i hi
    have hh := half ht
    have hn2 : n / 2 < 2 ^ t := by rw [pow_succ] at hn; omega
    have a := ih (n / 2) (by omega) hn2 i (by omega)
    have b := ih (n / 2) (by omega) hn2 (2 ^ (M - (t + 1)) + i) (by omega)
    have hd : M - t = M - (t + 1) + 1 := by omega
    have ea : polar (M - t) (fun j => u (n / 2 * 2 ^ (M - t) + j)) i =
        polar (M - (t + 1)) (fun j => u (n / 2 * 2 ^ (M - t) + j)) i * polar (M - (t + 1)) (fun j => u (n / 2 * 2 ^ (M - t) + (2 ^ (M - (t + 1)) + j))) i := by
      rw [hd]; exact polar_low hi
    have eb : polar (M - t) (fun j => u (n / 2 * 2 ^ (M - t) + j)) (2 ^ (M - (t + 1)) + i) =
        polar (M - (t + 1)) (fun j => u (n / 2 * 2 ^ (M - t) + (2 ^ (M - (t + 1)) + j))) i := by
      rw [hd]; exact polar_high hi
    rw [ea] at a
    rw [eb] at b
    have s1 : Sym (polar (M - (t + 1)) (fun j => u (n / 2 * 2 ^ (M - t) + j)) i) := polar_sym (fun _ => hu _) hi
    have s2 : Sym (polar (M - (t + 1)) (fun j => u (n / 2 * 2 ^ (M - t) + (2 ^ (M - (t + 1)) + j))) i) := polar_sym (fun _ => hu _) hi
    have hq : n / 2 * 2 ^ (M - t) = n / 2 * 2 * 2 ^ (M - (t + 1)) := by rw [hh]; ring
    simp only [eAt, softAt]
    by_cases hp : n % 2 = 0
    · rw [if_pos hp, if_pos hp]
      have : n / 2 * 2 = n := by omega
      rw [hq, this] at a b s1 s2
      exact minF_relQ s2 a b
    · rw [if_neg hp, if_neg hp]
      have e1 : n / 2 * 2 = n - 1 := by omega
      have e2 : n * 2 ^ (M - (t + 1)) = (n - 1) * 2 ^ (M - (t + 1)) + 2 ^ (M - (t + 1)) := by
        obtain ⟨k, rfl⟩ : ∃ k, n = k + 1 := ⟨n - 1, by omega⟩
        rw [Nat.add_sub_cancel]; ring
      rw [hq, e1] at a b s1 s2
      simp only [← Nat.add_assoc, ← e2] at a b s2
      exact maddF_relQ s1 s2 a b

theorem penaltyQ_zero {v : ℚ} {b x : Int} (hb : Sym b) (hx : Sym x) (h : RelQ F false v x) : penaltyQ v b = 0 ↔ b = x := by
  have h := qsign_mul hx h.2
  unfold penaltyQ
  rw [max_eq_left_iff]
  rcases hb with rfl | rfl <;> rcases hx with rfl | rfl <;> push_cast at h ⊢ <;> norm_num <;> linarith

theorem penaltyQ_erased {v : ℚ} {b x : Int} (h : RelQ F true v x) : penaltyQ v b = 0 := by
  rw [qsign_zero h.2]; simp [penaltyQ]

theorem penaltyQ_rep {v : ℚ} {b : Int} (hb : Sym b) (h : F.rep v) : F.rep (penaltyQ v b) := by
  unfold penaltyQ
  rcases max_choice (0 : ℚ) (-(b * v)) with e | e <;> rw [e]
  · exact F.zero
  · exact F.neg _ (rep_sym_mul hb h)

theorem mok_nonneg {μ : WithTop ℚ} (h : MOk F μ) : 0 ≤ μ := by
  cases μ with
  | top => exact le_top
  | coe q => exact_mod_cast (h q rfl).1

theorem fadd_eq_zero {μ : WithTop ℚ} {p : ℚ} (h : MOk F μ) (hp : 0 ≤ p) (hr : μ = 0 → F.rep p) (hz : fadd F μ p = 0) : μ = 0 ∧ p = 0 := by
  have h0 : μ = 0 := le_antisymm (hz ▸ (fadd_ok h hp).2) (mok_nonneg h)
  refine ⟨h0, ?_⟩
  by_contra hne
  subst h0
  exact absurd hz (fadd_pos (lt_of_le_of_ne hp (Ne.symm hne)) (hr rfl)).ne'

theorem foldl_zero : ∀ (l : List ℚ) (μ : WithTop ℚ), MOk F μ → (μ = 0 → ∀ s ∈ l, F.rep s) → l.foldl (fun μ s => fadd F μ (penaltyQ s 1)) μ = 0 → μ = 0 ∧ ∀ s ∈ l, penaltyQ s 1 = 0 := by
  intro l
  induction l with
  | nil => intro μ _ _ h; exact ⟨h, by simp⟩
  | cons s l ih =>
    intro μ hμ hr h
    have h0 : μ = 0 := le_antisymm (h ▸ (foldl_pay (s :: l) μ hμ).2) (mok_nonneg hμ)
    rw [List.foldl_cons] at h
    obtain ⟨a, b⟩ := ih _ (fadd_ok hμ (penaltyQ_nonneg s 1)).1 (fun _ x hx => hr h0 x (List.mem_cons_of_mem _ hx)) h
    obtain ⟨c, d⟩ := fadd_eq_zero hμ (penaltyQ_nonneg s 1) (fun h0 => penaltyQ_rep (Or.inl rfl) (hr h0 s List.mem_cons_self)) a
    exact ⟨c, fun x hx => by
      rcases List.mem_cons.1 hx with rfl | hx
      · exact d
      · exact b x hx⟩

theorem foldl_nothing : ∀ (l : List ℚ), (∀ s ∈ l, penaltyQ s 1 = 0) → l.foldl (fun μ s => fadd F μ (penaltyQ s 1)) 0 = 0 := by
  intro l
  induction l with
  | nil => intro _; rfl
  | cons s l ih =>
    intro h
    rw [List.foldl_cons, h s List.mem_cons_self, fadd_zero (mok_zero F)]
    exact ih fun x hx => h x (List.mem_cons_of_mem _ hx)

section
variable {P : Type} [LinearOrder P]

theorem mem_bestOf_le {n : Nat} {l : List (List Int × P)} {x : List Int × P} {B : P} (hx : x ∈ l) (hB : x.2 ≤ B) (hn : (l.filter fun a => decide (a.2 ≤ B)).length ≤ n) : x ∈ bestOf n l := by
  unfold bestOf
  set m := l.mergeSort fun a b => decide (a.2 ≤ b.2) with hm
  have hp : m.Perm l := List.mergeSort_perm _ _
  have hs : m.Pairwise fun a b => decide (a.2 ≤ b.2) = true := List.pairwise_mergeSort (fun a b c h1 h2 => by simp at *; exact h1.trans h2) (fun a b => by simp; exact le_total _ _) l
  have hxm : x ∈ m := hp.mem_iff.2 hx
  rw [← List.take_append_drop n m] at hxm
  rcases List.mem_append.1 hxm with h | h
  · exact h
  · exfalso
    have hlen : n < m.length := by
      by_contra hc
      rw [List.drop_of_length_le (by omega)] at h
      simp at h
    have hle : ∀ a ∈ m.take n, a.2 ≤ B := by
      rw [← List.take_append_drop n m, List.pairwise_append] at hs
      intro a ha
      have := hs.2.2 a ha x h
      simp only [decide_eq_true_eq] at this
      exact this.trans hB
    have hc : (m.filter fun a => decide (a.2 ≤ B)).length = (l.filter fun a => decide (a.2 ≤ B)).length := (hp.filter _).length_eq
    rw [← List.take_append_drop n m, List.filter_append, List.length_append, List.filter_eq_self.2 (by simpa using hle), List.length_take] at hc
    have : 1 ≤ ((m.drop n).filter fun a => decide (a.2 ≤ B)).length := List.length_pos_of_mem (List.mem_filter.2 ⟨h, by simpa using hB⟩)
    omega

theorem bestOf_count_le {n : Nat} (l : List (List Int × P)) (B : P) : ((bestOf n l).filter fun a => decide (a.2 ≤ B)).length ≤ (l.filter fun a => decide (a.2 ≤ B)).length := by
  unfold bestOf
  have hp := (List.mergeSort_perm l fun a b => decide (a.2 ≤ b.2)).filter fun a => decide (a.2 ≤ B)
  rw [← hp.length_eq]
  exact ((List.take_sublist _ _).filter _).length_le

theorem forks_count_le {V : Type} (B : P) (cost : List Int → P → V → Int → P) (sf : List Int → V) (K : Nat) : ∀ l : List (List Int × P),
    (∀ a ∈ l, B < a.2 → B < cost a.1 a.2 (sf a.1) 1 ∧ B < cost a.1 a.2 (sf a.1) (-1)) →
    (∀ a ∈ l, a.2 ≤ B → 1 ≤ K ∧ (cost a.1 a.2 (sf a.1) 1 ≤ B → cost a.1 a.2 (sf a.1) (-1) ≤ B → 2 ≤ K)) →
    ((forks cost sf l).filter fun a => decide (a.2 ≤ B)).length ≤ K * (l.filter fun a => decide (a.2 ≤ B)).length := by
  intro l
  unfold forks
  induction l with
  | nil => intro _ _; simp
  | cons a l ih =>
    intro hB h
    have ih := ih (fun x hx => hB x (by simp [hx])) fun x hx => h x (by simp [hx])
    rw [List.flatMap_cons, List.filter_append, List.length_append]
    by_cases ha : a.2 ≤ B
    · obtain ⟨h1, h2⟩ := h a (by simp) ha
      rw [List.filter_cons_of_pos (a := a) (by simpa using ha), List.length_cons, Nat.mul_add, Nat.mul_one]
      have : (List.filter (fun a => decide (a.2 ≤ B)) [(a.1 ++ [1], cost a.1 a.2 (sf a.1) 1), (a.1 ++ [-1], cost a.1 a.2 (sf a.1) (-1))]).length ≤ K := by
        by_cases q1 : cost a.1 a.2 (sf a.1) 1 ≤ B <;> by_cases q2 : cost a.1 a.2 (sf a.1) (-1) ≤ B <;> simp [q1, q2] <;> [exact h2 q1 q2; exact h1; exact h1]
      omega
    · rw [List.filter_cons_of_neg (a := a) (by simpa using ha)]
      obtain ⟨q1, q2⟩ := hB a (by simp) (not_le.1 ha)
      have : (List.filter (fun a => decide (a.2 ≤ B)) [(a.1 ++ [1], cost a.1 a.2 (sf a.1) 1), (a.1 ++ [-1], cost a.1 a.2 (sf a.1) (-1))]).length = 0 := by
        simp [not_le.2 q1, not_le.2 q2]
      omega

end

section
variable {M : Nat} {s : Nat → ℚ} {x : Nat → Int} {e : Nat → Bool} {fr : Nat → Prop} {Al : List Int → Int → Prop} {cost : List Int → WithTop ℚ → ℚ → Int → WithTop ℚ}

theorem fits_softQ (hs : ∀ j, j < 2 ^ M → RelQ F (e j) (s j) (x j)) {w : List Int} {v : Nat → Int} (h1 : ∀ i, Sym (v i)) (h2 : ∀ i, i < w.length → v i = w.getD i 1)
    (h3 : ∀ j, j < 2 ^ M → e j = false → polar M v j = x j) {t n : Nat} (ht : t ≤ M) (hn : n < 2 ^ t) (hw : w.length = n * 2 ^ (M - t)) {i : Nat} (hi : i < 2 ^ (M - t)) :
    RelQ F (eAt M e t n i) (softAt (minSum F.rnd) M s (w.getD · 1) t n i) (polar (M - t) (fun j => v (n * 2 ^ (M - t) + j)) i) := by
  rw [softAt_congr _ M s (v := v) t n ht (fun j hj => (h2 j (by omega)).symm) i]
  refine node_relQ h1 (fun j hj => ?_) t n ht hn i hi
  have := hs j hj
  cases he : e j with
  | true => rw [he] at this; exact ⟨this.1, this.2⟩
  | false => rw [h3 j hj he, ← he]; exact this

/-- A path of the list after `p` positions. -/
structure Free (F : Rounding) (M : Nat) (e : Nat → Bool) (x : Nat → Int) (fr : Nat → Prop) (Al : List Int → Int → Prop) (p : Nat) (a : List Int × WithTop ℚ) : Prop where
  len : a.1.length = p
  sym : ∀ b ∈ a.1, Sym b
  ones : ∀ i, i < p → fr i → a.1.getD i 1 = 1
  met : MOk F a.2
  fits : a.2 = 0 → Fits M e x a.1
  allowed : a.2 = 0 → ∀ i, i < p → ¬ fr i → Al (a.1.take i) (a.1.getD i 1)

theorem free_frozen (hs : ∀ j, j < 2 ^ M → RelQ F (e j) (s j) (x j)) {d n : Nat} (hd : d ≤ M) (hn : n < 2 ^ (M - d)) (hf : ∀ i, i < 2 ^ d → fr (n * 2 ^ d + i)) {a : List Int × WithTop ℚ}
    (h : Free F M e x fr Al (n * 2 ^ d) a) :
    Free F M e x fr Al ((n + 1) * 2 ^ d) (a.1 ++ List.replicate (2 ^ d) 1,
        ((List.range (2 ^ d)).map (softAt (minSum F.rnd) M s (a.1.getD · 1) (M - d) n)).foldl (fun μ s => fadd F μ (penaltyQ s 1)) a.2) ∧
      a.2 ≤ ((List.range (2 ^ d)).map (softAt (minSum F.rnd) M s (a.1.getD · 1) (M - d) n)).foldl (fun μ s => fadd F μ (penaltyQ s 1)) a.2 := by
  have hp := foldl_pay ((List.range (2 ^ d)).map (softAt (minSum F.rnd) M s (a.1.getD · 1) (M - d) n)) a.2 h.met
  have hdd : M - (M - d) = d := by omega
  have h0 : ((List.range (2 ^ d)).map (softAt (minSum F.rnd) M s (a.1.getD · 1) (M - d) n)).foldl (fun μ s => fadd F μ (penaltyQ s 1)) a.2 = 0 → a.2 = 0 :=
    fun hz => le_antisymm (hz ▸ hp.2) (mok_nonneg h.met)
  refine ⟨⟨by simp [h.len]; ring, ?_, ?_, hp.1, ?_, ?_⟩, hp.2⟩
  · intro b hb
    rcases List.mem_append.1 hb with hb | hb
    · exact h.sym b hb
    · exact Or.inl (List.eq_of_mem_replicate hb)
  · intro i _ hfi
    have := congrFun (getD_ones a.1 (2 ^ d)) i
    dsimp only at this ⊢
    rw [this]
    by_cases hlt : i < n * 2 ^ d
    · exact h.ones i hlt hfi
    · rw [List.getD_eq_default _ _ (by rw [h.len]; omega)]
  · intro hz
    dsimp only at hz ⊢
    obtain ⟨v, h1, h2, h3⟩ := h.fits (h0 hz)
    have hsoft : ∀ i, i < 2 ^ d → RelQ F (eAt M e (M - d) n i) (softAt (minSum F.rnd) M s (a.1.getD · 1) (M - d) n i) (polar d (fun j => v (n * 2 ^ d + j)) i) := by
      intro i hi
      have := fits_softQ hs h1 h2 h3 (t := M - d) (n := n) (by omega) hn (by rw [hdd]; exact h.len) (i := i) (by rw [hdd]; exact hi)
      rwa [hdd] at this
    obtain ⟨-, hall⟩ := foldl_zero _ a.2 h.met (fun _ y hy => by
      obtain ⟨i, hi, rfl⟩ := List.mem_map.1 hy
      exact (hsoft i (List.mem_range.1 hi)).1) hz
    have := fits_block_of (x := x) h1 h2 h3 (t := M - d) (n := n) (by omega) hn (by rw [hdd]; exact h.len) fun i hi he => by
      rw [hdd] at hi ⊢
      have q := hsoft i hi
      rw [he] at q
      exact ((penaltyQ_zero (Or.inl rfl) (polar_sym (fun _ => h1 _) hi) q).1 (hall _ (List.mem_map.2 ⟨i, List.mem_range.2 hi, rfl⟩))).symm
    rwa [hdd] at this
  · intro hz i hi hfi
    dsimp only at hz ⊢
    have hlt : i < n * 2 ^ d := by
      by_contra hge
      refine hfi ?_
      have := hf (i - n * 2 ^ d) (by rw [Nat.add_mul] at hi; omega)
      rwa [show n * 2 ^ d + (i - n * 2 ^ d) = i by omega] at this
    have := h.allowed (h0 hz) i hlt hfi
    have hl := h.len
    rw [List.take_append_of_le_length (by omega), List.getD_append _ _ _ _ (by omega)]
    exact this

theorem free_fork (h6 : F.rep 1000000) (hh : 1000000 < F.huge) (hs : ∀ j, j < 2 ^ M → RelQ F (e j) (s j) (x j)) (hc : Charges F Al cost) {n : Nat} (hn : n < 2 ^ M) {a : List Int × WithTop ℚ} (hfr : ¬ fr n)
    (h : Free F M e x fr Al n a) {b : Int} (hb : Sym b) :
    Free F M e x fr Al (n + 1) (a.1 ++ [b], cost a.1 a.2 (softAt (minSum F.rnd) M s (a.1.getD · 1) M n 0) b) ∧
      (cost a.1 a.2 (softAt (minSum F.rnd) M s (a.1.getD · 1) M n 0) b = 0 →
        a.2 = 0 ∧ penaltyQ (softAt (minSum F.rnd) M s (a.1.getD · 1) M n 0) b = 0 ∧ Al a.1 b) := by
  set σ := softAt (minSum F.rnd) M s (a.1.getD · 1) M n 0 with hσ
  have hl := h.len
  have hrel : ∀ v : Nat → Int, (∀ i, Sym (v i)) → (∀ i, i < a.1.length → v i = a.1.getD i 1) → (∀ j, j < 2 ^ M → e j = false → polar M v j = x j) → RelQ F (eAt M e M n 0) σ (v n) := by
    intro v h1 h2 h3
    have := fits_softQ hs h1 h2 h3 (t := M) (n := n) le_rfl hn (by simpa using hl) (i := 0) (by simp)
    rwa [polar_leaf] at this
  have key : cost a.1 a.2 σ b = 0 → a.2 = 0 ∧ penaltyQ σ b = 0 ∧ Al a.1 b := by
    intro hz
    by_cases ha : Al a.1 b
    · rw [(hc a.1 a.2 σ b).1 ha] at hz
      obtain ⟨q1, q2⟩ := fadd_eq_zero h.met (penaltyQ_nonneg _ _) (fun h0 => by
        obtain ⟨v, h1, h2, h3⟩ := h.fits h0
        exact penaltyQ_rep hb (hrel v h1 h2 h3).1) hz
      exact ⟨q1, q2, ha⟩
    · rw [(hc a.1 a.2 σ b).2 ha] at hz
      exact absurd hz million_pos.ne'
  refine ⟨⟨by simp [hl], ?_, ?_, ?_, ?_, ?_⟩, key⟩
  · intro c hc'
    rcases List.mem_append.1 hc' with h' | h'
    · exact h.sym c h'
    · rw [List.mem_singleton.1 h']; exact hb
  · intro i hi hfi
    rcases Nat.lt_succ_iff_lt_or_eq.1 hi with hi | rfl
    · rw [getD_snoc_lt (by omega)]; exact h.ones i hi hfi
    · exact absurd hfi hfr
  · dsimp only
    by_cases ha : Al a.1 b
    · rw [(hc a.1 a.2 σ b).1 ha]; exact (fadd_ok h.met (penaltyQ_nonneg _ _)).1
    · rw [(hc a.1 a.2 σ b).2 ha]; exact mok_phantom h6 hh
  · intro hz
    obtain ⟨q1, q2, -⟩ := key hz
    obtain ⟨v, h1, h2, h3⟩ := h.fits q1
    refine fits_leaf_of h1 h2 h3 (by omega) hb fun he => ?_
    have := hrel v h1 h2 h3
    rw [hl] at he ⊢
    rw [he] at this
    exact (penaltyQ_zero hb (h1 n) this).1 q2
  · intro hz i hi hfi
    obtain ⟨q1, -, q3⟩ := key hz
    dsimp only
    rcases Nat.lt_succ_iff_lt_or_eq.1 hi with hi | rfl
    · rw [List.take_append_of_le_length (by omega), getD_snoc_lt (by omega)]
      exact h.allowed q1 i hi hfi
    · rw [List.take_left' hl, ← hl, getD_snoc]
      exact q3

/-- Every path of the list, and: a path that costs nothing stays in the list if there is room for two alternatives for every erased decision. -/
theorem zero_listF (h6 : F.rep 1000000) (hh : 1000000 < F.huge) (hs : ∀ j, j < 2 ^ M → RelQ F (e j) (s j) (x j)) (hc : Charges F Al cost) (N : Nat → Nat) (hN1 : 1 ≤ N 0)
    (hN0 : ∀ p, N p ≤ N (p + 1)) (hN : ∀ w : List Int, (∀ b ∈ w, Sym b) → w.length < 2 ^ M → ¬ fr w.length → eAt M e M w.length 0 = true → Al w 1 → Al w (-1) → 2 * N w.length ≤ N (w.length + 1))
    (hL : N (2 ^ M) ≤ L) {v0 : Nat → Int} (hv0 : ∀ i, Sym (v0 i)) (hx0 : ∀ j, j < 2 ^ M → e j = false → polar M v0 j = x j) :
    (∀ a ∈ sclF F L M s fr cost, Free F M e x fr Al (2 ^ M) a) ∧
      ∀ v : Nat → Int, (∀ i, Sym (v i)) → (∀ i, i < 2 ^ M → fr i → v i = 1) → (∀ i, i < 2 ^ M → ¬ fr i → Al (pre v i) (v i)) → (∀ j, j < 2 ^ M → e j = false → polar M v j = x j) →
        (pre v (2 ^ M), 0) ∈ sclF F L M s fr cost := by
  classical
  have hmono : ∀ p q, p ≤ q → N p ≤ N q := fun p q h => monotone_nat_of_le_succ hN0 h
  have := steps_induct (fr := fr) (S := sclStepOf (minSum F.rnd) L M s fr (fun μ s => fadd F μ (penaltyQ s 1)) cost) (M := M)
    (fun p ps => (∀ a ∈ ps, Free F M e x fr Al p a) ∧ (ps.filter fun a => decide (a.2 ≤ 0)).length ≤ N p ∧
      ∀ v : Nat → Int, (∀ i, Sym (v i)) → (∀ i, i < 2 ^ M → fr i → v i = 1) → (∀ i, i < 2 ^ M → ¬ fr i → Al (pre v i) (v i)) → (∀ j, j < 2 ^ M → e j = false → polar M v j = x j) →
        (pre v p, 0) ∈ ps) (by
    rintro d n ps hd hn h1 h2 ⟨i1, i2, i3⟩
    have hle := node_le hd hn
    have hdd : M - (M - d) = d := by omega
    unfold sclStepOf
    dsimp only
    by_cases hfr : fr (n * 2 ^ d)
    · rw [if_pos hfr]
      refine ⟨?_, ?_, fun v hv hf hal hx => ?_⟩
      · intro a ha
        obtain ⟨c, hc', rfl⟩ := List.mem_map.1 ha
        exact (free_frozen hs hd hn (h1 hfr) (i1 c hc')).1
      · rw [List.filter_map, List.length_map]
        refine le_trans ?_ (i2.trans (hmono _ _ (Nat.mul_le_mul_right _ (Nat.le_succ n))))
        rw [← List.countP_eq_length_filter, ← List.countP_eq_length_filter]
        refine List.countP_mono_left fun a ha hlt => ?_
        simp only [Function.comp, decide_eq_true_eq] at hlt ⊢
        exact (free_frozen hs hd hn (h1 hfr) (i1 a ha)).2.trans hlt
      · have ep : pre v ((n + 1) * 2 ^ d) = pre v (n * 2 ^ d) ++ List.replicate (2 ^ d) 1 := by
          rw [Nat.add_mul, Nat.one_mul, pre_ones v _ _ fun i hi => hf _ (by rw [Nat.add_mul] at hle; omega) (h1 hfr i hi)]
        refine List.mem_map.2 ⟨_, i3 v hv hf hal hx, Prod.ext ep.symm ?_⟩
        dsimp only
        refine foldl_nothing _ fun y hy => ?_
        obtain ⟨i, hi, rfl⟩ := List.mem_map.1 hy
        have hi := List.mem_range.1 hi
        have hpl : (pre v (n * 2 ^ d)).length = n * 2 ^ d := by simp [pre]
        have q := fits_softQ hs hv (w := pre v (n * 2 ^ d)) (fun i hi => (pre_getD v (by omega)).symm) hx (t := M - d) (n := n) (by omega) hn (by rw [hdd]; exact hpl) (i := i) (by rw [hdd]; exact hi)
        rw [hdd] at q
        cases he : eAt M e (M - d) n i with
        | true => rw [he] at q; exact penaltyQ_erased q
        | false =>
          rw [he] at q
          refine (penaltyQ_zero (Or.inl rfl) (polar_sym (fun _ => hv _) hi) q).2 ?_
          unfold polar
          refine (Finset.prod_eq_one fun k hk => ?_).symm
          simp only [Finset.mem_filter, Finset.mem_range] at hk
          exact hf _ (by rw [Nat.add_mul] at hle; omega) (h1 hfr k hk.1)
    · rw [if_neg hfr]
      have hd0 := h2 hfr
      subst hd0
      simp only [pow_zero, Nat.mul_one] at hfr i1 i2 i3 hle ⊢
      set sf := fun w : List Int => softAt (minSum F.rnd) M s (w.getD · 1) M n 0 with hsf
      have key : ∀ a ∈ ps, ∀ b, Sym b → Free F M e x fr Al (n + 1) (a.1 ++ [b], cost a.1 a.2 (sf a.1) b) ∧ (cost a.1 a.2 (sf a.1) b = 0 → a.2 = 0 ∧ penaltyQ (sf a.1) b = 0 ∧ Al a.1 b) :=
        fun a ha b hb => free_fork h6 hh hs hc (by omega) hfr (i1 a ha) hb
      have hzero : ∀ a ∈ ps, ∀ b, Sym b → cost a.1 a.2 (sf a.1) b ≤ 0 → cost a.1 a.2 (sf a.1) b = 0 := fun a ha b hb h => le_antisymm h (mok_nonneg (key a ha b hb).1.met)
      have hcount : ((forks cost sf ps).filter fun a => decide (a.2 ≤ 0)).length ≤ N (n + 1) := by
        have hup : ∀ a ∈ ps, 0 < a.2 → ∀ b, Sym b → 0 < cost a.1 a.2 (sf a.1) b := by
          intro a ha hge b hb
          by_contra hlt
          have := ((key a ha b hb).2 (hzero a ha b hb (not_lt.1 hlt))).1
          rw [this] at hge
          exact lt_irrefl _ hge
        by_cases hboth : 2 * N n ≤ N (n + 1)
        · refine (forks_count_le 0 cost sf 2 ps (fun a ha h => ⟨hup a ha h _ (Or.inl rfl), hup a ha h _ (Or.inr rfl)⟩) fun a _ _ => ⟨by omega, fun _ _ => le_rfl⟩).trans ?_
          omega
        · refine (forks_count_le 0 cost sf 1 ps (fun a ha h => ⟨hup a ha h _ (Or.inl rfl), hup a ha h _ (Or.inr rfl)⟩) fun a ha _ => ⟨le_rfl, fun q1 q2 => ?_⟩).trans ?_
          · have hf := i1 a ha
            obtain ⟨z1, z2, z3⟩ := (key a ha 1 (Or.inl rfl)).2 (hzero a ha 1 (Or.inl rfl) q1)
            obtain ⟨-, z4, z5⟩ := (key a ha (-1) (Or.inr rfl)).2 (hzero a ha (-1) (Or.inr rfl) q2)
            obtain ⟨v, h1, h2, h3⟩ := hf.fits z1
            have hrel := fits_softQ hs h1 h2 h3 (t := M) (n := n) le_rfl (by omega) (by simpa using hf.len) (i := 0) (by simp)
            rw [polar_leaf] at hrel
            have he : eAt M e M n 0 = true := by
              cases he : eAt M e M n 0 with
              | true => rfl
              | false =>
                rw [he] at hrel
                have r1 := (penaltyQ_zero (Or.inl rfl) (h1 n) hrel).1 z2
                have r2 := (penaltyQ_zero (Or.inr rfl) (h1 n) hrel).1 z4
                omega
            have := hN a.1 hf.sym (by rw [hf.len]; omega) (by rw [hf.len]; exact hfr) (by rw [hf.len]; exact he) z3 z5
            rw [hf.len] at this
            exact absurd this hboth
          · have := hN0 n
            omega
      refine ⟨?_, (bestOf_count_le _ _).trans hcount, fun v hv hf hal hx => ?_⟩
      · intro a ha
        have ha := (List.mergeSort_perm _ _).mem_iff.1 (List.mem_of_mem_take ha)
        obtain ⟨c, hc', h⟩ := List.mem_flatMap.1 ha
        rcases List.mem_cons.1 h with rfl | h
        · exact (key c hc' 1 (Or.inl rfl)).1
        · rw [List.mem_singleton.1 h]
          exact (key c hc' (-1) (Or.inr rfl)).1
      · refine mem_bestOf_le ?_ le_rfl (hcount.trans ((hmono _ _ hle).trans hL))
        have hpl : (pre v n).length = n := by simp [pre]
        have q := fits_softQ hs hv (w := pre v n) (fun i hi => (pre_getD v (by omega)).symm) hx (t := M) (n := n) le_rfl (by omega) (by simpa using hpl) (i := 0) (by simp)
        rw [polar_leaf] at q
        have hz : penaltyQ (sf (pre v n)) (v n) = 0 := by
          cases he : eAt M e M n 0 with
          | true => rw [he] at q; exact penaltyQ_erased q
          | false => rw [he] at q; exact (penaltyQ_zero (hv n) (hv n) q).2 rfl
        have hcz : cost (pre v n) 0 (sf (pre v n)) (v n) = 0 := by
          rw [(hc _ _ _ _).1 (hal n (by omega) hfr), hz, fadd_zero (mok_zero F)]
        refine List.mem_flatMap.2 ⟨_, i3 v hv hf hal hx, ?_⟩
        dsimp only
        rw [pre_succ]
        rcases hv n with h | h <;> rw [h] at hcz ⊢
        · exact List.mem_cons.2 (Or.inl (Prod.ext rfl hcz.symm))
        · exact List.mem_cons_of_mem _ (List.mem_singleton.2 (Prod.ext rfl hcz.symm))) M 0 (([], 0) :: List.replicate (L - 1) ([], 1000000)) le_rfl (by simp) (by
    rw [Nat.zero_mul]
    refine ⟨fun a ha => ?_, ?_, fun v _ _ _ _ => List.mem_cons_self⟩
    · rcases List.mem_cons.1 ha with rfl | h
      · exact ⟨rfl, by simp, by simp, mok_zero F, fun _ => ⟨v0, hv0, by simp, hx0⟩, fun _ i hi => absurd hi (Nat.not_lt_zero i)⟩
      · rw [List.eq_of_mem_replicate h]
        exact ⟨rfl, by simp, by simp, mok_phantom h6 hh, fun h => absurd h million_pos.ne', fun h => absurd h million_pos.ne'⟩
    · rw [List.filter_cons_of_pos (by simp), List.filter_replicate]
      rw [if_neg (by simpa using million_pos)]
      simpa using hN1)
  rw [Nat.zero_add, Nat.one_mul] at this
  exact ⟨this.1, this.2.2⟩

end

end Verif.Polar
