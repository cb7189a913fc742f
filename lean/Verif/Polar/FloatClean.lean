import Verif.Polar.FloatParSim
/- The textbook's list decoder on soft values that have the signs of a codeword: the path of the codeword stays in front, with metric 0. -/
namespace Verif.Polar
variable {L : Nat}

/-! ### Signs -/

theorem soft_sign {V : Type} {A : Arith V} {R : Nat → V → Prop} (LA : A.Laws R) {M : Nat} {σ : Nat → V} {u : Nat → Int} (hu : ∀ i, Sym (u i)) (hσ : ∀ i, i < 2 ^ M → R 0 (σ i))
    (hs : ∀ i, i < 2 ^ M → A.sgn (σ i) = polar M u i) : ∀ t n i, t ≤ M → n < 2 ^ t → i < 2 ^ (M - t) → A.sgn (softAt A M σ u t n i) = polar (M - t) (fun j => u (n * 2 ^ (M - t) + j)) i := by
  intro t
  induction t with
  | zero =>
    intro n i _ hn hi
    have : n = 0 := by simpa using hn
    subst this
    simp only [softAt, Nat.sub_zero, Nat.zero_mul, Nat.zero_add]
    exact hs i hi
  | succ t ih =>
    intro n i ht hn hi
    obtain ⟨d, hd⟩ : ∃ d, M = t + 1 + d := ⟨M - (t + 1), by omega⟩
    have e1 : M - (t + 1) = d := by omega
    have e2 : M - t = d + 1 := by omega
    have e := two_pow_succ' d
    have hn2 : n / 2 < 2 ^ t := by rw [pow_succ] at hn; omega
    rw [e1] at hi ⊢
    have a := ih (n / 2) i (by omega) hn2 (by rw [e2]; omega)
    have b := ih (n / 2) (2 ^ d + i) (by omega) hn2 (by rw [e2]; omega)
    have ra := softAt_R LA hu hσ t (n / 2) i (by omega) (by rw [e2]; omega)
    have rb := softAt_R LA hu hσ t (n / 2) (2 ^ d + i) (by omega) (by rw [e2]; omega)
    rw [e2, polar_low hi] at a
    rw [e2, polar_high hi] at b
    have s1 : Sym (polar d (fun j => u (n / 2 * 2 ^ (d + 1) + j)) i) := polar_sym (fun _ => hu _) hi
    have s2 : Sym (polar d (fun j => u (n / 2 * 2 ^ (d + 1) + (2 ^ d + j))) i) := polar_sym (fun _ => hu _) hi
    rw [softAt]
    simp only [e1]
    split
    · rename_i h
      rw [LA.F_sgn t _ _ ra rb, a, b]
      have : n / 2 * 2 ^ (d + 1) = n * 2 ^ d := by
        rw [pow_succ, show n / 2 * (2 ^ d * 2) = n / 2 * 2 * 2 ^ d by ring, Nat.div_mul_cancel (Nat.dvd_of_mod_eq_zero h)]
      rw [this] at s2 ⊢
      rcases s2 with h | h <;> rw [h] <;> ring
    · rename_i h
      have hk : n = 2 * (n / 2) + 1 := by omega
      have p1 : n / 2 * 2 ^ (d + 1) = (n - 1) * 2 ^ d := by
        rw [pow_succ, show n - 1 = 2 * (n / 2) by omega]; ring
      have p2 : ∀ j, n / 2 * 2 ^ (d + 1) + (2 ^ d + j) = n * 2 ^ d + j := by
        intro j
        conv_rhs => rw [hk]
        rw [pow_succ]; ring
      simp only [p2] at a b s2
      rw [p1] at a s1
      have hab : A.sgn (softAt A M σ u t (n / 2) i) * A.sgn (softAt A M σ u t (n / 2) (2 ^ d + i)) = polar d (fun j => u ((n - 1) * 2 ^ d + j)) i := by
        rw [a, b]
        rcases s2 with h | h <;> rw [h] <;> ring
      rw [← hab, LA.G_sgn t _ _ ra rb ?_ ?_, b]
      · rw [a]; rcases s1 with h | h <;> rcases s2 with h' | h' <;> rw [h, h'] <;> norm_num
      · rw [b]; rcases s2 with h' | h' <;> rw [h'] <;> norm_num

/-! ### The best path -/

theorem bestOf_head {P : Type} [LinearOrder P] {L : Nat} (hL : 1 ≤ L) {l A B : List (List Int × P)} {x : List Int × P} (hl : l = A ++ x :: B) (hx : ∀ a ∈ A ++ B, x.2 < a.2) :
    ∃ rest, bestOf L l = x :: rest ∧ ∀ a ∈ rest, a ∈ A ++ B := by
  have perm : (l.mergeSort fun a b => decide (a.2 ≤ b.2)).Perm (x :: (A ++ B)) := (List.mergeSort_perm _ _).trans (by rw [hl]; exact List.perm_middle)
  have sorted : (l.mergeSort fun a b => decide (a.2 ≤ b.2)).Pairwise (fun a b => decide (a.2 ≤ b.2) = true) :=
    List.pairwise_mergeSort (fun a b c h1 h2 => by simp only [decide_eq_true_eq] at *; exact h1.trans h2) (fun a b => by simpa using le_total a.2 b.2) l
  unfold bestOf
  generalize (l.mergeSort fun a b => decide (a.2 ≤ b.2)) = m at perm sorted
  cases m with
  | nil => simp at perm
  | cons h t =>
    have hh : h = x := by
      by_contra hne
      have hm : h ∈ A ++ B := by
        rcases List.mem_cons.1 (perm.mem_iff.1 List.mem_cons_self) with e | e
        · exact absurd e hne
        · exact e
      have hxt : x ∈ t := by
        rcases List.mem_cons.1 (perm.mem_iff.2 (List.mem_cons_self (a := x) (l := A ++ B))) with e | e
        · exact absurd e.symm hne
        · exact e
      have := (List.pairwise_cons.1 sorted).1 x hxt
      exact absurd (of_decide_eq_true this) (not_le.2 (hx h hm))
    subst hh
    obtain ⟨n, rfl⟩ : ∃ n, L = n + 1 := ⟨L - 1, by omega⟩
    refine ⟨t.take n, rfl, fun a ha => ?_⟩
    exact (List.Perm.cons_inv perm).mem_iff.1 (List.mem_of_mem_take ha)

/-! ### The path of the codeword -/

/-- The first `n` decisions of the path `u`. -/
def pre (u : Nat → Int) (n : Nat) : List Int := (List.range n).map u

theorem pre_succ (u : Nat → Int) (n : Nat) : pre u (n + 1) = pre u n ++ [u n] := by
  unfold pre; rw [List.range_succ, List.map_append]; rfl

theorem pre_getD (u : Nat → Int) {n i : Nat} (h : i < n) : (pre u n).getD i 1 = u i := getD_range_map _ _ h

theorem pre_ones (u : Nat → Int) (n : Nat) : ∀ k, (∀ i, i < k → u (n + i) = 1) → pre u (n + k) = pre u n ++ List.replicate k 1 := by
  intro k
  induction k with
  | zero => intro _; simp
  | succ k ih =>
    intro h
    rw [← Nat.add_assoc, pre_succ, ih fun i hi => h i (by omega), h k (by omega), List.replicate_succ', List.append_assoc]

/-- The path `u` is in front with metric 0, the other metrics are positive. -/
def Clean (F : Rounding) (u : Nat → Int) (n : Nat) (ps : List (List Int × WithTop ℚ)) : Prop :=
  ∃ rest, ps = (pre u n, 0) :: rest ∧ ∀ a ∈ rest, 0 < a.2 ∧ MOk F a.2

theorem mok_zero (F : Rounding) : MOk F 0 := by
  intro q hq
  have : (0 : ℚ) = q := WithTop.coe_inj.1 (show ((0 : ℚ) : WithTop ℚ) = q from hq)
  subst this
  exact ⟨le_rfl, F.zero, by have := F.one_lt; linarith⟩

theorem foldl_pay {F : Rounding} : ∀ (l : List ℚ) (μ : WithTop ℚ), MOk F μ → MOk F (l.foldl (fun μ s => fadd F μ (penaltyQ s 1)) μ) ∧ μ ≤ l.foldl (fun μ s => fadd F μ (penaltyQ s 1)) μ := by
  intro l
  induction l with
  | nil => intro μ h; exact ⟨h, le_rfl⟩
  | cons s l ih =>
    intro μ h
    obtain ⟨h1, h2⟩ := fadd_ok h (penaltyQ_nonneg s 1)
    obtain ⟨h3, h4⟩ := ih _ h1
    exact ⟨h3, h2.trans h4⟩

theorem foldl_free {F : Rounding} : ∀ (l : List ℚ) (μ : WithTop ℚ), MOk F μ → (∀ s ∈ l, 0 < s) → l.foldl (fun μ s => fadd F μ (penaltyQ s 1)) μ = μ := by
  intro l
  induction l with
  | nil => intro μ _ _; rfl
  | cons s l ih =>
    intro μ h hp
    have := hp s List.mem_cons_self
    rw [List.foldl_cons, penaltyQ_one, max_eq_left (by linarith), fadd_zero h]
    exact ih μ h fun x hx => hp x (List.mem_cons_of_mem _ hx)

theorem fadd_pos {F : Rounding} {p : ℚ} (hp : 0 < p) (hr : F.rep p) : 0 < fadd F 0 p := by
  rw [show (0 : WithTop ℚ) = ((0 : ℚ) : WithTop ℚ) from rfl, fadd_coe, zero_add, F.exact p hr]
  split
  · exact_mod_cast hp
  · exact WithTop.coe_lt_top _

/-- What the metric of a continuation has to be: nothing is charged for the symbols of `u`, something for a wrong symbol after the path `u`,
and nothing is taken away. -/
structure FairCost (F : Rounding) (M : Nat) (fr : Nat → Prop) (u : Nat → Int) (cost : List Int → WithTop ℚ → ℚ → Int → WithTop ℚ) : Prop where
  right : ∀ n (s : ℚ), n < 2 ^ M → ¬ fr n → 0 < s * (u n : ℚ) → cost (pre u n) 0 s (u n) = 0
  wrong : ∀ n (s : ℚ), n < 2 ^ M → ¬ fr n → 0 < s * (u n : ℚ) → F.rep s → 0 < cost (pre u n) 0 s (-u n) ∧ MOk F (cost (pre u n) 0 s (-u n))
  keep : ∀ w μ s b, 0 < μ → MOk F μ → 0 < cost w μ s b ∧ MOk F (cost w μ s b)

theorem qsign_mul {s : ℚ} {x : Int} (hx : Sym x) (h : qsign s = x) : 0 < s * x := by
  rcases qsign_cases s with ⟨a, e⟩ | ⟨a, e⟩ | ⟨a, e⟩ <;> rw [e] at h <;> subst h
  · push_cast; linarith
  · rcases hx with h | h <;> norm_num at h
  · push_cast; linarith

theorem sign_of_mul {s : ℚ} {x : Int} (hx : Sym x) (h : 0 < s * x) : qsign s = x := by
  rcases hx with rfl | rfl
  · exact qsign_pos (by push_cast at h; linarith)
  · exact qsign_neg (by push_cast at h; linarith)

theorem clean_node {F : Rounding} {B : ℚ} (hB : F.rep B) (hL : 1 ≤ L) {M : Nat} {σ : Nat → ℚ} {fr : Nat → Prop} {u : Nat → Int} {cost : List Int → WithTop ℚ → ℚ → Int → WithTop ℚ} (hu : ∀ i, Sym (u i))
    (hσ : ∀ i, i < 2 ^ M → RF F B 0 (σ i)) (hs : ∀ i, i < 2 ^ M → 0 < σ i * polar M u i) (hfr : ∀ i, i < 2 ^ M → fr i → u i = 1) (hc : FairCost F M fr u cost)
    {d n : Nat} (hd : d ≤ M) (hn : n < 2 ^ (M - d)) (h1 : fr (n * 2 ^ d) → ∀ i, i < 2 ^ d → fr (n * 2 ^ d + i)) (h2 : ¬ fr (n * 2 ^ d) → d = 0) {ps : List (List Int × WithTop ℚ)} (hps : Clean F u (n * 2 ^ d) ps) :
    Clean F u ((n + 1) * 2 ^ d) (sclStepOf (minSum F.rnd) L M σ fr (fun μ s => fadd F μ (penaltyQ s 1)) cost ps (d, n)) := by
  classical
  have hlt : n * 2 ^ d + 2 ^ d ≤ 2 ^ M := by
    have : (n + 1) * 2 ^ d ≤ 2 ^ (M - d) * 2 ^ d := Nat.mul_le_mul_right _ hn
    rw [← pow_add, Nat.sub_add_cancel hd] at this
    linarith [Nat.add_mul n 1 (2 ^ d)]
  have sgn : ∀ i, i < 2 ^ d → 0 < softAt (minSum F.rnd) M σ ((pre u (n * 2 ^ d)).getD · 1) (M - d) n i * polar d (fun j => u (n * 2 ^ d + j)) i := by
    intro i hi
    have hMd : M - (M - d) = d := by omega
    rw [softAt_congr (v := u) _ M σ (M - d) n (by omega) fun j hj => pre_getD u (by rwa [hMd] at hj)]
    have := soft_sign (floatLaws F hB) hu hσ (fun i hi => sign_of_mul (polar_sym hu hi) (hs i hi)) (M - d) n i (by omega) hn (by rwa [hMd])
    rw [hMd] at this
    exact qsign_mul (polar_sym (fun _ => hu _) hi) this
  obtain ⟨rest, rfl, hrest⟩ := hps
  have e1 : (n + 1) * 2 ^ d = n * 2 ^ d + 2 ^ d := by ring
  unfold sclStepOf
  dsimp only
  by_cases hf : fr (n * 2 ^ d)
  · rw [if_pos hf, List.map_cons]
    have ones : ∀ i, i < 2 ^ d → u (n * 2 ^ d + i) = 1 := fun i hi => hfr _ (by omega) (h1 hf i hi)
    refine ⟨_, congrArg₂ List.cons (Prod.ext ?_ ?_) rfl, ?_⟩
    · rw [e1, pre_ones u _ _ ones]
    · dsimp only
      rw [foldl_free _ _ (mok_zero F) fun s hs => ?_]
      obtain ⟨i, hi, rfl⟩ := List.mem_map.1 hs
      have hi : i < 2 ^ d := by simpa using hi
      have := sgn i hi
      have hp : polar d (fun j => u (n * 2 ^ d + j)) i = 1 := by
        unfold polar
        refine Finset.prod_eq_one fun j hj => ones j ?_
        exact Finset.mem_range.1 (Finset.mem_filter.1 hj).1
      rw [hp] at this
      simpa using this
    · intro a ha
      obtain ⟨c, hc, rfl⟩ := List.mem_map.1 ha
      obtain ⟨k1, k2⟩ := hrest c hc
      obtain ⟨g1, g2⟩ := foldl_pay (F := F) ((List.range (2 ^ d)).map (fun i => softAt (minSum F.rnd) M σ (c.1.getD · 1) (M - d) n i)) c.2 k2
      exact ⟨k1.trans_le g2, g1⟩
  · rw [if_neg hf]
    have hd0 := h2 hf
    subst hd0
    rw [pow_zero, Nat.mul_one] at hf hlt ⊢
    rw [Nat.mul_one]
    have sg := sgn 0 (by norm_num)
    rw [Nat.sub_zero] at sg
    simp only [pow_zero, Nat.mul_one] at sg
    have hp0 : polar 0 (fun j => u (n + j)) 0 = u n := by have := P_prod 0 (fun j => u (n + j)) 0 (by norm_num); unfold polar; rw [← this]; rfl
    rw [hp0] at sg
    rw [Nat.sub_zero]
    have hsym : ∀ i, Sym ((pre u n).getD i 1) := by
      intro i
      by_cases hi : i < n
      · rw [pre_getD u hi]; exact hu i
      · rw [List.getD_eq_default _ _ (by simp [pre]; omega)]; exact Or.inl rfl
    have rp := (softAt_R (floatLaws F hB) hsym hσ M n 0 le_rfl (by rw [Nat.sub_self]; norm_num)).1
    have R := hc.right n _ (by omega) hf sg
    have W := hc.wrong n _ (by omega) hf sg rp
    generalize hsf : (fun w : List Int => softAt (minSum F.rnd) M σ (fun i => w.getD i 1) M n 0) = sf
    have hsf0 : softAt (minSum F.rnd) M σ ((pre u n).getD · 1) M n 0 = sf (pre u n) := by rw [← hsf]
    rw [hsf0] at R W
    have keep : ∀ a ∈ forks cost sf rest, 0 < a.2 ∧ MOk F a.2 := by
      intro a ha
      obtain ⟨c, hc', b, -, e⟩ := forks_mem ha
      rw [e]
      obtain ⟨k1, k2⟩ := hrest c hc'
      exact hc.keep _ _ _ _ k1 k2
    have split : ∃ A C, forks cost sf ((pre u n, 0) :: rest) = A ++ (pre u n ++ [u n], cost (pre u n) 0 (sf (pre u n)) (u n)) :: C ∧
        ∀ a ∈ A ++ C, a ∈ forks cost sf rest ∨ a = (pre u n ++ [-u n], cost (pre u n) 0 (sf (pre u n)) (-u n)) := by
      rcases hu n with e | e
      · refine ⟨[], (pre u n ++ [-1], cost (pre u n) 0 (sf (pre u n)) (-1)) :: forks cost sf rest, by rw [e]; rfl, fun a ha => ?_⟩
        rcases List.mem_cons.1 ha with h | h
        · rw [e]; exact Or.inr h
        · exact Or.inl h
      · refine ⟨[(pre u n ++ [1], cost (pre u n) 0 (sf (pre u n)) 1)], forks cost sf rest, by rw [e]; rfl, fun a ha => ?_⟩
        rcases List.mem_cons.1 ha with h | h
        · rw [e]; exact Or.inr h
        · exact Or.inl h
    obtain ⟨A, C, e, hAC⟩ := split
    have pos : ∀ a ∈ A ++ C, 0 < a.2 ∧ MOk F a.2 := by
      intro a ha
      rcases hAC a ha with h | h
      · exact keep a h
      · rw [h]; exact W
    obtain ⟨r, er, hr⟩ := bestOf_head hL e (by rw [R]; exact fun a ha => (pos a ha).1)
    refine ⟨r, ?_, fun a ha => pos a (hr a ha)⟩
    rw [er, R, pre_succ]

theorem clean_steps {F : Rounding} {B : ℚ} (hB : F.rep B) (hL : 1 ≤ L) {M : Nat} {σ : Nat → ℚ} {fr : Nat → Prop} {u : Nat → Int} {cost : List Int → WithTop ℚ → ℚ → Int → WithTop ℚ} (hu : ∀ i, Sym (u i))
    (hσ : ∀ i, i < 2 ^ M → RF F B 0 (σ i)) (hs : ∀ i, i < 2 ^ M → 0 < σ i * polar M u i) (hfr : ∀ i, i < 2 ^ M → fr i → u i = 1) (hc : FairCost F M fr u cost) :
    ∀ d n ps, d ≤ M → n < 2 ^ (M - d) → Clean F u (n * 2 ^ d) ps →
      Clean F u ((n + 1) * 2 ^ d) ((steps fr d n).foldl (sclStepOf (minSum F.rnd) L M σ fr (fun μ s => fadd F μ (penaltyQ s 1)) cost) ps) := by
  classical
  intro d
  induction d with
  | zero =>
    intro n ps hd hn hps
    exact clean_node hB hL hu hσ hs hfr hc hd hn (fun h i hi => by
      have : i = 0 := by simpa using hi
      subst this; exact h) (fun _ => rfl) hps
  | succ d ih =>
    intro n ps hd hn hps
    rw [steps]
    split
    · rename_i h
      refine clean_node hB hL hu hσ hs hfr hc hd hn (fun _ => h.2) (fun hf => absurd (h.2 0 (by positivity)) (by rwa [Nat.add_zero])) hps
    · rw [List.foldl_append]
      have e : 2 ^ (M - d) = 2 * 2 ^ (M - (d + 1)) := by rw [show M - d = M - (d + 1) + 1 by omega, pow_succ]; ring
      have a := ih (2 * n) ps (by omega) (by omega) (by rw [show 2 * n * 2 ^ d = n * 2 ^ (d + 1) by rw [pow_succ]; ring]; exact hps)
      have b := ih (2 * n + 1) _ (by omega) (by omega) a
      rw [show (2 * n + 1 + 1) * 2 ^ d = (n + 1) * 2 ^ (d + 1) by rw [pow_succ]; ring] at b
      exact b

theorem fair_add (F : Rounding) (M : Nat) (fr : Nat → Prop) {u : Nat → Int} (hu : ∀ i, Sym (u i)) : FairCost F M fr u (addF F) where
  right n s _ _ h := by
    unfold addF penaltyQ
    rw [max_eq_left (by linarith), fadd_zero (mok_zero F)]
  wrong n s _ _ h hr := by
    unfold addF
    refine ⟨?_, (fadd_ok (mok_zero F) (penaltyQ_nonneg _ _)).1⟩
    have e : penaltyQ s (-u n) = u n * s := by unfold penaltyQ; push_cast; rw [max_eq_right (by linarith)]; ring
    rw [e]
    refine fadd_pos (by linarith) ?_
    rcases hu n with h | h <;> rw [h]
    · simpa using hr
    · simpa using F.neg _ hr
  keep w μ s b h0 h := by
    obtain ⟨h1, h2⟩ := fadd_ok h (penaltyQ_nonneg s b)
    exact ⟨h0.trans_le h2, h1⟩

theorem million_pos : (0 : WithTop ℚ) < 1000000 := by
  have : ((0 : ℚ) : WithTop ℚ) < ((1000000 : ℚ) : WithTop ℚ) := by exact_mod_cast (by norm_num : (0 : ℚ) < 1000000)
  exact this

theorem fair_parity {F : Rounding} (h6 : F.rep 1000000) (hh : 1000000 < F.huge) (M : Nat) (fr : Nat → Prop) {u : Nat → Int} (hu : ∀ i, Sym (u i)) (first stride : Nat)
    (hp : ∀ n, n < 2 ^ M → ¬ fr n → cAt first stride (freeSymbols fr (pre u n)).length ≠ 0 ∨ u n = sinceProd first stride (freeSymbols fr (pre u n))) : FairCost F M fr u (parityF F first stride fr) where
  right n s hn hf h := by
    rw [parityF_eq, if_pos (hp n hn hf)]
    exact (fair_add F M fr hu).right n s hn hf h
  wrong n s hn hf h hr := by
    rw [parityF_eq]
    split
    · exact (fair_add F M fr hu).wrong n s hn hf h hr
    · exact ⟨million_pos, mok_phantom h6 hh⟩
  keep w μ s b h0 h := by
    rw [parityF_eq]
    split
    · exact (fair_add F M fr hu).keep w μ s b h0 h
    · exact ⟨million_pos, mok_phantom h6 hh⟩

/-! ### Messages -/

theorem free_pre (frozen : List Nat) (m : List Int) (n : Nat) : freeSymbols (Frozen frozen) (pre (symbolAt frozen m) n) = (List.range (freeBelow frozen n)).map fun i => m.getD i 1 := by
  have hlen : ∀ n, (pre (symbolAt frozen m) n).length = n := fun n => by simp [pre]
  induction n with
  | zero => simp [pre, freeSymbols, freeBelow]
  | succ n ih =>
    rw [pre_succ, freeBelow_succ]
    have hs := freeSymbols_snoc (Frozen frozen) (pre (symbolAt frozen m) n) (symbolAt frozen m n)
    rw [hlen] at hs
    by_cases h : Frozen frozen n
    · rw [hs.1 h, if_pos h, ih]; rfl
    · rw [hs.2 h, if_neg h, ih, List.range_succ, List.map_append]
      congr 1
      simp [symbolAt, h]

theorem range_getD (m : List Int) {n : Nat} (h : n ≤ m.length) : ((List.range n).map fun i => m.getD i 1) = m.take n :=
  ext_getD 1 (by simp [h]) fun i hi => by
    have hi : i < n := by simpa using hi
    rw [getD_range_map _ _ hi, getD_take_lt hi]

theorem data_coded (first stride : Nat) (m : List Int) (n : Nat) : dataSymbols first stride ((List.range n).map (coded first stride m)) = (List.range (dataBelow first stride n)).map fun i => m.getD i 1 := by
  induction n with
  | zero => simp [dataSymbols, dataBelow]
  | succ n ih =>
    rw [List.range_succ, List.map_append, List.map_singleton, dataSymbols_append, ih, dataBelow_succ, List.length_map, List.length_range]
    by_cases h : cAt first stride n = 0
    · rw [if_pos ((isParity_iff _ _ _).2 h), if_neg (by simp [h]), List.append_nil]; rfl
    · rw [if_neg (by rw [isParity_iff]; exact h), if_pos h, List.range_succ, List.map_append, coded_eq, if_pos h]
      rfl

theorem since_coded (first stride : Nat) (m : List Int) (n : Nat) : sinceProd first stride ((List.range n).map (coded first stride m)) = par first stride m n := by
  induction n with
  | zero => rw [par_zero]; simp [sinceProd]
  | succ n ih =>
    rw [List.range_succ, List.map_append, List.map_singleton, sinceProd_snoc, ih, par_succ, List.length_map, List.length_range]
    by_cases h : cAt first stride n = 0
    · rw [if_neg (by simp [h]), if_neg (by simp [h])]
    · rw [if_pos h, if_pos h, coded_eq, if_pos h]

end Verif.Polar
