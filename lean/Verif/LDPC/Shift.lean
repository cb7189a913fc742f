import Verif.LDPC.PropsErase
/- Message passing (SpecDec.lean) when the signs of the received values are changed by a codeword. -/
namespace Verif.LDPC
open Finset

/-- The layers of one iteration, in order. -/
def layersOf (T : Table) (D : Nat) : List (List Nat) := (List.range T.q).flatMap fun i => (List.range (T.M / D)).map fun j => layerChecks T D i j

/-- No sum leaves the range `-127 .. 127` when the checks `cs` take their turn. -/
def Room (T : Table) (β : Int) (s : Soft) (cs : List Nat) : Prop :=
  ∀ c ∈ cs, ∀ v ∈ T.vars c, |s.val v - s.msg c v| ≤ 127 ∧ |hear s c v + answer T β s c v| ≤ 127

/-- No sum leaves that range in an iteration that starts with `s`. -/
def Roomy (T : Table) (β : Int) (D : Nat) (act : Nat → Nat → Prop) (s : Soft) : Prop :=
  ∀ before cs after, layersOf T D = before ++ cs :: after → Room T β (before.foldl (layerStep T β act) s) cs

/-- `s'` is `s` with the signs changed by `σ`. -/
structure Flip (σ : Var → Int) (s s' : Soft) : Prop where
  val : ∀ v, s'.val v = σ v * s.val v
  msg : ∀ c v, s'.msg c v = σ v * s.msg c v

section
variable {T : Table} {β : Int} {D : Nat} {σ : Var → Int} {s s' : Soft}

theorem signs_of_sent (h : SentWord T σ) : Signs T σ := by
  have hs : ∀ v, (σ v).sign = σ v := fun v => by rcases h.pm v with e | e <;> rw [e] <;> rfl
  refine ⟨h.pm, fun c hc => ?_⟩
  have := h.checks c hc
  unfold Table.checkOk at this
  simp only [hs] at this
  unfold Table.vars
  rw [List.map_append, List.prod_append, List.map_map, List.map_cons, List.prod_cons, ← mul_assoc]
  split
  · rename_i h0; rw [if_pos h0] at this; exact this
  · rename_i h0; rw [if_neg h0] at this; simpa [Function.comp_def] using this

theorem checkOk_iff (c : Nat) : T.checkOk (fun i => s.val (.data i)) (fun i => s.val (.par i)) c ↔ ((T.vars c).map fun v => (s.val v).sign).prod = 1 := by
  unfold Table.checkOk Table.vars
  rw [List.map_append, List.prod_append, List.map_map, List.map_cons, List.prod_cons, ← mul_assoc]
  by_cases h0 : c = 0
  · rw [if_pos h0, if_pos h0]; rfl
  · rw [if_neg h0, if_neg h0]
    simp [Function.comp_def]

theorem sign_flip {a : Int} (h : a = 1 ∨ a = -1) (x : Int) : (a * x).sign = a * x.sign := by
  rw [Int.sign_mul]
  rcases h with e | e <;> rw [e] <;> rfl

theorem Flip.word (hσ : Signs T σ) (hF : Flip σ s s') : Word T s' ↔ Word T s := by
  unfold Word
  refine forall₂_congr fun c hc => ?_
  rw [checkOk_iff, checkOk_iff]
  have : (fun v => (s'.val v).sign) = fun v => σ v * (s.val v).sign := by
    funext v; rw [hF.val, sign_flip (hσ.one v)]
  rw [this, List.prod_map_mul, hσ.check c hc, one_mul]

theorem mag_zero (hβ : 0 ≤ β) : mag β 0 = 0 := by unfold mag; simp; omega

theorem mag_flip {a : Int} (h : a = 1 ∨ a = -1) (x : Int) : mag β (a * x) = mag β x := by
  unfold mag
  rcases h with e | e <;> rw [e] <;> simp

theorem neg_flip {a : Int} (h : a = 1 ∨ a = -1) {x : Int} (hx : x ≠ 0) : neg (a * x) = a * neg x := by
  unfold neg
  rcases h with e | e <;> rw [e] <;> split_ifs <;> omega

theorem combine_flip (hβ : 0 ≤ β) (hp : ∀ v, σ v = 1 ∨ σ v = -1) (f : Var → Int) (l : List Var) :
    combine β (l.map fun v => σ v * f v) = (l.map σ).prod * combine β (l.map f) := by
  unfold combine
  rw [List.map_map, List.map_map, List.map_map, List.map_map]
  have h2 : (mag β ∘ fun v => σ v * f v) = mag β ∘ f := by funext v; exact mag_flip (hp v) _
  rw [h2]
  by_cases h0 : ∃ v ∈ l, f v = 0
  · obtain ⟨v, hv, hf⟩ := h0
    have h3 : (l.map (mag β ∘ f)).foldl min 31 = 0 := by
      refine le_antisymm ?_ ?_
      · refine (le_of_foldl_min.2 (mag β (f v)) (List.mem_map.2 ⟨v, hv, rfl⟩)).trans ?_
        rw [hf, mag_zero hβ]
      · refine le_foldl_min.2 ⟨by norm_num, fun y hy => ?_⟩
        obtain ⟨u, -, rfl⟩ := List.mem_map.1 hy
        exact mag_nonneg _ _
    rw [h3]; ring
  · push Not at h0
    have h1 : l.map (neg ∘ fun v => σ v * f v) = l.map fun v => σ v * neg (f v) := List.map_congr_left fun v hv => neg_flip (hp v) (h0 v hv)
    rw [h1, List.prod_map_mul, mul_assoc]
    rfl

theorem corr_flip {a : Int} (h : a = 1 ∨ a = -1) (x y : Int) : corr (a * x) (a * y) = a * corr x y := by
  unfold corr
  rcases h with e | e <;> rw [e]
  · simp only [one_mul]
  · split_ifs <;> omega

theorem sat_flip {a : Int} (h : a = 1 ∨ a = -1) {x : Int} (hx : |x| ≤ 127) : sat (a * x) = a * sat x := by
  unfold sat
  rw [abs_le] at hx
  rcases h with e | e <;> rw [e] <;> omega

theorem Flip.hear (hσ : Signs T σ) (hF : Flip σ s s') {c : Nat} {v : Var} (hR : |s.val v - s.msg c v| ≤ 127) : hear s' c v = σ v * hear s c v := by
  unfold Verif.LDPC.hear
  rw [hF.val, hF.msg, ← mul_sub, sat_flip (hσ.one v) hR]

theorem Flip.answer (hσ : Signs T σ) (hβ : 0 ≤ β) (hF : Flip σ s s') {c : Nat} (hc : c < T.R) (hR : ∀ v ∈ T.vars c, |s.val v - s.msg c v| ≤ 127)
    {v : Var} (hv : v ∈ T.vars c) : answer T β s' c v = σ v * answer T β s c v := by
  unfold Verif.LDPC.answer
  have h1 : ((T.vars c).erase v).map (Verif.LDPC.hear s' c) = ((T.vars c).erase v).map fun u => σ u * Verif.LDPC.hear s c u :=
    List.map_congr_left fun u hu => hF.hear hσ (hR u (List.mem_of_mem_erase hu))
  rw [h1, combine_flip hβ hσ.one, prod_erase hv hσ.one (hσ.check c hc), hF.msg, corr_flip (hσ.one v)]

theorem Flip.step {act : Nat → Nat → Prop} (hσ : Signs T σ) (hβ : 0 ≤ β) (hF : Flip σ s s') {cs : List Nat} (hcs : ∀ c ∈ cs, c < T.R) (hR : Room T β s cs) :
    Flip σ (layerStep T β act s cs) (layerStep T β act s' cs) := by
  classical
  refine ⟨fun v => ?_, fun c v => ?_⟩
  · unfold layerStep
    dsimp only
    split
    · rename_i c hf
      have hc := List.mem_of_find?_eq_some hf
      have hv : v ∈ T.vars c := by
        have := List.find?_some hf
        rw [decide_eq_true_iff] at this
        exact this.1
      rw [hF.hear hσ (hR c hc v hv).1, hF.answer hσ hβ (hcs c hc) (fun u hu => (hR c hc u hu).1) hv, ← mul_add, sat_flip (hσ.one v) (hR c hc v hv).2]
    · exact hF.val v
  · unfold layerStep
    dsimp only
    split
    · rename_i hk
      exact hF.answer hσ hβ (hcs c hk.1) (fun u hu => (hR c hk.1 u hu).1) hk.2.1
    · exact hF.msg c v

theorem Flip.fold {act : Nat → Nat → Prop} (hσ : Signs T σ) (hβ : 0 ≤ β) (l : List (List Nat)) : ∀ {s s' : Soft}, Flip σ s s' → (∀ cs ∈ l, ∀ c ∈ cs, c < T.R) →
    (∀ before cs after, l = before ++ cs :: after → Room T β (before.foldl (layerStep T β act) s) cs) →
    Flip σ (l.foldl (layerStep T β act) s) (l.foldl (layerStep T β act) s') := by
  induction l with
  | nil => intro s s' hF _ _; exact hF
  | cons cs l ih =>
    intro s s' hF hcs hR
    rw [List.foldl_cons, List.foldl_cons]
    refine ih (hF.step hσ hβ (hcs cs (by simp)) (hR [] cs l rfl)) (fun cs' h => hcs cs' (by simp [h])) fun b cs' a e => ?_
    have := hR (cs :: b) cs' a (by rw [e]; rfl)
    rwa [List.foldl_cons] at this

theorem Flip.turns {act : Nat → Nat → Nat → Prop} (hσ : Signs T σ) (hβ : 0 ≤ β) (hL : ∀ cs ∈ layersOf T D, ∀ c ∈ cs, c < T.R) (hF : Flip σ s s') (N : Nat) :
    ∀ n, (∀ k < n, Roomy T β D (act (N + k)) (turns T β D act N s k)) → Flip σ (turns T β D act N s n) (turns T β D act N s' n) := by
  intro n
  induction n with
  | zero => intro _; exact hF
  | succ n ih =>
    intro hR
    exact (ih fun k hk => hR k (by omega)).fold hσ hβ (layersOf T D) hL (hR n (by omega))

end
/-! ### Headroom that suffices for every number of iterations -/

/-- The checks of a variable. -/
def Table.checksOf (T : Table) (v : Var) : Finset Nat := (range T.R).filter fun c => v ∈ T.vars c

/-- The value of a variable is the received one and the last messages, and these are at most 31. -/
structure Sums (T : Table) (o : Var → Int) (s : Soft) : Prop where
  le : ∀ c v, |s.msg c v| ≤ 31
  zero : ∀ c v, v ∉ T.vars c → s.msg c v = 0
  sum : ∀ v, s.val v = o v + ∑ c ∈ T.checksOf v, s.msg c v

section
variable {T : Table} {β : Int} {o : Var → Int} {s : Soft}

theorem answer_le (hβ : 0 ≤ β) (c : Nat) (v : Var) : |answer T β s c v| ≤ 31 := by
  obtain ⟨h1, h2⟩ := combine_bounds β hβ (((T.vars c).erase v).map (hear s c))
  unfold answer corr
  split
  · norm_num
  · rw [abs_le]; exact ⟨h1, h2⟩

theorem Sums.room (hS : Sums T o s) (hβ : 0 ≤ β) (ho : ∀ v, |o v| + 31 * (T.checksOf v).card ≤ 127) {c : Nat} (hc : c < T.R) {v : Var} (hv : v ∈ T.vars c) :
    s.val v - s.msg c v = o v + ∑ c' ∈ (T.checksOf v).erase c, s.msg c' v ∧ |s.val v - s.msg c v| ≤ 127 ∧
    hear s c v = s.val v - s.msg c v ∧ |hear s c v + answer T β s c v| ≤ 127 := by
  have hm : c ∈ T.checksOf v := mem_filter.2 ⟨mem_range.2 hc, hv⟩
  have h1 : s.val v - s.msg c v = o v + ∑ c' ∈ (T.checksOf v).erase c, s.msg c' v := by
    rw [hS.sum, ← add_sum_erase _ _ hm]; ring
  have h2 : |∑ c' ∈ (T.checksOf v).erase c, s.msg c' v| ≤ 31 * ((T.checksOf v).card - 1) := by
    refine (abs_sum_le_sum_abs _ _).trans ((sum_le_card_nsmul _ _ 31 fun c' _ => hS.le c' v).trans ?_)
    have h3 : 0 < (T.checksOf v).card := card_pos.2 ⟨c, hm⟩
    rw [card_erase_of_mem hm, nsmul_eq_mul, Nat.cast_sub h3]
    push_cast
    omega
  have h3 := ho v
  have h4 := answer_le (T := T) (s := s) hβ c v
  have h5 : |s.val v - s.msg c v| ≤ 96 := by
    rw [h1]
    refine (abs_add_le _ _).trans ?_
    omega
  have h6 : hear s c v = s.val v - s.msg c v := by
    unfold hear sat
    rw [abs_le] at h5
    omega
  refine ⟨h1, by omega, h6, ?_⟩
  rw [h6]
  refine (abs_add_le _ _).trans ?_
  omega

theorem Sums.step {act : Nat → Nat → Prop} (hS : Sums T o s) (hβ : 0 ≤ β) (ho : ∀ v, |o v| + 31 * (T.checksOf v).card ≤ 127) {cs : List Nat}
    (hcs : ∀ c ∈ cs, c < T.R) (hsolo : Solo T act cs) : Sums T o (layerStep T β act s cs) := by
  refine ⟨fun c v => ?_, fun c v hv => ?_, fun v => ?_⟩
  · unfold layerStep
    dsimp only
    split
    · exact answer_le hβ c v
    · exact hS.le c v
  · unfold layerStep
    dsimp only
    rw [if_neg fun h => hv h.2.1, hS.zero c v hv]
  · rcases layerStep_spec T β s hsolo v with ⟨c, hc, ha, h1, h2, h3⟩ | ⟨-, h1, h2⟩
    · obtain ⟨k1, k2, k3, k4⟩ := hS.room hβ ho (hcs c hc) ha.1
      have hm : c ∈ T.checksOf v := mem_filter.2 ⟨mem_range.2 (hcs c hc), ha.1⟩
      rw [h1, ← add_sum_erase _ _ hm, h2, sum_congr rfl fun c' hc' => h3 c' (mem_erase.1 hc').1]
      have : sat (hear s c v + answer T β s c v) = hear s c v + answer T β s c v := by
        unfold sat
        rw [abs_le] at k4
        omega
      rw [this, k3, k1]
      ring
    · rw [h1, hS.sum, sum_congr rfl fun c' _ => (h2 c').symm]

theorem Sums.fold {act : Nat → Nat → Prop} (hβ : 0 ≤ β) (ho : ∀ v, |o v| + 31 * (T.checksOf v).card ≤ 127) (l : List (List Nat)) : ∀ {s : Soft}, Sums T o s →
    (∀ cs ∈ l, (∀ c ∈ cs, c < T.R) ∧ Solo T act cs) → Sums T o (l.foldl (layerStep T β act) s) := by
  induction l with
  | nil => intro s hS _; exact hS
  | cons cs l ih =>
    intro s hS hl
    rw [List.foldl_cons]
    exact ih (hS.step hβ ho (hl cs (by simp)).1 (hl cs (by simp)).2) fun cs' h => hl cs' (by simp [h])

theorem Sums.roomy {D : Nat} {act : Nat → Nat → Prop} (hS : Sums T o s) (hβ : 0 ≤ β) (ho : ∀ v, |o v| + 31 * (T.checksOf v).card ≤ 127)
    (hl : ∀ cs ∈ layersOf T D, (∀ c ∈ cs, c < T.R) ∧ Solo T act cs) : Roomy T β D act s := by
  intro b cs a e c hc v hv
  have h1 := hS.fold (act := act) hβ ho b fun cs' h => hl cs' (by rw [e]; simp [h])
  have h2 := h1.room hβ ho ((hl cs (by rw [e]; simp)).1 c hc) hv
  exact ⟨h2.2.1, h2.2.2.2⟩

theorem Sums.turns {D : Nat} {act : Nat → Nat → Nat → Prop} (hS : Sums T o s) (hβ : 0 ≤ β) (ho : ∀ v, |o v| + 31 * (T.checksOf v).card ≤ 127)
    (hl : ∀ τ, ∀ cs ∈ layersOf T D, (∀ c ∈ cs, c < T.R) ∧ Solo T (act τ) cs) (N : Nat) : ∀ n, Sums T o (turns T β D act N s n) := by
  intro n
  induction n with
  | zero => exact hS
  | succ n ih => exact ih.fold hβ ho (layersOf T D) (hl (N + n))

end
end Verif.LDPC
