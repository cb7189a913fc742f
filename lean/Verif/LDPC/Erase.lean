import Verif.LDPC.PropsTurns
import Mathlib.Algebra.BigOperators.Intervals
import Mathlib.Algebra.Order.BigOperators.Group.Finset
import Mathlib.Tactic.Ring
import Mathlib.Tactic.Linarith
/- Message passing (SpecDec.lean) on the erasure channel: values never lose, a check with one unknown variable fills it, stopping sets stay. -/
namespace Verif.LDPC
open Finset

/-- The variable `v` may get a new message from check `c`. -/
def Active (T : Table) (act : Nat → Nat → Prop) (c : Nat) (v : Var) : Prop := v ∈ T.vars c ∧ ∀ x, v = .data x → act c x

/-- In a layer at most one check sends to a variable. -/
def Solo (T : Table) (act : Nat → Nat → Prop) (cs : List Nat) : Prop := ∀ v, ∀ c ∈ cs, ∀ c' ∈ cs, Active T act c v → Active T act c' v → c = c'

/-- Signs that satisfy all checks. -/
structure Signs (T : Table) (σ : Var → Int) : Prop where
  one : ∀ v, σ v = 1 ∨ σ v = -1
  check : ∀ c < T.R, ((T.vars c).map σ).prod = 1

theorem layerStep_spec (T : Table) (β : Int) {act : Nat → Nat → Prop} (s : Soft) {cs : List Nat} (hS : Solo T act cs) (v : Var) :
    (∃ c ∈ cs, Active T act c v ∧ (layerStep T β act s cs).val v = sat (hear s c v + answer T β s c v) ∧
      (layerStep T β act s cs).msg c v = answer T β s c v ∧ ∀ c' ≠ c, (layerStep T β act s cs).msg c' v = s.msg c' v) ∨
    ((∀ c ∈ cs, ¬ Active T act c v) ∧ (layerStep T β act s cs).val v = s.val v ∧ ∀ c, (layerStep T β act s cs).msg c v = s.msg c v) := by
  classical
  cases hf : cs.find? fun c => decide (v ∈ T.vars c ∧ ∀ x, v = .data x → act c x) with
  | some c =>
    left
    have hc := List.mem_of_find?_eq_some hf
    have ha : Active T act c v := by
      have := List.find?_some hf
      rw [decide_eq_true_iff] at this
      exact this
    refine ⟨c, hc, ha, ?_, ?_, fun c' hne => ?_⟩
    · simp only [layerStep]
      rw [show (List.find? (fun c => decide (v ∈ T.vars c ∧ ∀ x, v = .data x → act c x)) cs) = some c by convert hf]
    · simp only [layerStep]
      rw [if_pos ⟨hc, ha.1, ha.2⟩]
    · simp only [layerStep]
      rw [if_neg]
      rintro ⟨h1, h2, h3⟩
      exact hne (hS v c' h1 c hc ⟨h2, h3⟩ ha)
  | none =>
    right
    have hn : ∀ c ∈ cs, ¬ Active T act c v := fun c hc ha => by
      have := List.find?_eq_none.1 hf c hc
      rw [decide_eq_true_iff] at this
      exact this ⟨ha.1, ha.2⟩
    refine ⟨hn, ?_, fun c => ?_⟩
    · simp only [layerStep]
      rw [show (List.find? (fun c => decide (v ∈ T.vars c ∧ ∀ x, v = .data x → act c x)) cs) = none by convert hf]
    · simp only [layerStep]
      rw [if_neg]
      rintro ⟨h1, h2, h3⟩
      exact hn c h1 ⟨h2, h3⟩

theorem le_foldl_min {x : Int} : ∀ {l : List Int} {a : Int}, x ≤ l.foldl min a ↔ x ≤ a ∧ ∀ y ∈ l, x ≤ y := by
  intro l
  induction l with
  | nil => intro a; simp
  | cons b l ih =>
    intro a
    rw [List.foldl_cons, ih]
    simp only [List.mem_cons, forall_eq_or_imp, le_min_iff]
    tauto

theorem le_of_foldl_min {l : List Int} {a : Int} : l.foldl min a ≤ a ∧ ∀ y ∈ l, l.foldl min a ≤ y := le_foldl_min.1 (le_refl _)

theorem mag_nonneg (β x : Int) : 0 ≤ mag β x := le_max_right _ _

theorem prod_pm {l : List Int} (h : ∀ x ∈ l, x = 1 ∨ x = -1) : l.prod = 1 ∨ l.prod = -1 := by
  induction l with
  | nil => left; rfl
  | cons a l ih =>
    rw [List.prod_cons]
    rcases h a (by simp) with e | e <;> rcases ih (fun x hx => h x (by simp [hx])) with f | f <;> rw [e, f] <;> simp

theorem prod_erase {l : List Var} {σ : Var → Int} {v : Var} (hv : v ∈ l) (h1 : ∀ v, σ v = 1 ∨ σ v = -1) (hp : (l.map σ).prod = 1) :
    ((l.erase v).map σ).prod = σ v := by
  have := (List.perm_cons_erase hv).map σ |>.prod_eq
  rw [hp, List.map_cons, List.prod_cons] at this
  rcases h1 v with e | e <;> rw [e] at this ⊢ <;> omega

/-- The invariant: messages are between 0 and 31 in the direction of the sent sign, no larger than what the check would send now, and what a check hears of a
variable is at least the received value and the messages of the other checks, up to 96. -/
structure Inv (T : Table) (β : Int) (σ : Var → Int) (o : Var → Int) (s : Soft) : Prop where
  msg0 : ∀ c v, 0 ≤ σ v * s.msg c v
  msg31 : ∀ c v, σ v * s.msg c v ≤ 31
  lo : ∀ v, -128 ≤ s.val v
  hi : ∀ v, s.val v ≤ 127
  grow : ∀ c, ∀ v ∈ T.vars c, ∀ u ∈ (T.vars c).erase v, σ v * s.msg c v ≤ mag β (hear s c u)
  sum : ∀ c v, min 96 (o v + ∑ c' ∈ (range T.R).erase c, σ v * s.msg c' v) ≤ σ v * (s.val v - s.msg c v)

/-- `s'` is further in the direction of the sent signs. -/
def Le (σ : Var → Int) (s s' : Soft) : Prop := (∀ v, σ v * s.val v ≤ σ v * s'.val v) ∧ ∀ c v, σ v * s.msg c v ≤ σ v * s'.msg c v

theorem Le.refl {σ : Var → Int} (s : Soft) : Le σ s s := ⟨fun _ => le_refl _, fun _ _ => le_refl _⟩
theorem Le.trans {σ : Var → Int} {s t u : Soft} (h1 : Le σ s t) (h2 : Le σ t u) : Le σ s u :=
  ⟨fun v => (h1.1 v).trans (h2.1 v), fun c v => (h1.2 c v).trans (h2.2 c v)⟩

section
variable {T : Table} {β : Int} {σ o : Var → Int} {s : Soft}

theorem Inv.nonneg (hI : Inv T β σ o s) (ho : ∀ v, 0 ≤ o v) (c : Nat) (v : Var) : 0 ≤ σ v * (s.val v - s.msg c v) := by
  refine le_trans (le_min (by norm_num) (add_nonneg (ho v) (sum_nonneg fun c' _ => hI.msg0 c' v))) (hI.sum c v)

theorem Inv.hear_eq (hI : Inv T β σ o s) (hσ : Signs T σ) (ho : ∀ v, 0 ≤ o v) (c : Nat) (v : Var) :
    hear s c v = s.val v - s.msg c v ∧ |hear s c v| = σ v * (s.val v - s.msg c v) := by
  have h1 := hI.nonneg ho c v
  have h2 := hI.msg0 c v
  have h3 := hI.lo v
  have h4 := hI.hi v
  unfold hear sat
  rcases hσ.one v with e | e <;> rw [e] at h1 h2 ⊢
  · have : max (-128) (min (s.val v - s.msg c v) 127) = s.val v - s.msg c v := by omega
    rw [this, abs_of_nonneg (by omega)]
    omega
  · have : max (-128) (min (s.val v - s.msg c v) 127) = s.val v - s.msg c v := by omega
    rw [this, abs_of_nonpos (by omega)]
    omega

/-- What a check sends, in the direction of the sent sign. -/
theorem Inv.answer_eq (hI : Inv T β σ o s) (hσ : Signs T σ) (ho : ∀ v, 0 ≤ o v) {c : Nat} (hc : c < T.R) {v : Var} (hv : v ∈ T.vars c) (hβ : 0 ≤ β) :
    σ v * answer T β s c v = (((T.vars c).erase v).map fun u => mag β (hear s c u)).foldl min 31 := by
  have hcomb : σ v * combine β (((T.vars c).erase v).map (hear s c)) = (((T.vars c).erase v).map fun u => mag β (hear s c u)).foldl min 31 := by
    unfold combine
    rw [List.map_map, List.map_map]
    by_cases hz : ∀ u ∈ (T.vars c).erase v, hear s c u ≠ 0
    · have : ((T.vars c).erase v).map (neg ∘ hear s c) = ((T.vars c).erase v).map σ := by
        refine List.map_congr_left fun u hu => ?_
        have h1 := hI.nonneg ho c u
        have h2 := hz u hu
        rw [(hI.hear_eq hσ ho c u).1] at h2
        simp only [Function.comp_apply, neg, (hI.hear_eq hσ ho c u).1]
        rcases hσ.one u with e | e <;> rw [e] at h1 ⊢
        · rw [if_neg (by omega)]
        · rw [if_pos (by omega)]
      rw [this, prod_erase hv hσ.one (hσ.check c hc), ← mul_assoc]
      have : σ v * σ v = 1 := by rcases hσ.one v with e | e <;> rw [e] <;> rfl
      rw [this, one_mul]
      rfl
    · push Not at hz
      obtain ⟨u, hu, h0⟩ := hz
      have : (((T.vars c).erase v).map fun u => mag β (hear s c u)).foldl min 31 = 0 := by
        apply le_antisymm
        · refine le_of_foldl_min.2 0 (List.mem_map.2 ⟨u, hu, ?_⟩)
          rw [h0]
          unfold mag
          simp only [abs_zero]
          omega
        · rw [le_foldl_min]
          refine ⟨by norm_num, fun y hy => ?_⟩
          obtain ⟨u, -, rfl⟩ := List.mem_map.1 hy
          exact mag_nonneg _ _
      have h2 : (((T.vars c).erase v).map (mag β ∘ hear s c)).foldl min 31 = 0 := this
      rw [this, h2, mul_zero, mul_zero]
  have h0 : 0 ≤ (((T.vars c).erase v).map fun u => mag β (hear s c u)).foldl min 31 := by
    rw [le_foldl_min]
    refine ⟨by norm_num, fun y hy => ?_⟩
    obtain ⟨u, -, rfl⟩ := List.mem_map.1 hy
    exact mag_nonneg _ _
  rw [← hcomb] at h0 ⊢
  unfold answer corr
  have hm := hI.msg0 c v
  rcases hσ.one v with e | e <;> rw [e] at h0 hm ⊢
  · rw [if_neg (by omega)]
  · rw [if_neg (by omega)]

variable {act : Nat → Nat → Prop} {cs : List Nat}

theorem Inv.step (hI : Inv T β σ o s) (hσ : Signs T σ) (ho : ∀ v, 0 ≤ o v) (hβ : 0 ≤ β) (h64 : β ≤ 64) (hcs : ∀ c ∈ cs, c < T.R) (hS : Solo T act cs) :
    Inv T β σ o (layerStep T β act s cs) ∧ Le σ s (layerStep T β act s cs) := by
  -- what an active check sends
  have hans : ∀ c ∈ cs, ∀ v ∈ T.vars c, σ v * s.msg c v ≤ σ v * answer T β s c v ∧ σ v * answer T β s c v ≤ 31 ∧
      ∀ u ∈ (T.vars c).erase v, σ v * answer T β s c v ≤ mag β (hear s c u) := by
    intro c hc v hv
    rw [hI.answer_eq hσ ho (hcs c hc) hv hβ]
    refine ⟨?_, le_of_foldl_min.1, fun u hu => le_of_foldl_min.2 _ (List.mem_map.2 ⟨u, hu, rfl⟩)⟩
    rw [le_foldl_min]
    refine ⟨hI.msg31 c v, fun y hy => ?_⟩
    obtain ⟨u, hu, rfl⟩ := List.mem_map.1 hy
    exact hI.grow c v hv u hu
  set s' := layerStep T β act s cs with hs'
  -- one variable
  have key : ∀ v, (σ v * s.val v ≤ σ v * s'.val v) ∧ (∀ c, σ v * s.msg c v ≤ σ v * s'.msg c v ∧ σ v * s'.msg c v ≤ 31) ∧ (-128 ≤ s'.val v ∧ s'.val v ≤ 127) ∧
      (∀ c, min 96 (σ v * (s.val v - s.msg c v)) ≤ σ v * (s'.val v - s'.msg c v)) ∧
      (∀ c, min 96 (o v + ∑ c' ∈ (range T.R).erase c, σ v * s'.msg c' v) ≤ σ v * (s'.val v - s'.msg c v)) := by
    intro v
    rcases layerStep_spec T β s hS v with ⟨c0, hc0, ha, hv, hm, hm'⟩ | ⟨-, hv, hm⟩
    · rw [← hs'] at hv hm hm'
      obtain ⟨a1, a2, -⟩ := hans c0 hc0 v ha.1
      have m0 := hI.msg0 c0 v
      have n0 := hI.nonneg ho c0 v
      have l0 := hI.lo v
      have l1 := hI.hi v
      rw [(hI.hear_eq hσ ho c0 v).1] at hv
      have hval : σ v * s'.val v = min (if σ v = 1 then 127 else 128) (σ v * (s.val v - s.msg c0 v) + σ v * answer T β s c0 v) := by
        rw [hv]
        unfold sat
        rcases hσ.one v with e | e <;> rw [e] at a1 a2 m0 n0 ⊢
        · rw [if_pos rfl]; omega
        · rw [if_neg (by omega)]; omega
      have hM : (127 : Int) ≤ if σ v = 1 then 127 else 128 := by split <;> omega
      have hMv : σ v * s.val v ≤ if σ v = 1 then 127 else 128 := by
        rcases hσ.one v with e | e <;> rw [e]
        · rw [if_pos rfl]; omega
        · rw [if_neg (by omega)]; omega
      generalize (if σ v = 1 then (127 : Int) else 128) = M at hval hM hMv
      rw [mul_sub] at n0 hval
      refine ⟨by omega, fun c => ?_, ?_, fun c => ?_, fun c => ?_⟩
      · by_cases e : c = c0
        · subst e; rw [hm]; exact ⟨a1, a2⟩
        · rw [hm' c e]; exact ⟨le_refl _, hI.msg31 c v⟩
      · rw [hv]; unfold sat; omega
      · rw [mul_sub, mul_sub]
        by_cases e : c = c0
        · subst e; rw [hm]; omega
        · rw [hm' c e]; omega
      · have hs := hI.sum c v
        rw [mul_sub] at hs ⊢
        by_cases e : c = c0
        · subst e
          have : ∑ c' ∈ (range T.R).erase c, σ v * s'.msg c' v = ∑ c' ∈ (range T.R).erase c, σ v * s.msg c' v :=
            sum_congr rfl fun c' hc' => by rw [hm' c' (mem_erase.1 hc').1]
          rw [this, hm]
          omega
        · have hmem : c0 ∈ (range T.R).erase c := mem_erase.2 ⟨Ne.symm e, mem_range.2 (hcs c0 hc0)⟩
          have : ∑ c' ∈ (range T.R).erase c, σ v * s'.msg c' v = ∑ c' ∈ (range T.R).erase c, σ v * s.msg c' v + (σ v * answer T β s c0 v - σ v * s.msg c0 v) := by
            rw [← add_sum_erase _ _ hmem, ← add_sum_erase _ (fun c' => σ v * s.msg c' v) hmem, hm,
              sum_congr rfl fun c' hc' => by rw [hm' c' (mem_erase.1 hc').1]]
            ring
          rw [this, hm' c e]
          have m31 := hI.msg31 c v
          generalize ∑ c' ∈ (range T.R).erase c, σ v * s.msg c' v = S at hs ⊢
          omega
    · rw [← hs'] at hv hm
      refine ⟨by rw [hv], fun c => by rw [hm]; exact ⟨le_refl _, hI.msg31 c v⟩, by rw [hv]; exact ⟨hI.lo v, hI.hi v⟩, fun c => by rw [hv, hm]; exact min_le_right _ _, fun c => ?_⟩
      rw [hv, hm, sum_congr rfl fun c' _ => by rw [hm c']]
      exact hI.sum c v
  have hI0 : ∀ c v, 0 ≤ σ v * s'.msg c v := fun c v => (hI.msg0 c v).trans ((key v).2.1 c).1
  have hle : Le σ s s' := ⟨fun v => (key v).1, fun c v => ((key v).2.1 c).1⟩
  refine ⟨⟨hI0, fun c v => ((key v).2.1 c).2, fun v => (key v).2.2.1.1, fun v => (key v).2.2.1.2, fun c v hv u hu => ?_, fun c v => (key v).2.2.2.2 c⟩, hle⟩
  -- the last messages are not larger than what would be sent now
  have hnew : σ v * s'.msg c v ≤ mag β (hear s c u) := by
    rcases layerStep_spec T β s hS v with ⟨c0, hc0, ha, -, hm, hm'⟩ | ⟨-, -, hm⟩
    · rw [← hs'] at hm hm'
      by_cases e : c = c0
      · subst e; rw [hm]; exact (hans c hc0 v ha.1).2.2 u hu
      · rw [hm' c e]; exact hI.grow c v hv u hu
    · rw [← hs'] at hm; rw [hm]; exact hI.grow c v hv u hu
  have h31 := ((key v).2.1 c).2
  have h4 := (key u).2.2.2.1 c
  have hn' : 0 ≤ σ u * (s'.val u - s'.msg c u) := le_trans (le_min (by norm_num) (hI.nonneg ho c u)) h4
  have habs : σ u * (s'.val u - s'.msg c u) ≤ 128 := by
    have h1 := hI0 c u
    have h2 := (key u).2.2.1
    rcases hσ.one u with e | e <;> rw [e] at h1 ⊢ <;> omega
  have hh : |hear s' c u| = σ u * (s'.val u - s'.msg c u) := by
    have h1 := hI0 c u
    have h2 := (key u).2.2.1
    unfold hear sat
    rcases hσ.one u with e | e <;> rw [e] at h1 hn' ⊢
    · rw [abs_of_nonneg (by omega)]; omega
    · rw [abs_of_nonpos (by omega)]; omega
  unfold mag at hnew ⊢
  rw [(hI.hear_eq hσ ho c u).2] at hnew
  rw [hh]
  omega

/-- A check hears at least the received value and any message of another check. -/
theorem Inv.hear_ge (hI : Inv T β σ o s) (ho : ∀ v, 0 ≤ o v) (c : Nat) (v : Var) :
    min 96 (o v) ≤ σ v * (s.val v - s.msg c v) ∧ ∀ c' < T.R, c' ≠ c → min 96 (σ v * s.msg c' v) ≤ σ v * (s.val v - s.msg c v) := by
  have h := hI.sum c v
  refine ⟨le_trans (min_le_min_left _ ?_) h, fun c' hc' hne => le_trans (min_le_min_left _ ?_) h⟩
  · exact le_add_of_nonneg_right (sum_nonneg fun c' _ => hI.msg0 c' v)
  · refine le_trans ?_ (le_add_of_nonneg_left (ho v))
    exact single_le_sum (f := fun c' => σ v * s.msg c' v) (fun c' _ => hI.msg0 c' v) (mem_erase.2 ⟨hne, mem_range.2 hc'⟩)

/-- A check that hears at least `x + β` of all other variables sends `x`. -/
theorem Inv.send (hI : Inv T β σ o s) (hσ : Signs T σ) (ho : ∀ v, 0 ≤ o v) (hβ : 0 ≤ β) (h64 : β ≤ 64) (hcs : ∀ c ∈ cs, c < T.R) (hS : Solo T act cs) {c : Nat} (hc : c ∈ cs) {v : Var}
    (ha : Active T act c v) {x : Int} (h31 : x ≤ 31) (hx : ∀ u ∈ (T.vars c).erase v, min 96 (x + β) ≤ σ u * (s.val u - s.msg c u)) :
    x ≤ σ v * (layerStep T β act s cs).msg c v := by
  rcases layerStep_spec T β s hS v with ⟨c0, hc0, ha0, -, hm, -⟩ | ⟨h, -⟩
  · obtain rfl := hS v c hc c0 hc0 ha ha0
    rw [hm, hI.answer_eq hσ ho (hcs c hc) ha.1 hβ, le_foldl_min]
    refine ⟨h31, fun y hy => ?_⟩
    obtain ⟨u, hu, rfl⟩ := List.mem_map.1 hy
    unfold mag
    rw [(hI.hear_eq hσ ho c u).2]
    have := hx u hu
    omega
  · exact absurd ha (h c hc)

end
end Verif.LDPC
