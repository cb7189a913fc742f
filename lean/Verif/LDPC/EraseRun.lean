import Verif.LDPC.Erase
/- Sequences of layers on the erasure channel: peeling and stopping sets. -/
namespace Verif.LDPC
open Finset

/-- Steps of message passing: each with its turns and its checks. -/
abbrev Steps := List ((Nat → Nat → Prop) × List Nat)

/-- A sequence of steps. -/
noncomputable def runs (T : Table) (β : Int) (ls : Steps) (s : Soft) : Soft := ls.foldl (fun s p => layerStep T β p.1 s p.2) s

def Good (T : Table) (ls : Steps) : Prop := ∀ p ∈ ls, (∀ c ∈ p.2, c < T.R) ∧ Solo T p.1 p.2

/-- Every check sends to each of its variables at least once. -/
def Full (T : Table) (ls : Steps) : Prop := ∀ c < T.R, ∀ v ∈ T.vars c, ∃ p ∈ ls, c ∈ p.2 ∧ Active T p.1 c v

/-- The variables known after `ℓ` rounds of peeling: those that are not erased, and those that are the only unknown of a check. -/
def Within (T : Table) (E : Var → Prop) : Nat → Var → Prop
  | 0, v => ¬ E v
  | ℓ + 1, v => Within T E ℓ v ∨ ∃ c < T.R, v ∈ T.vars c ∧ ∀ u ∈ (T.vars c).erase v, Within T E ℓ u

theorem Within.mono {T : Table} {E : Var → Prop} {v : Var} {k ℓ : Nat} (h : k ≤ ℓ) (hk : Within T E k v) : Within T E ℓ v := by
  induction ℓ with
  | zero => rwa [Nat.le_zero.1 h] at hk
  | succ ℓ ih =>
    rcases Nat.lt_or_ge k (ℓ + 1) with e | e
    · exact Or.inl (ih (by omega))
    · rwa [show k = ℓ + 1 by omega] at hk

section
variable {T : Table} {β : Int} {σ o : Var → Int} {s : Soft}

theorem runs_append (l1 l2 : Steps) : runs T β (l1 ++ l2) s = runs T β l2 (runs T β l1 s) := List.foldl_append

theorem runs_inv (hσ : Signs T σ) (ho : ∀ v, 0 ≤ o v) (hβ : 0 ≤ β) (h64 : β ≤ 64) : ∀ (ls : Steps) (s : Soft), Good T ls → Inv T β σ o s →
    Inv T β σ o (runs T β ls s) ∧ Le σ s (runs T β ls s) := by
  intro ls
  induction ls with
  | nil => intro s _ hI; exact ⟨hI, Le.refl s⟩
  | cons p ls ih =>
    intro s hg hI
    obtain ⟨h1, h2⟩ := hg p (by simp)
    obtain ⟨h3, h4⟩ := hI.step hσ ho hβ h64 h1 h2
    obtain ⟨h5, h6⟩ := ih _ (fun p hp => hg p (by simp [hp])) h3
    exact ⟨h5, h4.trans h6⟩

theorem runs_send (hσ : Signs T σ) (ho : ∀ v, 0 ≤ o v) (hβ : 0 ≤ β) (h64 : β ≤ 64) {ls : Steps} (hg : Good T ls) (hI : Inv T β σ o s) {c : Nat} {v : Var}
    (hp : ∃ p ∈ ls, c ∈ p.2 ∧ Active T p.1 c v) {x : Int} (h31 : x ≤ 31)
    (hx : ∀ t, Inv T β σ o t → Le σ s t → ∀ u ∈ (T.vars c).erase v, min 96 (x + β) ≤ σ u * (t.val u - t.msg c u)) :
    x ≤ σ v * (runs T β ls s).msg c v := by
  obtain ⟨p, hp, hc, ha⟩ := hp
  obtain ⟨l1, l2, rfl⟩ := List.append_of_mem hp
  rw [runs_append]
  obtain ⟨h1, h2⟩ := runs_inv hσ ho hβ h64 l1 s (fun q hq => hg q (by simp [hq])) hI
  obtain ⟨g1, g2⟩ := hg p (by simp)
  have h3 := h1.send hσ ho hβ h64 g1 g2 hc ha h31 (hx _ h1 h2)
  obtain ⟨h4, -⟩ := h1.step hσ ho hβ h64 g1 g2
  exact h3.trans ((runs_inv hσ ho hβ h64 l2 _ (fun q hq => hg q (by simp [hq])) h4).2.2 c v)

/-- Where a known variable comes from: it was received, or a check of which it was the only unknown has sent it at least `x`. -/
def Source (T : Table) (E : Var → Prop) (σ : Var → Int) (s : Soft) (ℓ : Nat) (x : Int) : Prop :=
  ∀ v, Within T E ℓ v → ¬ E v ∨ ∃ c < T.R, ∃ k < ℓ, v ∈ T.vars c ∧ (∀ u ∈ (T.vars c).erase v, Within T E k u) ∧ x ≤ σ v * s.msg c v

theorem source_round {E : Var → Prop} (hσ : Signs T σ) (ho : ∀ v, 0 ≤ o v) (hβ : 0 ≤ β) (h64 : β ≤ 64) {ls : Steps} (hg : Good T ls) (hf : Full T ls) (hI : Inv T β σ o s)
    {ℓ : Nat} {x : Int} (h31 : x ≤ 31) (hE : ∀ c < T.R, ∀ v ∈ T.vars c, ¬ E v → x + β ≤ o v) (hs : Source T E σ s ℓ (x + β)) : Source T E σ (runs T β ls s) (ℓ + 1) x := by
  classical
  have hle := (runs_inv hσ ho hβ h64 ls s hg hI).2
  intro v hv
  by_cases hk : Within T E ℓ v
  · rcases hs v hk with h | ⟨c, hc, k, hkl, h1, h2, h3⟩
    · exact Or.inl h
    · exact Or.inr ⟨c, hc, k, by omega, h1, h2, by have := hle.2 c v; omega⟩
  · obtain ⟨c, hc, hvc, hu⟩ := hv.resolve_left hk
    refine Or.inr ⟨c, hc, ℓ, by omega, hvc, hu, runs_send hσ ho hβ h64 hg hI (hf c hc v hvc) h31 fun t ht hst u huc => ?_⟩
    have hge := ht.hear_ge ho c u
    rcases hs u (hu u huc) with h | ⟨c', hc', k, hkl, h1, h2, h3⟩
    · exact le_trans (min_le_min_left _ (hE c hc u (List.mem_of_mem_erase huc) h)) hge.1
    · have hne : c' ≠ c := by
        rintro rfl
        have huv : v ≠ u := by rintro rfl; exact hk (hu v huc)
        exact hk ((h2 v ((List.mem_erase_of_ne huv).2 hvc)).mono (by omega))
      have := hst.2 c' u
      exact le_trans (min_le_min_left _ (by omega)) (hge.2 c' hc' hne)

/-- A variable with a source has a value of the right sign. -/
theorem source_pos {E : Var → Prop} (ho : ∀ v, 0 ≤ o v) (hI : Inv T β σ o s) {ℓ : Nat} {x : Int} (hx : 1 ≤ x) (hs : Source T E σ s ℓ x) {v : Var} (hE : ¬ E v → 1 ≤ o v)
    (hv : Within T E ℓ v) : 0 < σ v * s.val v := by
  rcases hs v hv with h | ⟨c, hc, -, -, -, -, h3⟩
  · have h1 := (hI.hear_ge ho 0 v).1
    have h2 := hI.msg0 0 v
    have h3 := hE h
    rw [mul_sub] at h1
    omega
  · have h1 := (hI.hear_ge ho (c + 1) v).2 c hc (by omega)
    have h2 := hI.msg0 (c + 1) v
    rw [mul_sub] at h1
    omega

/-- A sequence of states, in which each state comes from the one before by steps, and in each `G` steps in a row every check sends to each of its variables. -/
structure Prog (T : Table) (β : Int) (G : Nat) (S : Nat → Soft) : Prop where
  next : ∀ m, ∃ ls, Good T ls ∧ S (m + 1) = runs T β ls (S m)
  full : ∀ m, ∃ ls, Good T ls ∧ Full T ls ∧ S (m + G) = runs T β ls (S m)

variable {S : Nat → Soft} {G : Nat}

theorem prog_inv (hσ : Signs T σ) (ho : ∀ v, 0 ≤ o v) (hβ : 0 ≤ β) (h64 : β ≤ 64) (hP : Prog T β G S) (h0 : Inv T β σ o (S 0)) (m : Nat) :
    Inv T β σ o (S m) ∧ ∀ k ≤ m, Le σ (S k) (S m) := by
  induction m with
  | zero => exact ⟨h0, fun k hk => by rw [Nat.le_zero.1 hk]; exact Le.refl _⟩
  | succ m ih =>
    obtain ⟨ls, hg, e⟩ := hP.next m
    obtain ⟨h1, h2⟩ := runs_inv hσ ho hβ h64 ls _ hg ih.1
    rw [← e] at h1 h2
    refine ⟨h1, fun k hk => ?_⟩
    rcases Nat.lt_or_ge k (m + 1) with e | e
    · exact (ih.2 k (by omega)).trans h2
    · rw [show k = m + 1 by omega]; exact Le.refl _

theorem prog_filled {E : Var → Prop} (hσ : Signs T σ) (ho : ∀ v, 0 ≤ o v) (hβ : 0 ≤ β) (h64 : β ≤ 64) (hP : Prog T β G S) (h0 : Inv T β σ o (S 0)) {L : Nat}
    (hE : ∀ c < T.R, ∀ v ∈ T.vars c, ¬ E v → 1 + L * β ≤ o v) (hL : (L - 1 : Int) * β ≤ 30) :
    ∀ ℓ ≤ L, Source T E σ (S (ℓ * G)) ℓ (1 + (L - ℓ : Int) * β) := by
  intro ℓ
  induction ℓ with
  | zero => intro _ v hv; exact Or.inl hv
  | succ ℓ ih =>
    intro hl
    have h1 := ih (by omega)
    obtain ⟨ls, hg, hf, e⟩ := hP.full (ℓ * G)
    rw [Nat.succ_mul, e]
    have e2 : 1 + (L - ℓ : Int) * β = 1 + (L - (ℓ + 1 : Nat) : Int) * β + β := by push_cast; ring
    rw [e2] at h1
    have hcast : (ℓ : Int) + 1 ≤ L := by exact_mod_cast hl
    refine source_round hσ ho hβ h64 hg hf (prog_inv hσ ho hβ h64 hP h0 _).1 ?_ (fun c hc v hv hn => le_trans ?_ (hE c hc v hv hn)) h1
    · have : (L - (ℓ + 1 : Nat) : Int) * β ≤ (L - 1 : Int) * β := mul_le_mul_of_nonneg_right (by push_cast; omega) hβ
      linarith
    · rw [← e2]
      have : (L - ℓ : Int) * β ≤ L * β := mul_le_mul_of_nonneg_right (by omega) hβ
      linarith

/-! ### Stopping sets -/

/-- Every check with a variable in `Z` has another one in `Z`. -/
def Stopping (T : Table) (Z : Var → Prop) : Prop := ∀ c < T.R, ∀ v ∈ T.vars c, Z v → ∃ u ∈ (T.vars c).erase v, Z u

def Zero (Z : Var → Prop) (s : Soft) : Prop := ∀ v, Z v → s.val v = 0 ∧ ∀ c, s.msg c v = 0

theorem zero_step {Z : Var → Prop} (hZ : Stopping T Z) (hβ : 0 ≤ β) (hs : Zero Z s) {act : Nat → Nat → Prop} {cs : List Nat} (hcs : ∀ c ∈ cs, c < T.R) (hS : Solo T act cs) :
    Zero Z (layerStep T β act s cs) := by
  intro v hv
  obtain ⟨h1, h2⟩ := hs v hv
  rcases layerStep_spec T β s hS v with ⟨c, hc, ha, e1, e2, e3⟩ | ⟨-, e1, e2⟩
  · have hans : answer T β s c v = 0 := by
      obtain ⟨u, hu, hz⟩ := hZ c (hcs c hc) v ha.1 hv
      obtain ⟨g1, g2⟩ := hs u hz
      have hh : hear s c u = 0 := by unfold hear sat; rw [g1, g2]; rfl
      have hf : (((T.vars c).erase v).map (hear s c) |>.map (mag β)).foldl min 31 = 0 := by
        apply le_antisymm
        · refine le_of_foldl_min.2 0 ?_
          rw [List.map_map]
          refine List.mem_map.2 ⟨u, hu, ?_⟩
          simp only [Function.comp_apply, hh, mag, abs_zero]
          omega
        · rw [le_foldl_min]
          refine ⟨by norm_num, fun y hy => ?_⟩
          obtain ⟨u, -, rfl⟩ := List.mem_map.1 hy
          exact mag_nonneg _ _
      unfold answer corr combine
      rw [hf, mul_zero]
      split <;> rfl
    rw [e1, hans]
    refine ⟨?_, fun c' => ?_⟩
    · unfold hear sat
      rw [h1, h2]
      rfl
    · by_cases e : c' = c
      · rw [e, e2, hans]
      · rw [e3 c' e, h2]
  · exact ⟨by rw [e1, h1], fun c => by rw [e2, h2]⟩

theorem zero_run {Z : Var → Prop} (hZ : Stopping T Z) (hβ : 0 ≤ β) : ∀ (ls : Steps) (s : Soft), Good T ls → Zero Z s → Zero Z (runs T β ls s) := by
  intro ls
  induction ls with
  | nil => intro s _ h; exact h
  | cons p ls ih => intro s hg h; exact ih _ (fun q hq => hg q (by simp [hq])) (zero_step hZ hβ h (hg p (by simp)).1 (hg p (by simp)).2)

theorem prog_zero {Z : Var → Prop} (hZ : Stopping T Z) (hβ : 0 ≤ β) (hP : Prog T β G S) (h0 : Zero Z (S 0)) (m : Nat) : Zero Z (S m) := by
  induction m with
  | zero => exact h0
  | succ m ih =>
    obtain ⟨ls, hg, e⟩ := hP.next m
    rw [e]
    exact zero_run hZ hβ ls _ hg ih

end
end Verif.LDPC
