import Verif.Polar.FloatList
import Verif.Polar.ListSim
import Verif.Polar.PropsFloat
import Mathlib.Order.WithBot
import Mathlib.Algebra.Order.Monoid.Unbundled.WithTop
/- The pieces shared by the nodes of the two list decoders on floating point numbers. -/
namespace Verif.Polar
open Verif.RS (sb)
variable {L : Nat}

/-! ### Specification -/

/-- A metric and an amount added in the format `F`: the sum is rounded, and is infinite from `F.huge` on. -/
def fadd (F : Rounding) : WithTop ℚ → ℚ → WithTop ℚ
  | ⊤, _ => ⊤
  | (q : ℚ), p => if F.rnd (q + p) < F.huge then ((F.rnd (q + p) : ℚ) : WithTop ℚ) else ⊤

/-- The penalty of deciding for the symbol `b` on the soft value `s`: `|s|` if the signs differ, otherwise 0. -/
def penaltyQ (s : ℚ) (b : Int) : ℚ := max 0 (-(b * s))

/-! ### Metrics -/

/-- The metric as a floating point number. -/
def metFl : WithTop ℚ → Fl
  | ⊤ => .inf false
  | (q : ℚ) => .fin q

/-- A metric is a number of the format that is not negative, or infinite. -/
def MOk (F : Rounding) (μ : WithTop ℚ) : Prop := ∀ q : ℚ, μ = q → 0 ≤ q ∧ F.rep q ∧ q < F.huge

theorem metFl_lt (a b : WithTop ℚ) : Fl.lt (metFl a) (metFl b) = decide (a < b) := by
  cases a with
  | top =>
    cases b with
    | top => simp [metFl, Fl.lt]
    | coe q => simp [metFl, Fl.lt]
  | coe p =>
    cases b with
    | top => simp [metFl, Fl.lt]
    | coe q => simp [metFl, Fl.lt]

theorem metFl_ne (a b : WithTop ℚ) : FlList.ne (metFl a) (metFl b) = decide (a ≠ b) := by
  cases a with
  | top =>
    cases b with
    | top => simp [metFl, FlList.ne]
    | coe q => simp [metFl, FlList.ne]
  | coe p =>
    cases b with
    | top => simp [metFl, FlList.ne]
    | coe q => simp [metFl, FlList.ne]

theorem fadd_coe (F : Rounding) (q p : ℚ) : fadd F (q : WithTop ℚ) p = if F.rnd (q + p) < F.huge then ((F.rnd (q + p) : ℚ) : WithTop ℚ) else ⊤ := rfl

theorem fadd_top (F : Rounding) (p : ℚ) : fadd F ⊤ p = ⊤ := rfl

theorem rnd_le {F : Rounding} {q p : ℚ} (hq : F.rep q) (hp : 0 ≤ p) : q ≤ F.rnd (q + p) := by
  have := F.mono q (q + p) (by linarith)
  rwa [F.exact q hq] at this

theorem fadd_ok {F : Rounding} {μ : WithTop ℚ} {p : ℚ} (h : MOk F μ) (hp : 0 ≤ p) : MOk F (fadd F μ p) ∧ μ ≤ fadd F μ p := by
  cases μ with
  | top => rw [fadd_top]; exact ⟨fun q hq => absurd hq (by simp), le_rfl⟩
  | coe q =>
    obtain ⟨h0, h1, h2⟩ := h q rfl
    have := rnd_le h1 hp
    rw [fadd_coe]
    by_cases hh : F.rnd (q + p) < F.huge
    · rw [if_pos hh]
      refine ⟨fun r hr => ?_, by exact_mod_cast this⟩
      have : F.rnd (q + p) = r := by exact_mod_cast hr
      subst this
      exact ⟨by linarith, F.out _, hh⟩
    · rw [if_neg hh]; exact ⟨fun q hq => absurd hq (by simp), le_top⟩

theorem fadd_zero {F : Rounding} {μ : WithTop ℚ} (h : MOk F μ) : fadd F μ 0 = μ := by
  cases μ with
  | top => rfl
  | coe q =>
    obtain ⟨h0, h1, h2⟩ := h q rfl
    rw [fadd_coe, add_zero, F.exact q h1, if_pos h2]

theorem add_met {F : Rounding} {μ : WithTop ℚ} {s : ℚ} (h : MOk F μ) (hs : 0 ≤ s) : Fl.add F (metFl μ) (.fin s) = metFl (fadd F μ s) := by
  cases μ with
  | top => rfl
  | coe q =>
    obtain ⟨h0, h1, h2⟩ := h q rfl
    have := rnd_le h1 hs
    show Fl.ofQ F (q + s) = _
    unfold Fl.ofQ
    rw [fadd_coe, abs_of_nonneg (by linarith)]
    by_cases hh : F.rnd (q + s) < F.huge
    · rw [if_pos hh, if_pos hh]; rfl
    · rw [if_neg hh, if_neg hh, decide_eq_false (by linarith)]; rfl

theorem sub_met {F : Rounding} {μ : WithTop ℚ} {s : ℚ} (h : MOk F μ) (hs : s ≤ 0) : FlList.sub F (metFl μ) (.fin s) = metFl (fadd F μ (-s)) := add_met h (by linarith)

theorem penaltyQ_nonneg (s : ℚ) (b : Int) : 0 ≤ penaltyQ s b := le_max_left _ _

theorem penaltyQ_one (s : ℚ) : penaltyQ s 1 = max 0 (-s) := by simp [penaltyQ]
theorem penaltyQ_neg (s : ℚ) : penaltyQ s (-1) = max 0 s := by simp [penaltyQ]

/-! ### Loops -/

/-- The metrics of the lanes. -/
def Mets (F : Rounding) (L : Nat) (m : List Fl) (μ : Fin L → WithTop ℚ) : Prop := m.length = L ∧ ∀ k : Fin L, m.getD k .nan = metFl (μ k) ∧ MOk F (μ k)

theorem chargeF_ok {F : Rounding} {v : FlList.FReg L} {σ : Fin L → ℚ} {m : List Fl} {μ : Fin L → WithTop ℚ} (hv : ∀ k, v k = .fin (σ k)) (hm : Mets F L m μ) :
    ∃ m', FlList.charge F v m = some m' ∧ Mets F L m' fun k => fadd F (μ k) (penaltyQ (σ k) 1) := by
  have key : Ok (FlList.charge F v m) (fun m' => m'.length = L ∧ ∀ k : Fin L, m'.getD k .nan = metFl (fadd F (μ k) (penaltyQ (σ k) 1))) := by
    unfold FlList.charge
    refine Ok.mono (forUp_inv (fun j (a : List Fl) => a.length = L ∧ ∀ k : Fin L, a.getD k .nan = metFl (if k.val < j then fadd F (μ k) (penaltyQ (σ k) 1) else μ k))
      (Nat.zero_le _) ⟨hm.1, fun k => by simpa using (hm.2 k).1⟩ ?_) ?_
    · rintro j a _ hj ⟨a1, a2⟩
      rw [lane_of v hj, sb, hv]
      have aj := a2 ⟨j, hj⟩
      have mj := (hm.2 ⟨j, hj⟩).2
      rw [if_neg (lt_irrefl _)] at aj
      dsimp only at aj
      by_cases hs : σ ⟨j, hj⟩ < 0
      · rw [if_pos (by simpa [Fl.lt] using hs), rd_of_lt (by omega), sb, getElem_eq_getD _ .nan, aj, sub_met mj hs.le, wr_of_lt (by omega)]
        refine Ok.some ⟨by rw [List.length_set, a1], fun k => ?_⟩
        rw [getD_set]
        by_cases hk : j = k.val
        · subst hk
          rw [if_pos ⟨rfl, by omega⟩, if_pos (by omega), penaltyQ_one, max_eq_right (by linarith)]
        · rw [if_neg (by tauto), a2 k]
          by_cases h : k.val < j
          · rw [if_pos h, if_pos (by omega)]
          · rw [if_neg h, if_neg (by omega)]
      · rw [if_neg (by simpa [Fl.lt] using hs)]
        refine Ok.some ⟨a1, fun k => ?_⟩
        rw [a2 k]
        by_cases hk : j = k.val
        · subst hk
          rw [if_neg (lt_irrefl _), if_pos (by omega), penaltyQ_one, max_eq_left (by push Not at hs; linarith), fadd_zero mj]
        · by_cases h : k.val < j
          · rw [if_pos h, if_pos (by omega)]
          · rw [if_neg h, if_neg (by omega)]
    · rintro a ⟨a1, a2⟩
      exact ⟨a1, fun k => by rw [a2 k, if_pos k.isLt]⟩
  obtain ⟨m', e, h1, h2⟩ := key
  exact ⟨m', e, h1, fun k => ⟨h2 k, (fadd_ok (hm.2 k).2 (penaltyQ_nonneg _ _)).1⟩⟩

/-- The loop over the soft values of a frozen node. -/
def chargeAllF (F : Rounding) (n : Nat) (s : List (FlList.FReg L)) (m : List Fl) : Option (List Fl) := forUp 0 n m fun i m => do
  let v ← rd s i
  FlList.charge F v m

theorem chargeAllF_ok {F : Rounding} {n : Nat} {s : List (FlList.FReg L)} {σ : Fin L → Nat → ℚ} {m : List Fl} {μ : Fin L → WithTop ℚ} (hs : s.length = n) (d : FlList.FReg L)
    (hv : ∀ k i, i < n → s.getD i d k = .fin (σ k i)) (hm : Mets F L m μ) :
    ∃ m', chargeAllF F n s m = some m' ∧ Mets F L m' fun k => ((List.range n).map (σ k)).foldl (fun μ s => fadd F μ (penaltyQ s 1)) (μ k) := by
  have key : Ok (chargeAllF F n s m) (fun m' => Mets F L m' fun k => ((List.range n).map (σ k)).foldl (fun μ s => fadd F μ (penaltyQ s 1)) (μ k)) := by
    unfold chargeAllF
    refine forUp_inv (fun j (a : List Fl) => Mets F L a fun k => ((List.range j).map (σ k)).foldl (fun μ s => fadd F μ (penaltyQ s 1)) (μ k))
      (Nat.zero_le _) hm ?_
    rintro j a _ hj h
    rw [rd_of_lt (by omega), sb, getElem_eq_getD _ d]
    obtain ⟨m', e, h1⟩ := chargeF_ok (fun k => hv k j hj) h
    rw [e]
    refine Ok.some ?_
    simp only [List.range_succ, List.map_append, List.foldl_append, List.map_cons, List.map_nil, List.foldl_cons, List.foldl_nil]
    exact h1
  obtain ⟨m', e, h⟩ := key
  exact ⟨m', e, h⟩

theorem forkF_ok {F : Rounding} {v : FlList.FReg L} {σ : Fin L → ℚ} {m : List Fl} {μ : Fin L → WithTop ℚ} (hv : ∀ k, v k = .fin (σ k)) (hm : Mets F L m μ) :
    ∃ f, FlList.fork F v m = some f ∧ f.length = 2 * L ∧ ∀ k : Fin L, f.getD (2 * k) .nan = metFl (fadd F (μ k) (penaltyQ (σ k) 1)) ∧
      f.getD (2 * k + 1) .nan = metFl (fadd F (μ k) (penaltyQ (σ k) (-1))) := by
  have key : Ok (FlList.fork F v m) (fun f => f.length = 2 * L ∧ ∀ k : Fin L, f.getD (2 * k) .nan = metFl (fadd F (μ k) (penaltyQ (σ k) 1)) ∧
      f.getD (2 * k + 1) .nan = metFl (fadd F (μ k) (penaltyQ (σ k) (-1)))) := by
    unfold FlList.fork
    refine Ok.bind' (forUp_inv (fun j (a : List Fl) => a.length = 2 * L ∧ ∀ k, k < j → a.getD (2 * k) .nan = m.getD k .nan ∧ a.getD (2 * k + 1) .nan = m.getD k .nan)
      (Nat.zero_le _) ⟨by simp, fun k hk => by omega⟩ ?_) ?_
    · rintro j a _ hj ⟨a1, a2⟩
      have := hm.1
      rw [rd_of_lt (by omega), sb, getElem_eq_getD _ .nan, wr_of_lt (by omega), sb, wr_of_lt (by rw [List.length_set]; omega)]
      refine Ok.some ⟨by simp [a1], fun k hk => ?_⟩
      simp only [getD_set, List.length_set]
      by_cases h : k = j
      · subst h
        rw [if_neg (by omega), if_pos (by omega), if_pos (by omega)]
        exact ⟨rfl, rfl⟩
      · rw [if_neg (by omega), if_neg (by omega), if_neg (by omega), if_neg (by omega)]
        exact a2 k (by omega)
    · rintro a ⟨a1, a2⟩
      refine Ok.mono (forUp_inv (fun j (f : List Fl) => f.length = 2 * L ∧ ∀ k : Fin L,
        f.getD (2 * k) .nan = metFl (if k.val < j then fadd F (μ k) (penaltyQ (σ k) 1) else μ k) ∧
        f.getD (2 * k + 1) .nan = metFl (if k.val < j then fadd F (μ k) (penaltyQ (σ k) (-1)) else μ k))
        (Nat.zero_le _) ⟨a1, fun k => by
          rw [if_neg (Nat.not_lt_zero _), if_neg (Nat.not_lt_zero _), ← (hm.2 k).1]; exact a2 k k.isLt⟩ ?_) ?_
      · rintro j f _ hj ⟨f1, f2⟩
        rw [lane_of v hj, sb, hv]
        have fj := f2 ⟨j, hj⟩
        have mj := (hm.2 ⟨j, hj⟩).2
        rw [if_neg (lt_irrefl _), if_neg (lt_irrefl _)] at fj
        dsimp only at fj
        have split : ∀ (k : Fin L), k.val ≠ j → ∀ x y : WithTop ℚ, (if k.val < j then x else y) = (if k.val < j + 1 then x else y) := by
          intro k hk x y
          by_cases h : k.val < j
          · rw [if_pos h, if_pos (by omega)]
          · rw [if_neg h, if_neg (by omega)]
        by_cases hs : σ ⟨j, hj⟩ < 0
        · rw [if_pos (by simpa [Fl.lt] using hs), rd_of_lt (by omega), sb, getElem_eq_getD _ .nan, fj.1, sub_met mj hs.le, wr_of_lt (by omega)]
          refine Ok.some ⟨by rw [List.length_set, f1], fun k => ?_⟩
          simp only [getD_set]
          by_cases hk : k.val = j
          · subst hk
            rw [if_pos (show 2 * k.val = 2 * k.val ∧ 2 * k.val < f.length by omega), if_neg (show ¬ (2 * k.val = 2 * k.val + 1 ∧ 2 * k.val < f.length) by omega),
              if_pos (by omega), if_pos (by omega), fj.2, penaltyQ_one, penaltyQ_neg]
            dsimp only [Fin.eta] at hs mj ⊢
            rw [max_eq_right (by linarith), max_eq_left hs.le, fadd_zero mj]
            exact ⟨rfl, rfl⟩
          · rw [if_neg (show ¬ (2 * j = 2 * k.val ∧ 2 * j < f.length) by omega), if_neg (show ¬ (2 * j = 2 * k.val + 1 ∧ 2 * j < f.length) by omega), ← split k hk, ← split k hk]
            exact f2 k
        · rw [if_neg (by simpa [Fl.lt] using hs), rd_of_lt (by omega), sb, getElem_eq_getD _ .nan, fj.2, add_met mj (by linarith), wr_of_lt (by omega)]
          refine Ok.some ⟨by rw [List.length_set, f1], fun k => ?_⟩
          simp only [getD_set]
          by_cases hk : k.val = j
          · subst hk
            rw [if_neg (show ¬ (2 * k.val + 1 = 2 * k.val ∧ 2 * k.val + 1 < f.length) by omega), if_pos (show 2 * k.val + 1 = 2 * k.val + 1 ∧ 2 * k.val + 1 < f.length by omega),
              if_pos (by omega), if_pos (by omega), fj.1, penaltyQ_one, penaltyQ_neg]
            dsimp only [Fin.eta] at hs mj ⊢
            rw [max_eq_left (by linarith), max_eq_right (by linarith), fadd_zero mj]
            exact ⟨rfl, rfl⟩
          · rw [if_neg (show ¬ (2 * j + 1 = 2 * k.val ∧ 2 * j + 1 < f.length) by omega), if_neg (show ¬ (2 * j + 1 = 2 * k.val + 1 ∧ 2 * j + 1 < f.length) by omega), ← split k hk, ← split k hk]
            exact f2 k
      · rintro f ⟨f1, f2⟩
        exact ⟨f1, fun k => by have := f2 k; rwa [if_pos k.isLt, if_pos k.isLt] at this⟩
  obtain ⟨f, e, h1, h2⟩ := key
  exact ⟨f, e, h1, h2⟩

/-! ### Sorting -/

theorem rd_map {α β : Type} (g : α → β) (a : List α) (i : Nat) : rd (a.map g) i = (rd a i).map g := by
  unfold rd; exact List.getElem?_map

theorem wr_map {α β : Type} (g : α → β) (a : List α) (i : Nat) (x : α) : wr (a.map g) i (g x) = (wr a i x).map (List.map g) := by
  unfold wr
  by_cases h : i < a.length
  · rw [if_pos (by simpa using h), if_pos h]; simp [List.map_set]
  · rw [if_neg (by simpa using h), if_neg h]; rfl

theorem shiftLoop2_map {α β ι : Type} {g : α → β} {lt : β → β → Bool} {lt' : α → α → Bool} (h : ∀ a b, lt (g a) (g b) = lt' a b) (t : α) :
    ∀ (j : Nat) (s : List ι × List α), Verif.Sort.shiftLoop2 lt (g t) j (s.1, s.2.map g) = (Verif.Sort.shiftLoop2 lt' t j s).map fun r => ((r.1.1, r.1.2.map g), r.2) := by
  intro j
  induction j with
  | zero => intro s; rfl
  | succ j ih =>
    rintro ⟨p, a⟩
    simp only [Verif.Sort.shiftLoop2]
    rw [rd_map]
    cases rd a j with
    | none => rfl
    | some y =>
      simp only [Option.map_some, Option.bind_eq_bind, Option.bind_some, h]
      split
      · rw [wr_map]
        cases wr a (j + 1) y with
        | none => rfl
        | some a' =>
          simp only [Option.map_some, Option.bind_some]
          cases rd p j with
          | none => rfl
          | some q =>
            simp only [Option.bind_some]
            cases wr p (j + 1) q with
            | none => rfl
            | some p' => simp only [Option.bind_some]; exact ih (p', a')
      · rfl

theorem forN_map {σ τ : Type} (g : σ → τ) {f : Nat → σ → Option σ} {f' : Nat → τ → Option τ} (h : ∀ i s, f' i (g s) = (f i s).map g) :
    ∀ n i s, forN n i (g s) f' = (forN n i s f).map g := by
  intro n
  induction n with
  | zero => intro i s; rfl
  | succ n ih =>
    intro i s
    simp only [forN]
    rw [h]
    cases f i s with
    | none => rfl
    | some s' => exact ih _ _

theorem insertionSortIdx_map {α β ι : Type} {g : α → β} {lt : β → β → Bool} {lt' : α → α → Bool} (h : ∀ a b, lt (g a) (g b) = lt' a b) (idx : Nat → ι) (p : List ι) (a : List α) (n : Nat) :
    Verif.Sort.insertionSortIdx lt idx p (a.map g) n = (Verif.Sort.insertionSortIdx lt' idx p a n).map fun r => (r.1, r.2.map g) := by
  unfold Verif.Sort.insertionSortIdx
  cases wr p 0 (idx 0) with
  | none => rfl
  | some p =>
    simp only [Option.bind_eq_bind, Option.bind_some]
    refine forN_map (fun r : List ι × List α => (r.1, r.2.map g)) (fun i s => ?_) _ _ (p, a)
    obtain ⟨p, a⟩ := s
    dsimp only
    rw [rd_map]
    cases rd a i with
    | none => rfl
    | some t =>
      simp only [Option.map_some, Option.bind_some]
      rw [shiftLoop2_map h t i (p, a)]
      cases Verif.Sort.shiftLoop2 lt' t i (p, a) with
      | none => rfl
      | some r =>
        obtain ⟨⟨p, a⟩, j⟩ := r
        simp only [Option.map_some, Option.bind_some]
        rw [wr_map]
        cases wr a j t with
        | none => rfl
        | some a =>
          simp only [Option.map_some, Option.bind_some]
          cases wr p j (idx i) with
          | none => rfl
          | some p => rfl

end Verif.Polar
