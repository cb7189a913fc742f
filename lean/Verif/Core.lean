/-
Core of the model: how the fragment of C++ used by the library is rendered in Lean.

* An array (pointer + extent) is a `List`.  Reading or writing outside its extent is the
  outcome `none` of the `Option` monad.  A failed `assert` is `none` too.  So is running
  out of fuel in a `while` loop that is modelled with fuel.  We call `none` "UB".
* `for` loops with a counter are structural recursions (`forUp`, `forDown`).
* `Ok x P` says: `x` is not UB and its value satisfies `P` (total correctness).
-/
namespace Verif

universe u v
variable {α : Type u} {β : Type v} {σ : Type u}

/-- Array read `a[i]`; out of bounds is UB. -/
def rd (a : List α) (i : Nat) : Option α := a[i]?

/-- Array write `a[i] = v`; out of bounds is UB. -/
def wr (a : List α) (i : Nat) (v : α) : Option (List α) :=
  if i < a.length then some (a.set i v) else none

/-- Array read with a possibly negative (C++ `int`) index. -/
def rdZ (a : List α) (i : Int) : Option α := if i < 0 then none else a[i.toNat]?

/-- Array write with a possibly negative (C++ `int`) index. -/
def wrZ (a : List α) (i : Int) (v : α) : Option (List α) :=
  if i < 0 then none else wr a i.toNat v

/-- C++ `assert(b)`. -/
def assertUB (b : Prop) [Decidable b] : Option Unit := if b then some () else none

/-- `n` iterations, the counter starting at `i` and going up. -/
def forN : Nat → Nat → σ → (Nat → σ → Option σ) → Option σ
  | 0, _, s, _ => some s
  | n + 1, i, s, f => (f i s).bind fun s' => forN n (i + 1) s' f

/-- `for (int i = lo; i < hi; ++i) s = f(i, s);` -/
def forUp (lo hi : Nat) (s : σ) (f : Nat → σ → Option σ) : Option σ :=
  forN (hi - lo) lo s f

/-- `for (int i = lo+n-1; i >= lo; --i) s = f(i, s);` -/
def forDown (lo : Nat) : Nat → σ → (Nat → σ → Option σ) → Option σ
  | 0, s, _ => some s
  | n + 1, s, f => (f (lo + n) s).bind fun s' => forDown lo n s' f

/-- A `while (cond(s)) s = body(s);` loop with fuel; running out of fuel is UB
(non-termination). -/
def whileF : Nat → (σ → Bool) → (σ → Option σ) → σ → Option σ
  | 0, _, _, _ => none
  | k + 1, c, f, s => if c s then (f s).bind fun s' => whileF k c f s' else some s

/-- `x` is defined behaviour and its result satisfies `P`. -/
def Ok (x : Option α) (P : α → Prop) : Prop := ∃ a, x = some a ∧ P a

theorem Ok.some {a : α} {P : α → Prop} (h : P a) : Ok (some a) P := ⟨a, rfl, h⟩

theorem Ok.pure {a : α} {P : α → Prop} (h : P a) : Ok (Pure.pure a) P := ⟨a, rfl, h⟩

theorem Ok.mono {x : Option α} {P Q : α → Prop} (h : Ok x P) (hPQ : ∀ a, P a → Q a) :
    Ok x Q := by
  obtain ⟨a, ha, hp⟩ := h; exact ⟨a, ha, hPQ a hp⟩

theorem Ok.bind {x : Option α} {f : α → Option β} {P : α → Prop} {Q : β → Prop}
    (h : Ok x P) (hf : ∀ a, P a → Ok (f a) Q) : Ok (x.bind f) Q := by
  obtain ⟨a, rfl, hp⟩ := h; exact hf a hp

theorem Ok.bind' {α β : Type u} {x : Option α} {f : α → Option β} {P : α → Prop}
    {Q : β → Prop} (h : Ok x P) (hf : ∀ a, P a → Ok (f a) Q) : Ok (x >>= f) Q := by
  obtain ⟨a, rfl, hp⟩ := h; exact hf a hp

theorem Ok.map {x : Option α} {f : α → β} {P : α → Prop} {Q : β → Prop}
    (h : Ok x P) (hf : ∀ a, P a → Q (f a)) : Ok (x.map f) Q := by
  obtain ⟨a, rfl, hp⟩ := h; exact ⟨f a, rfl, hf a hp⟩

theorem Ok.eq_some {x : Option α} {a : α} : Ok x (· = a) ↔ x = Option.some a := by
  constructor
  · rintro ⟨b, rfl, rfl⟩; rfl
  · rintro rfl; exact ⟨a, rfl, rfl⟩

theorem Ok.rd {a : List α} {i : Nat} {P : α → Prop} (h : i < a.length) (hp : P a[i]) :
    Ok (rd a i) P := ⟨a[i], by simp [Verif.rd, h], hp⟩

theorem Ok.wr {a : List α} {i : Nat} {v : α} {P : List α → Prop} (h : i < a.length)
    (hp : P (a.set i v)) : Ok (wr a i v) P := ⟨a.set i v, by simp [Verif.wr, h], hp⟩

theorem Ok.assertUB {b : Prop} [Decidable b] {P : Unit → Prop} (h : b) (hp : P ()) :
    Ok (assertUB b) P := ⟨(), by simp [Verif.assertUB, h], hp⟩

@[simp] theorem rd_of_lt {a : List α} {i : Nat} (h : i < a.length) : rd a i = some a[i] := by
  simp [rd, h]

@[simp] theorem wr_of_lt {a : List α} {i : Nat} {v : α} (h : i < a.length) :
    wr a i v = some (a.set i v) := by
  simp [wr, h]

theorem forN_inv {f : Nat → σ → Option σ} (Inv : Nat → σ → Prop) :
    ∀ (n i : Nat) (s : σ), Inv i s →
      (∀ j s, i ≤ j → j < i + n → Inv j s → Ok (f j s) (Inv (j + 1))) →
      Ok (forN n i s f) (Inv (i + n)) := by
  intro n
  induction n with
  | zero => intro i s h _; exact ⟨s, rfl, h⟩
  | succ n ih =>
    intro i s h hs
    refine Ok.bind (hs i s (Nat.le_refl _) (by omega) h) fun s' hs' => ?_
    have := ih (i + 1) s' hs' (fun j t hj hj' => hs j t (by omega) (by omega))
    rwa [show i + 1 + n = i + (n + 1) by omega] at this

/-- Loop rule for `forUp`. -/
theorem forUp_inv {f : Nat → σ → Option σ} (Inv : Nat → σ → Prop) {lo hi : Nat} {s : σ}
    (hle : lo ≤ hi) (h0 : Inv lo s)
    (hs : ∀ j s, lo ≤ j → j < hi → Inv j s → Ok (f j s) (Inv (j + 1))) :
    Ok (forUp lo hi s f) (Inv hi) := by
  have := forN_inv (f := f) Inv (hi - lo) lo s h0
    (fun j t h1 h2 h3 => hs j t h1 (by omega) h3)
  rwa [show lo + (hi - lo) = hi by omega] at this

theorem forUp_ge {f : Nat → σ → Option σ} {lo hi : Nat} {s : σ} (h : hi ≤ lo) :
    forUp lo hi s f = some s := by
  simp [forUp, Nat.sub_eq_zero_of_le h, forN]

/-- Loop rule for `forDown`: `Inv k` holds when the indices `≥ lo + k` have been done. -/
theorem forDown_inv {f : Nat → σ → Option σ} (Inv : Nat → σ → Prop) {lo : Nat} :
    ∀ (n : Nat) (s : σ), Inv n s →
      (∀ j s, j < n → Inv (j + 1) s → Ok (f (lo + j) s) (Inv j)) →
      Ok (forDown lo n s f) (Inv 0) := by
  intro n
  induction n with
  | zero => intro s h _; exact ⟨s, rfl, h⟩
  | succ n ih =>
    intro s h hs
    refine Ok.bind (hs n s (by omega) h) fun s' hs' => ?_
    exact ih s' hs' (fun j t hj ht => hs j t (by omega) ht)

/-- Loop rule for `whileF` with a decreasing measure bounded by the fuel. -/
theorem whileF_inv {c : σ → Bool} {f : σ → Option σ} (Inv : σ → Prop) (μ : σ → Nat)
    (hs : ∀ s, Inv s → c s = true → Ok (f s) (fun s' => Inv s' ∧ μ s' < μ s)) :
    ∀ (k : Nat) (s : σ), Inv s → μ s < k →
      Ok (whileF k c f s) (fun s' => Inv s' ∧ c s' = false) := by
  intro k
  induction k with
  | zero => intro s _ h; omega
  | succ k ih =>
    intro s h hμ
    unfold whileF
    by_cases hc : c s = true
    · rw [if_pos hc]
      refine Ok.bind (hs s h hc) fun s' hs' => ?_
      exact ih s' hs'.1 (by omega)
    · rw [if_neg hc]
      exact ⟨s, rfl, h, by simpa using hc⟩

theorem forN_pure {f : Nat → σ → Option σ} {g : Nat → σ → σ} (h : ∀ i s, f i s = some (g i s)) :
    ∀ (n i : Nat) (s : σ), ∃ s', forN n i s f = some s' := by
  intro n
  induction n with
  | zero => intro i s; exact ⟨s, rfl⟩
  | succ n ih =>
    intro i s
    simp only [forN, h, Option.bind_some]
    exact ih _ _

/-- Total list indexing with a default, used to state invariants. -/
abbrev at0 [Inhabited α] (a : List α) (i : Nat) : α := a.getD i default

theorem getD_set {a : List α} {i j : Nat} {v d : α} :
    (a.set i v).getD j d = if i = j ∧ i < a.length then v else a.getD j d := by
  simp only [List.getD_eq_getElem?_getD, List.getElem?_set]
  by_cases h : i = j
  · subst h
    by_cases h2 : i < a.length
    · simp [h2]
    · simp [h2]
  · simp [h]

theorem getElem_eq_getD {a : List α} {i : Nat} (h : i < a.length) (d : α) :
    a[i] = a.getD i d := by
  simp [List.getD_eq_getElem?_getD, h]

theorem Ok.rdD {a : List α} {i : Nat} {P : α → Prop} (d : α) (h : i < a.length)
    (hp : P (a.getD i d)) : Ok (Verif.rd a i) P :=
  Ok.rd h (by rwa [getElem_eq_getD h d])

theorem ext_getD {a b : List α} (d : α) (hl : a.length = b.length)
    (h : ∀ i, i < a.length → a.getD i d = b.getD i d) : a = b := by
  apply List.ext_getElem hl
  intro i h1 h2
  rw [getElem_eq_getD h1 d, getElem_eq_getD h2 d, h i h1]

/-- Filling an array cell by cell. -/
theorem forUp_fill {f : Nat → List α → Option (List α)} {g : Nat → α} {n : Nat} {a : List α}
    (hn : n ≤ a.length)
    (hf : ∀ j l, j < n → l.length = a.length → f j l = some (l.set j (g j))) :
    forUp 0 n a f = some ((List.range n).map g ++ a.drop n) := by
  have := forUp_inv (f := f) (lo := 0) (hi := n) (s := a)
    (fun j l => l = (List.range j).map g ++ a.drop j) (Nat.zero_le _) (by simp)
    (fun j s _ hj hs => by
      subst hs
      rw [hf j _ hj (by simp; omega)]
      refine Ok.some ?_
      rw [List.set_append_right _ _ (by simp)]
      simp only [List.length_map, List.length_range, Nat.sub_self]
      have h1 : j < a.length := by omega
      rw [List.drop_eq_getElem_cons h1, List.set_cons_zero, List.range_succ, List.map_append,
        List.append_assoc]
      rfl)
  exact Ok.eq_some.1 this

end Verif
