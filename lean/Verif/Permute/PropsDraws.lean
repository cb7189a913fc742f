import Verif.Permute.Props
import Mathlib.Data.List.Nodup
/- C13 (permute.hh): which permutation the shuffle is, and that all permutations are within its reach. -/
namespace Verif.Permute
open Xorshift
variable {α : Type}

/-! ### Specification -/

/-- One step of Marsaglia's 32 bit generator with the shifts 13, 17, 5. -/
def marsaglia (y : BitVec 32) : BitVec 32 :=
  let a := y ^^^ (y <<< 13)
  let b := a ^^^ (a >>> 17)
  b ^^^ (b <<< 5)

/-- The number drawn for position `i`: the generator starts from 2463534242. -/
def drawn (i : Nat) : Nat := (marsaglia^[i + 1] 2463534242#32).toNat

/-- Fisher and Yates: the element `d` places further on comes first, and the element in front takes its place; then the same with what is left. -/
def pick : List α → List Nat → List α
  | l, [] => l
  | [], _ :: _ => []
  | x :: xs, 0 :: ds => x :: pick xs ds
  | x :: xs, (d + 1) :: ds => xs.getD d x :: pick (xs.set d x) ds

/-- Possible draws for `n` elements: the one for position `i` is less than `n - i`. -/
def Draws (n : Nat) (ds : List Nat) : Prop := ds.length = n - 1 ∧ ∀ i, i < ds.length → ds.getD i 0 < n - i

/-! ### Proofs -/

theorem next_iter (i : Nat) : (fun g => (X32.next g).1)^[i] X32.new = ⟨marsaglia^[i] 2463534242#32⟩ := by
  induction i with
  | zero => rfl
  | succ i ih => rw [Function.iterate_succ_apply', Function.iterate_succ_apply', ih]; rfl

theorem idx_drawn (SIZE i : Nat) : idx SIZE i = i + drawn i % (SIZE - i) := by
  unfold idx drawn
  rw [next_iter, Function.iterate_succ_apply']
  rfl

theorem swap_append (pre : List α) (x : α) (xs : List α) (d : Nat) (hd : d < xs.length + 1) :
    swap (pre ++ x :: xs) pre.length (pre.length + d) =
      some (pre ++ (match d with | 0 => x :: xs | d + 1 => xs.getD d x :: xs.set d x)) := by
  rw [swap_eq _ (by simp) (by simp; omega)]
  cases d with
  | zero => simp
  | succ d =>
    have h2 : d < xs.length := by omega
    have h3 : (pre ++ x :: xs)[pre.length + (d + 1)]'(by simp; omega) = xs[d] := by
      rw [List.getElem_append_right (by omega)]
      simp only [Nat.add_sub_cancel_left, List.getElem_cons_succ]
    have h4 : (pre ++ x :: xs)[pre.length]'(by simp) = x := by
      rw [List.getElem_append_right (by omega)]
      simp only [Nat.sub_self, List.getElem_cons_zero]
    rw [h3, h4, List.set_append_right _ _ (by omega), List.set_append_right _ _ (by omega)]
    simp only [Nat.sub_self, List.set_cons_zero, Nat.add_sub_cancel_left, List.set_cons_succ]
    rw [List.getD_eq_getElem _ _ h2]

theorem loop_pick (t : Nat → Nat) : ∀ n (pre l : List α), n ≤ l.length → (∀ i, i < n → t (pre.length + i) < l.length - i) →
    forN n pre.length (pre ++ l) (fun i a => swap a i (i + t i)) = some (pre ++ pick l ((List.range n).map fun i => t (pre.length + i))) := by
  intro n
  induction n with
  | zero => intro pre l _ _; rw [List.range_zero, List.map_nil]; cases l <;> rfl
  | succ n ih =>
    intro pre l hl ht
    cases l with
    | nil => simp at hl
    | cons x xs =>
      simp only [List.length_cons] at hl ht
      have h0 := ht 0 (by omega)
      rw [Nat.add_zero] at h0
      have hmap : (List.range (n + 1)).map (fun i => t (pre.length + i)) = t pre.length :: (List.range n).map fun i => t (pre.length + 1 + i) := by
        rw [List.range_succ_eq_map, List.map_cons, List.map_map, Nat.add_zero]
        congr 1
        refine List.map_congr_left fun i _ => ?_
        simp only [Function.comp_apply, Nat.succ_eq_add_one]
        rw [show pre.length + (i + 1) = pre.length + 1 + i by omega]
      rw [hmap, forN]
      cases hd : t pre.length with
      | zero =>
        rw [swap_append pre x xs 0 (by omega), Option.bind_some]
        have := ih (pre ++ [x]) xs (by omega) (fun i hi => by
          have := ht (i + 1) (by omega)
          rw [List.length_append, List.length_singleton, show pre.length + 1 + i = pre.length + (i + 1) by omega]
          omega)
        simp only [List.length_append, List.length_singleton, List.append_assoc, List.singleton_append] at this
        rw [pick]
        exact this
      | succ d =>
        rw [swap_append pre x xs (d + 1) (by omega), Option.bind_some]
        have := ih (pre ++ [xs.getD d x]) (xs.set d x) (by rw [List.length_set]; omega) (fun i hi => by
          have := ht (i + 1) (by omega)
          rw [List.length_append, List.length_singleton, List.length_set, show pre.length + 1 + i = pre.length + (i + 1) by omega]
          omega)
        simp only [List.length_append, List.length_singleton, List.append_assoc, List.singleton_append] at this
        rw [pick]
        exact this

theorem pick_perm : ∀ (l : List α) (ds : List Nat), Draws l.length ds → (pick l ds).Perm l := by
  intro l ds
  induction ds generalizing l with
  | nil => intro _; cases l <;> exact .rfl
  | cons d ds ih =>
    rintro ⟨h1, h2⟩
    cases l with
    | nil => simp at h1
    | cons x xs =>
      simp only [List.length_cons] at h1 h2
      have hD : ∀ n, n = xs.length → Draws n ds := by
        rintro n rfl
        refine ⟨by omega, fun i hi => ?_⟩
        have := h2 (i + 1) (by omega)
        rw [List.getD_cons_succ] at this
        omega
      cases d with
      | zero => rw [pick]; exact (ih xs (hD _ rfl)).cons x
      | succ d =>
        rw [pick]
        have hd := h2 0 (by omega)
        rw [List.getD_cons_zero] at hd
        have hd' : d < xs.length := by omega
        refine ((ih (xs.set d x) (hD _ List.length_set)).cons _).trans ?_
        rw [List.getD_eq_getElem _ _ hd']
        have := List.set_set_perm (as := x :: xs) (i := 0) (j := d + 1) (by simp) (by simp; omega)
        simpa using this

theorem pick_unique : ∀ (a b : List α), a.Nodup → b.Perm a → ∃! ds, Draws a.length ds ∧ pick a ds = b := by
  intro a b
  induction b generalizing a with
  | nil =>
    intro _ hp
    have := hp.symm.eq_nil
    subst this
    refine ⟨[], ⟨⟨rfl, by simp⟩, rfl⟩, fun ds h => List.eq_nil_of_length_eq_zero h.1.1⟩
  | cons y ys ih =>
    intro hn hp
    cases a with
    | nil => exact absurd hp.eq_nil (by simp)
    | cons x xs =>
      have hlen : ys.length = xs.length := by simpa using hp.length_eq
      -- a last element needs no draw
      by_cases hx : xs = []
      · subst hx
        have : ys = [] := List.eq_nil_of_length_eq_zero hlen
        subst this
        have hyx : y = x := by simpa using hp
        subst hyx
        exact ⟨[], ⟨⟨rfl, by simp⟩, rfl⟩, fun ds h => List.eq_nil_of_length_eq_zero h.1.1⟩
      have hpos : 0 < xs.length := List.length_pos_iff.2 hx
      have hxs := (List.nodup_cons.1 hn)
      -- what is left after the first draw
      by_cases hyx : y = x
      · subst hyx
        obtain ⟨ds, ⟨hD, hpk⟩, hu⟩ := ih xs hxs.2 ((List.perm_cons y).1 hp)
        refine ⟨0 :: ds, ⟨⟨by rw [List.length_cons, List.length_cons, hD.1]; omega, ?_⟩, by rw [pick, hpk]⟩, ?_⟩
        · rintro (_ | i) hi
          · simp
          · rw [List.getD_cons_succ]
            have := hD.2 i (by simpa using hi)
            simp only [List.length_cons]
            omega
        · rintro es ⟨⟨e1, e2⟩, e3⟩
          simp only [List.length_cons] at e1 e2
          cases es with
          | nil => simp at e1; omega
          | cons e es =>
            have hDe : Draws xs.length es := by
              refine ⟨by simp at e1; omega, fun i hi => ?_⟩
              have := e2 (i + 1) (by simpa using hi)
              rw [List.getD_cons_succ] at this
              omega
            cases e with
            | zero =>
              rw [pick, List.cons.injEq] at e3
              rw [hu es ⟨hDe, e3.2⟩]
            | succ e =>
              have he := e2 0 (by simp)
              rw [List.getD_cons_zero] at he
              have he' : e < xs.length := by omega
              rw [pick, List.cons.injEq, List.getD_eq_getElem _ _ he'] at e3
              exact absurd (e3.1 ▸ List.getElem_mem he') hxs.1
      · -- y is somewhere in xs
        have hy : y ∈ xs := by
          have : y ∈ x :: xs := hp.mem_iff.1 (by simp)
          simpa [hyx] using this
        obtain ⟨d, hd, hdy⟩ := List.getElem_of_mem hy
        have hset : (x :: xs).Perm (y :: xs.set d x) := by
          have := (List.set_set_perm (as := x :: xs) (i := 0) (j := d + 1) (by simp) (by simp; omega)).symm
          simpa [hdy] using this
        have hnd : (xs.set d x).Nodup := (List.nodup_cons.1 (hset.nodup_iff.1 hn)).2
        obtain ⟨ds, ⟨hD, hpk⟩, hu⟩ := ih (xs.set d x) hnd ((List.perm_cons y).1 (hp.trans hset))
        rw [List.length_set] at hD hu
        refine ⟨(d + 1) :: ds, ⟨⟨by rw [List.length_cons, List.length_cons, hD.1]; omega, ?_⟩, by rw [pick, hpk, List.getD_eq_getElem _ _ hd, hdy]⟩, ?_⟩
        · rintro (_ | i) hi
          · simp; omega
          · rw [List.getD_cons_succ]
            have := hD.2 i (by simpa using hi)
            simp only [List.length_cons]
            omega
        · rintro es ⟨⟨e1, e2⟩, e3⟩
          simp only [List.length_cons] at e1 e2
          cases es with
          | nil => simp at e1; omega
          | cons e es =>
            have hDe : Draws xs.length es := by
              refine ⟨by simp at e1; omega, fun i hi => ?_⟩
              have := e2 (i + 1) (by simpa using hi)
              rw [List.getD_cons_succ] at this
              omega
            cases e with
            | zero =>
              rw [pick, List.cons.injEq] at e3
              exact absurd e3.1.symm hyx
            | succ e =>
              have he := e2 0 (by simp)
              rw [List.getD_cons_zero] at he
              have he' : e < xs.length := by omega
              rw [pick, List.cons.injEq, List.getD_eq_getElem _ _ he'] at e3
              have : e = d := (List.Nodup.getElem_inj_iff hxs.2).1 (e3.1.trans hdy.symm)
              subst this
              rw [hu es ⟨hDe, e3.2⟩]

/-! ### C13 -/

/-- **C13.** The shuffle is the one of Fisher and Yates with the numbers of the generator, each reduced modulo the number of elements left; the
reduced numbers are possible draws, and the reverse shuffle undoes just this. -/
theorem C13_draws (a : List α) :
    Draws a.length ((List.range (a.length - 1)).map fun i => drawn i % (a.length - i)) ∧
    fisherYates a.length a = some (pick a ((List.range (a.length - 1)).map fun i => drawn i % (a.length - i))) := by
  have hlt : ∀ i, i < a.length - 1 → drawn i % (a.length - i) < a.length - i := fun i hi => Nat.mod_lt _ (by omega)
  refine ⟨⟨by simp, fun i hi => ?_⟩, ?_⟩
  · simp only [List.length_map, List.length_range] at hi
    rw [List.getD_eq_getElem _ _ (by simpa using hi)]
    simpa using hlt i hi
  · rw [fisherYates_eq]
    unfold forUp
    have := loop_pick (fun i => drawn i % (a.length - i)) (a.length - 1) [] a (by omega) (fun i hi => by simpa using hlt i hi)
    simp only [List.length_nil, List.nil_append, Nat.zero_add] at this
    rw [Nat.sub_zero, ← this]
    simp only [idx_drawn]

/-- **C13.** No permutation is out of reach and none has an advantage: for elements that differ from each other, every arrangement comes from exactly one sequence of possible
draws. -/
theorem C13_every_arrangement_once {a b : List α} (ha : a.Nodup) (hb : b.Perm a) : ∃! ds, Draws a.length ds ∧ pick a ds = b := pick_unique a b ha hb

/-- **C13.** Whatever the draws, the result is an arrangement of the same elements. -/
theorem C13_arrangement {a : List α} {ds : List Nat} (h : Draws a.length ds) : (pick a ds).Perm a := pick_perm a ds h

/-! ### Cases -/

example : (List.range 5).map drawn = [723471715, 2497366906, 2064144800, 2008045182, 3532304609] := by decide +kernel
example : Draws 5 [0, 1, 2, 0] ∧ pick [10, 20, 30, 40, 50] [0, 1, 2, 0] = [10, 30, 50, 40, 20] := by
  refine ⟨⟨rfl, ?_⟩, rfl⟩
  decide
example : fisherYates 5 [10, 20, 30, 40, 50] = some (pick [10, 20, 30, 40, 50] [0, 2, 2, 0]) := by decide +kernel

end Verif.Permute
