import Verif.Reduce.Model
import Mathlib.Data.List.GetD
/- Property C11 (exclusive_reduce.hh). -/
namespace Verif.Reduce

local macro "nenil" : tactic => `(tactic| (apply List.ne_nil_of_length_pos; simp only [List.length_take, List.length_drop]; omega))

variable {α : Type}

/-- Specification: left-to-right reduction of a non-empty list. -/
def reduce (op : α → α → α) : List α → Option α
  | [] => none
  | x :: xs => some (xs.foldl op x)

/-- total version with a junk default, for the proofs -/
def red (op : α → α → α) (d : α) : List α → α
  | [] => d
  | x :: xs => xs.foldl op x

theorem reduce_eq_red (op : α → α → α) (d : α) (l : List α) (h : l ≠ []) :
    reduce op l = some (red op d l) := by
  cases l with
  | nil => exact absurd rfl h
  | cons x xs => rfl

theorem red_snoc (op : α → α → α) (d : α) (l : List α) (x : α) (h : l ≠ []) :
    red op d (l ++ [x]) = op (red op d l) x := by
  cases l with
  | nil => exact absurd rfl h
  | cons y ys => simp [red]

theorem foldl_op (op : α → α → α) (ha : ∀ a b c, op (op a b) c = op a (op b c)) (x y : α)
    (l : List α) : l.foldl op (op x y) = op x (l.foldl op y) := by
  induction l generalizing y with
  | nil => rfl
  | cons z zs ih => simp only [List.foldl_cons, ha, ih]

theorem red_append (op : α → α → α) (d : α) (ha : ∀ a b c, op (op a b) c = op a (op b c))
    (a b : List α) (h : a ≠ []) (h' : b ≠ []) :
    red op d (a ++ b) = op (red op d a) (red op d b) := by
  cases a with
  | nil => exact absurd rfl h
  | cons x xs =>
    cases b with
    | nil => exact absurd rfl h'
    | cons y ys =>
      simp only [red, List.cons_append, List.foldl_append, List.foldl_cons]
      rw [foldl_op op ha]

theorem take_succ_red (op : α → α → α) (d : α) (l : List α) (i : Nat) (h0 : 0 < i)
    (h : i < l.length) :
    red op d (l.take (i + 1)) = op (red op d (l.take i)) (l.getD i d) := by
  rw [List.take_succ_eq_append_getElem h, red_snoc _ _ _ _ (by
    nenil), getElem_eq_getD h d]

theorem drop_red (op : α → α → α) (d : α) (ha : ∀ a b c, op (op a b) c = op a (op b c))
    (hc : ∀ a b, op a b = op b a) (l : List α) (i : Nat) (h : i + 1 < l.length) :
    red op d (l.drop i) = op (red op d (l.drop (i + 1))) (l.getD i d) := by
  rw [List.drop_eq_getElem_cons (by omega : i < l.length), getElem_eq_getD _ d]
  change red op d ([_] ++ _) = _
  rw [red_append op d ha _ _ (by simp) (by
    nenil), hc]
  rfl

/-- **C11.** For an associative and commutative operator and `N ≥ 2` elements, the function
is free of UB, keeps the size of the output array, and output `i` is the reduction of all
inputs but the `i`-th.  (`inp` and `out` are exactly the `N`-element arrays, so any access
outside `0..N-1` would be UB.) -/
theorem C11_exclusive_reduce (op : α → α → α) (ha : ∀ a b c, op (op a b) c = op a (op b c))
    (hc : ∀ a b, op a b = op b a) (inp out : List α) (hN : 2 ≤ inp.length)
    (hout : out.length = inp.length) :
    ∃ res, exclusiveReduce inp out inp.length op = some res ∧ res.length = inp.length ∧
      ∀ i, i < inp.length → res[i]? = reduce op (inp.eraseIdx i) := by
  obtain ⟨d, hd⟩ : ∃ d, d = inp[0] := ⟨_, rfl⟩
  obtain ⟨N, hNe⟩ : ∃ N, N = inp.length := ⟨_, rfl⟩
  have h0 : 0 < inp.length := by omega
  have main : Ok (exclusiveReduce inp out inp.length op) (fun res =>
      res.length = N ∧ ∀ i, i < N → some (res.getD i d) = reduce op (inp.eraseIdx i)) := by
    rw [← hNe]
    unfold exclusiveReduce
    rw [rd_of_lt h0]
    simp only [Option.bind_eq_bind, Option.bind_some]
    refine Ok.bind (forUp_inv (fun i (s : List α × α) => s.1.length = N ∧
      s.2 = red op d (inp.take i) ∧
      ∀ j, 1 ≤ j → j < i → s.1.getD j d = red op d (inp.take j)) (by omega) ?_ ?_) ?_
    · refine ⟨by simp only; omega, ?_, fun j h1 h2 => by omega⟩
      rw [List.take_succ_eq_append_getElem h0]; rfl
    · rintro i ⟨o, pre⟩ hi1 hi2 ⟨hl, hp, ho⟩
      simp only at hl hp ho
      simp only [wr_of_lt (by omega : i < o.length), rd_of_lt (by omega : i < inp.length),
        Option.bind_some]
      refine Ok.pure ⟨by simp [hl], ?_, fun j h1 h2 => ?_⟩
      · rw [take_succ_red _ _ _ _ (by omega) (by omega), hp, getElem_eq_getD _ d]
      · simp only [getD_set]
        by_cases hij : i = j
        · subst hij; rw [if_pos ⟨rfl, by omega⟩, hp]
        · rw [if_neg (by omega)]; exact ho j h1 (by omega)
    · rintro ⟨o, pre⟩ ⟨hl, hp, ho⟩
      simp only at hl hp ho
      simp only [wr_of_lt (by omega : N - 1 < o.length), Option.bind_some,
        rd_of_lt (by omega : N - 1 < inp.length)]
      refine Ok.bind (forDown_inv (lo := 1) (fun k (s : List α × α) => s.1.length = N ∧
        s.2 = red op d (inp.drop (k + 1)) ∧
        (∀ j, 1 ≤ j → j ≤ k → s.1.getD j d = red op d (inp.take j)) ∧
        (∀ j, k < j → j < N → some (s.1.getD j d) = reduce op (inp.eraseIdx j)))
        (N - 2) _ ?_ ?_) ?_
      · refine ⟨by simp [hl], ?_, fun j h1 h2 => ?_, fun j h1 h2 => ?_⟩
        · rw [show N - 2 + 1 = N - 1 by omega,
            List.drop_eq_getElem_cons (by omega : N - 1 < inp.length),
            List.drop_eq_nil_of_le (by omega)]
          rfl
        · rw [getD_set, if_neg (by omega)]; exact ho j h1 (by omega)
        · have : j = N - 1 := by omega
          subst this
          rw [getD_set, if_pos ⟨rfl, by omega⟩, hp, List.eraseIdx_eq_take_drop_succ,
            List.drop_eq_nil_of_le (by omega), List.append_nil, reduce_eq_red op d]
          nenil
      · rintro k ⟨o, suf⟩ hk ⟨hl, hs, h1, h2⟩
        simp only at hl hs h1 h2
        rw [rd_of_lt (by omega : 1 + k < o.length)]
        simp only [Option.bind_some, wr_of_lt (by omega : 1 + k < o.length),
          rd_of_lt (by omega : 1 + k < inp.length)]
        refine Ok.pure ⟨by simp [hl], ?_, fun j h3 h4 => ?_, fun j h3 h4 => ?_⟩
        · simp only
          rw [hs, getElem_eq_getD _ d, show 1 + k = k + 1 by omega]
          exact (drop_red op d ha hc inp (k + 1) (by omega)).symm
        · simp only [getD_set]
          rw [if_neg (by omega)]; exact h1 j h3 (by omega)
        · simp only [getD_set]
          by_cases hj : 1 + k = j
          · subst hj
            rw [if_pos ⟨rfl, by omega⟩, getElem_eq_getD _ d, h1 _ (by omega) (by omega), hs,
              show k + 1 + 1 = 1 + k + 1 by omega, ← red_append op d ha,
              ← List.eraseIdx_eq_take_drop_succ, reduce_eq_red op d]
            · apply List.ne_nil_of_length_pos
              rw [List.length_eraseIdx, if_pos (by omega)]; omega
            · nenil
            · nenil
          · rw [if_neg (by omega)]; exact h2 j (by omega) h4
      · rintro ⟨o, suf⟩ ⟨hl, hs, h1, h2⟩
        simp only at hl hs h1 h2
        have hlen : 0 < o.length := by omega
        refine Ok.wr hlen ⟨by simp [hl], fun i hi => ?_⟩
        rw [getD_set]
        by_cases hi0 : 0 = i
        · subst hi0
          rw [if_pos ⟨rfl, hlen⟩, hs, List.eraseIdx_eq_take_drop_succ, List.take_zero,
            List.nil_append, reduce_eq_red op d]
          nenil
        · rw [if_neg (by omega)]; exact h2 i (by omega) hi
  obtain ⟨res, hr, hl, hv⟩ := main
  refine ⟨res, hr, by omega, fun i hi => ?_⟩
  rw [← hv i (by omega), ← getElem_eq_getD (by omega) d]
  simp [show i < res.length by omega]

example : 2 ≤ [5, 1, 7].length ∧ (∀ a b c : Nat, min (min a b) c = min a (min b c)) ∧
    exclusiveReduce [5, 1, 7] [0, 0, 0] 3 min = some [1, 5, 1] :=
  ⟨by decide, Nat.min_assoc, by decide⟩

end Verif.Reduce
