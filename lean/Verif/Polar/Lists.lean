import Verif.Polar.Walk
import Verif.Polar.Algebra
/- The transform and the information positions on lists. -/
namespace Verif.Polar
variable {τ : Type}

/-- The polar transform of a list of `2^M` symbols, by halves. -/
def T (q : τ → τ → τ) : Nat → List τ → List τ
  | 0, l => l
  | M + 1, l => List.zipWith q (T q M (l.take (2 ^ M))) (T q M (l.drop (2 ^ M))) ++ T q M (l.drop (2 ^ M))

theorem two_pow_succ' (M : Nat) : 2 ^ (M + 1) = 2 ^ M + 2 ^ M := by rw [pow_succ]; ring

theorem T_length (q : τ → τ → τ) : ∀ (M : Nat) (l : List τ), l.length = 2 ^ M → (T q M l).length = 2 ^ M := by
  intro M
  induction M with
  | zero => intro l h; exact h
  | succ M ih =>
    intro l h
    have e := two_pow_succ' M
    rw [T, List.length_append, List.length_zipWith, ih _ (by simp [h, e]), ih _ (by simp [h, e])]
    omega

theorem getD_take_lt {l : List τ} {d : τ} {n i : Nat} (h : i < n) : (l.take n).getD i d = l.getD i d := by
  rw [List.getD_eq_getElem?_getD, List.getD_eq_getElem?_getD, List.getElem?_take_of_lt h]

theorem getD_drop' (l : List τ) (d : τ) (n i : Nat) : (l.drop n).getD i d = l.getD (n + i) d := by
  rw [List.getD_eq_getElem?_getD, List.getD_eq_getElem?_getD, List.getElem?_drop]

theorem getD_zipWith' {α β : Type} {g : α → β → τ} {a : List α} {b : List β} {da : α} {db : β} {d : τ} {i : Nat} (h1 : i < a.length) (h2 : i < b.length) :
    (List.zipWith g a b).getD i d = g (a.getD i da) (b.getD i db) := by
  rw [← getElem_eq_getD (by simp; omega), ← getElem_eq_getD h1, ← getElem_eq_getD h2]
  simp

theorem T_getD (q : τ → τ → τ) (d : τ) : ∀ (M : Nat) (l : List τ), l.length = 2 ^ M → ∀ j, j < 2 ^ M →
    (T q M l).getD j d = P q M (fun i => l.getD i d) j := by
  intro M
  induction M with
  | zero => intro l h j hj; rfl
  | succ M ih =>
    intro l h j hj
    have e := two_pow_succ' M
    have hl1 : (l.take (2 ^ M)).length = 2 ^ M := by simp [h, e]
    have hl2 : (l.drop (2 ^ M)).length = 2 ^ M := by simp [h, e]
    have hT1 := T_length q M _ hl1
    have hT2 := T_length q M _ hl2
    rw [T]
    by_cases hj' : j < 2 ^ M
    · rw [List.getD_append _ _ _ _ (by simp [hT1, hT2]; omega), getD_zipWith' (da := d) (db := d) (by omega) (by omega), ih _ hl1 j hj',
        ih _ hl2 j hj', P_low q hj']
      congr 1
      · exact P_congr' (fun i hi => getD_take_lt hi) hj'
      · exact P_congr' (fun i hi => getD_drop' _ _ _ _) hj'
    · obtain ⟨k, rfl⟩ : ∃ k, j = 2 ^ M + k := ⟨j - 2 ^ M, by omega⟩
      have hlen : (List.zipWith q (T q M (l.take (2 ^ M))) (T q M (l.drop (2 ^ M)))).length = 2 ^ M := by simp [hT1, hT2]
      rw [List.getD_append_right _ _ _ _ (by omega), hlen, Nat.add_sub_cancel_left, ih _ hl2 k (by omega), P_high q (by omega)]
      exact P_congr' (fun i hi => getD_drop' _ _ _ _) (by omega)

/-- The entries of `u` at the positions that are not frozen. -/
def info (f : List Bool) (u : List τ) : List τ := ((List.zip f u).filter fun p => !p.1).map Prod.snd

theorem info_append {f g : List Bool} {u v : List τ} (h : f.length = u.length) : info (f ++ g) (u ++ v) = info f u ++ info g v := by
  unfold info
  rw [List.zip_append h, List.filter_append, List.map_append]

theorem info_split {f : List Bool} {u : List τ} (n : Nat) (h : f.length = u.length) :
    info f u = info (f.take n) (u.take n) ++ info (f.drop n) (u.drop n) := by
  rw [← info_append (by simp [h]), List.take_append_drop, List.take_append_drop]

theorem info_all_true : ∀ {f : List Bool} (u : List τ), f.all (fun b => b) = true → info f u = [] := by
  intro f
  induction f with
  | nil => intro u _; rfl
  | cons b f ih =>
    intro u h
    cases u with
    | nil => rfl
    | cons x u =>
      simp only [List.all_cons, Bool.and_eq_true] at h
      unfold info at ih ⊢
      rw [List.zip_cons_cons, List.filter_cons]
      simp only [h.1]
      exact ih u h.2

theorem info_all_false : ∀ {f : List Bool} {u : List τ}, f.length = u.length → f.all (fun b => !b) = true → info f u = u := by
  intro f
  induction f with
  | nil => intro u hl _; cases u with | nil => rfl | cons _ _ => simp at hl
  | cons b f ih =>
    intro u hl h
    cases u with
    | nil => simp at hl
    | cons x u =>
      simp only [List.all_cons, Bool.and_eq_true] at h
      unfold info at ih ⊢
      rw [List.zip_cons_cons, List.filter_cons]
      simp only [h.1, if_true, List.map_cons]
      rw [ih (by simpa using hl) h.2]

theorem info_length {f : List Bool} {u : List τ} (h : f.length = u.length) : (info f u).length = (f.filter fun b => !b).length := by
  unfold info
  rw [List.length_map]
  induction f generalizing u with
  | nil => rfl
  | cons b f ih =>
    cases u with
    | nil => simp at h
    | cons x u =>
      rw [List.zip_cons_cons, List.filter_cons, List.filter_cons]
      have := ih (u := u) (by simpa using h)
      cases b <;> simp_all

/-- `l` written over `a` from position `p`. -/
def put (a : List τ) (p : Nat) (l : List τ) : List τ := a.take p ++ l ++ a.drop (p + l.length)

theorem put_nil (a : List τ) (p : Nat) : put a p [] = a := by simp [put]

theorem put_length {a : List τ} {p : Nat} {l : List τ} (h : p + l.length ≤ a.length) : (put a p l).length = a.length := by
  simp [put]; omega

theorem put_getD {a : List τ} {p : Nat} {l : List τ} (d : τ) (h : p + l.length ≤ a.length) (i : Nat) :
    (put a p l).getD i d = if p ≤ i ∧ i < p + l.length then l.getD (i - p) d else a.getD i d := by
  unfold put
  have h1 : (a.take p).length = p := by simp; omega
  have h2 : (a.take p ++ l).length = p + l.length := by simp; omega
  by_cases c1 : i < p
  · rw [List.append_assoc, List.getD_append _ _ _ _ (by omega), getD_take_lt c1, if_neg (by omega)]
  · by_cases c2 : i < p + l.length
    · rw [List.getD_append _ _ _ _ (by omega), List.getD_append_right _ _ _ _ (by omega), h1, if_pos (by omega)]
    · rw [List.getD_append_right _ _ _ _ (by omega), h2, getD_drop', if_neg (by omega)]
      congr 1; omega

theorem put_put {a : List τ} {p : Nat} {l l' : List τ} (h : p + l.length + l'.length ≤ a.length) :
    put (put a p l) (p + l.length) l' = put a p (l ++ l') := by
  by_cases h0 : a = []
  · subst h0
    rw [List.length_nil] at h
    have e1 : l = [] := List.length_eq_zero_iff.1 (by omega)
    have e2 : l' = [] := List.length_eq_zero_iff.1 (by omega)
    subst e1 e2; simp [put]
  obtain ⟨d, _⟩ := List.exists_mem_of_ne_nil a h0
  have e1 := put_length (a := a) (p := p) (l := l) (by omega)
  refine ext_getD d (by rw [put_length (by rw [e1]; omega), e1, put_length (by simp; omega)]) fun i _ => ?_
  rw [put_getD d (by rw [e1]; omega), put_getD d (by omega), put_getD d (by simp; omega), List.length_append]
  by_cases c1 : p ≤ i ∧ i < p + l.length
  · rw [if_neg (by omega), if_pos c1, if_pos (by omega), List.getD_append _ _ _ _ (by omega)]
  · by_cases c2 : p + l.length ≤ i ∧ i < p + l.length + l'.length
    · rw [if_pos c2, if_pos (by omega), List.getD_append_right _ _ _ _ (by omega)]
      congr 1; omega
    · rw [if_neg c2, if_neg c1, if_neg (by omega)]

end Verif.Polar
