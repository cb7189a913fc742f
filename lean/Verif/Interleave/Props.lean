import Verif.Interleave.Model
import Mathlib.Data.List.GetD
import Mathlib.Data.List.FinRange
import Mathlib.Data.Nat.ModEq
import Mathlib.Logic.Equiv.Fin.Basic
import Mathlib.Data.Fintype.EquivFin
import Mathlib.Tactic.Ring
/- Property C12 (interleave.hh). -/
namespace Verif.Interleave
variable {α : Type}

theorem idx_lt {L O i j : Nat} (hi : i < L) (hj : j < O) : O * i + j < L * O := by
  have : O * (i + 1) ≤ O * L := Nat.mul_le_mul_left _ hi
  rw [Nat.mul_add, Nat.mul_comm O L] at this; omega

theorem idx_lt' {L O i j : Nat} (hi : i < L) (hj : j < O) : i + j * L < L * O := by
  have : (j + 1) * L ≤ O * L := Nat.mul_le_mul_right _ hj
  rw [Nat.add_mul, Nat.mul_comm O L] at this; omega

theorem decomp {L O i j i' j' : Nat} (hj : j < O) (hj' : j' < O)
    (h : O * i + j = O * i' + j') : i = i' ∧ j = j' := by
  have h1 : (O * i + j) / O = i := by
    rw [Nat.mul_add_div (by omega), Nat.div_eq_of_lt hj, Nat.add_zero]
  have h2 : (O * i' + j') / O = i' := by
    rw [Nat.mul_add_div (by omega), Nat.div_eq_of_lt hj', Nat.add_zero]
  have h3 : i = i' := by rw [← h1, h, h2]
  subst h3; omega

theorem decomp' {L i j i' j' : Nat} (hi : i < L) (hi' : i' < L)
    (h : i + j * L = i' + j' * L) : i = i' ∧ j = j' := by
  have := decomp (L := 0) (O := L) (i := j) (j := i) (i' := j') (j' := i') hi hi'
    (by rw [Nat.mul_comm L j, Nat.mul_comm L j']; omega)
  exact ⟨this.2, this.1⟩

/-- A doubly nested copy loop through two injective index maps. -/
theorem copy_loop (L O : Nat) (s t : Nat → Nat → Nat) (inp out : List α) (d : α)
    (hs : ∀ i j, i < L → j < O → s i j < inp.length)
    (ht : ∀ i j, i < L → j < O → t i j < out.length)
    (hinj : ∀ i j i' j', i < L → j < O → i' < L → j' < O → t i j = t i' j' → i = i' ∧ j = j') :
    Ok (forUp 0 L out fun i out => forUp 0 O out fun j out => do
        let v ← rd inp (s i j)
        wr out (t i j) v)
      (fun r => r.length = out.length ∧
        ∀ i j, i < L → j < O → r.getD (t i j) d = inp.getD (s i j) d) := by
  refine (forUp_inv (fun i (r : List α) => r.length = out.length ∧
    ∀ i' j, i' < i → i' < L → j < O → r.getD (t i' j) d = inp.getD (s i' j) d)
    (Nat.zero_le _) ⟨rfl, fun i' j h => by omega⟩ ?_).mono ?_
  · rintro i r _ hi ⟨hl, hr⟩
    refine (forUp_inv (fun j (r : List α) => r.length = out.length ∧
      (∀ i' j', i' < i → i' < L → j' < O → r.getD (t i' j') d = inp.getD (s i' j') d) ∧
      (∀ j', j' < j → r.getD (t i j') d = inp.getD (s i j') d))
      (Nat.zero_le _) ⟨hl, hr, fun i' j => by omega⟩ ?_).mono ?_
    · rintro j r _ hj ⟨hl, h1, h2⟩
      simp only [rd_of_lt (hs i j hi hj), Option.bind_eq_bind, Option.bind_some]
      refine Ok.wr (by rw [hl]; exact ht i j hi hj)
        ⟨by simp [hl], fun i' j' a b c => ?_, fun j' hj' => ?_⟩
      · rw [getD_set, if_neg]
        · exact h1 i' j' a b c
        · rintro ⟨he, _⟩
          have := (hinj i j i' j' hi hj b c he).1; omega
      · rw [getD_set]
        by_cases he : j = j'
        · subst he
          rw [if_pos ⟨rfl, by rw [hl]; exact ht i j hi hj⟩, getElem_eq_getD _ d]
        · rw [if_neg]
          · exact h2 j' (by omega)
          · rintro ⟨hh, _⟩
            exact he (hinj i j i j' hi hj hi (by omega) hh).2
    · rintro r ⟨hl, h1, h2⟩
      refine ⟨hl, fun i' j a b c => ?_⟩
      by_cases he : i' = i
      · subst he; exact h2 j c
      · exact h1 i' j (by omega) b c
  · rintro r ⟨hl, hr⟩
    exact ⟨hl, fun i j hi hj => hr i j hi hi hj⟩

/-- Position of input element `k` after interleaving (`L = SIZE/ORDER`). -/
def target (ORDER L k : Nat) : Nat := ORDER * (k % L) + k / L

theorem split_lt {L O k : Nat} (h : k < L * O) : k % L < L ∧ k / L < O := by
  have hL : 0 < L := by
    rcases Nat.eq_zero_or_pos L with rfl | h'
    · simp at h
    · exact h'
  exact ⟨Nat.mod_lt _ hL, Nat.div_lt_of_lt_mul h⟩

theorem interleave_ok (O L : Nat) (hO : 0 < O) (inp out : List α) (d : α)
    (hin : inp.length = L * O) (hout : out.length = L * O) :
    ∃ r, interleave (L * O) O out inp = some r ∧ r.length = L * O ∧
      ∀ k, k < L * O → r.getD (target O L k) d = inp.getD k d := by
  have h := copy_loop L O (fun i j => i + j * L) (fun i j => O * i + j) inp out d
    (fun i j hi hj => by rw [hin]; exact idx_lt' hi hj)
    (fun i j hi hj => by rw [hout]; exact idx_lt hi hj)
    (fun i j i' j' _ hj _ hj' he => decomp (L := L) hj hj' he)
  obtain ⟨r, hr, hl, hv⟩ := h
  refine ⟨r, ?_, by omega, fun k hk => ?_⟩
  · unfold interleave
    simp only [assertUB, Nat.mul_mod_left, if_true, Option.bind_eq_bind, Option.bind_some,
      Nat.mul_div_cancel _ hO]
    exact hr
  · obtain ⟨h1, h2⟩ := split_lt hk
    have := hv (k % L) (k / L) h1 h2
    rw [show k % L + k / L * L = k by rw [Nat.mul_comm]; exact Nat.mod_add_div k L] at this
    exact this

theorem deinterleave_ok (O L : Nat) (hO : 0 < O) (inp out : List α) (d : α)
    (hin : inp.length = L * O) (hout : out.length = L * O) :
    ∃ r, deinterleave (L * O) O out inp = some r ∧ r.length = L * O ∧
      ∀ k, k < L * O → r.getD k d = inp.getD (target O L k) d := by
  have h := copy_loop L O (fun i j => O * i + j) (fun i j => i + j * L) inp out d
    (fun i j hi hj => by rw [hin]; exact idx_lt hi hj)
    (fun i j hi hj => by rw [hout]; exact idx_lt' hi hj)
    (fun i j i' j' hi _ hi' _ he => decomp' hi hi' he)
  obtain ⟨r, hr, hl, hv⟩ := h
  refine ⟨r, ?_, by omega, fun k hk => ?_⟩
  · unfold deinterleave
    simp only [assertUB, Nat.mul_mod_left, if_true, Option.bind_eq_bind, Option.bind_some,
      Nat.mul_div_cancel _ hO]
    exact hr
  · obtain ⟨h1, h2⟩ := split_lt hk
    have := hv (k % L) (k / L) h1 h2
    rw [show k % L + k / L * L = k by rw [Nat.mul_comm]; exact Nat.mod_add_div k L] at this
    exact this

theorem target_lt {O L k : Nat} (h : k < L * O) : target O L k < L * O := by
  obtain ⟨h1, h2⟩ := split_lt h
  exact idx_lt h1 h2

theorem target_inj {O L k k' : Nat} (h : k < L * O) (h' : k' < L * O)
    (he : target O L k = target O L k') : k = k' := by
  obtain ⟨h1, h2⟩ := split_lt h
  obtain ⟨h3, h4⟩ := split_lt h'
  have := decomp (L := L) h2 h4 he
  rw [← Nat.mod_add_div k L, ← Nat.mod_add_div k' L, this.1, this.2]

theorem target_surj {O L m : Nat} (hm : m < L * O) :
    ∃ k, k < L * O ∧ target O L k = m := by
  have hO : 0 < O := by
    rcases Nat.eq_zero_or_pos O with rfl | h
    · simp at hm
    · exact h
  have h1 : m / O < L := Nat.div_lt_of_lt_mul (by rwa [Nat.mul_comm])
  have h2 : m % O < O := Nat.mod_lt _ hO
  refine ⟨m / O + m % O * L, idx_lt' h1 h2, ?_⟩
  unfold target
  rw [Nat.add_mul_mod_self_right, Nat.mod_eq_of_lt h1, Nat.add_mul_div_right _ _ (Nat.lt_of_le_of_lt (Nat.zero_le _) h1),
    Nat.div_eq_of_lt h1, Nat.zero_add]
  exact Nat.div_add_mod m O

/-- A list whose elements are those of another one under an injective reindexing is a
permutation of it. -/
theorem perm_of_reindex (d : α) (a r : List α) (n : Nat) (ha : a.length = n) (hr : r.length = n)
    (t : Nat → Nat) (ht : ∀ k, k < n → t k < n)
    (hinj : ∀ k k', k < n → k' < n → t k = t k' → k = k')
    (h : ∀ k, k < n → r.getD (t k) d = a.getD k d) : r.Perm a := by
  let f : Fin n → Fin n := fun k => ⟨t k, ht k k.2⟩
  have hf : Function.Bijective f := by
    rw [← Finite.injective_iff_bijective]
    intro x y hxy
    exact Fin.ext (hinj x y x.2 y.2 (by simpa [f] using hxy))
  have hra : r = List.ofFn (fun i : Fin n => r.getD i d) := by
    apply List.ext_getElem (by simp [hr])
    intro i h1 h2
    simp [h1]
  have haa : a = List.ofFn (fun i : Fin n => r.getD (Equiv.ofBijective f hf i) d) := by
    apply List.ext_getElem (by simp [ha])
    intro i h1 h2
    rw [List.getElem_ofFn]
    change a[i] = r.getD (t i) d
    rw [h i (by omega), getElem_eq_getD]
  rw [haa]
  conv => lhs; rw [hra]
  exact (Equiv.Perm.ofFn_comp_perm (Equiv.ofBijective f hf) (fun i : Fin n => r.getD i d)).symm

/-- **C12.** For every ORDER > 0 dividing SIZE (SIZE = ORDER·LENGTH): `Interleave` is free of
UB on SIZE-element arrays, moves element `k` to position `ORDER*(k % LENGTH) + k / LENGTH`,
is a permutation, and `Deinterleave` undoes it. -/
theorem C12_interleave (SIZE ORDER : Nat) (hO : 0 < ORDER) (hdvd : ORDER ∣ SIZE)
    (inp out out' : List α) (hin : inp.length = SIZE) (hout : out.length = SIZE)
    (hout' : out'.length = SIZE) :
    ∃ r, interleave SIZE ORDER out inp = some r ∧ r.length = SIZE ∧ r.Perm inp ∧
      (∀ k, k < SIZE → r[ORDER * (k % (SIZE / ORDER)) + k / (SIZE / ORDER)]? = inp[k]?) ∧
      deinterleave SIZE ORDER out' r = some inp := by
  obtain ⟨L, rfl⟩ := hdvd
  rw [Nat.mul_comm ORDER L] at *
  rw [Nat.mul_div_cancel _ hO]
  rcases inp with _ | ⟨d, t⟩
  · simp at hin
    rcases hin with rfl | rfl
    · have h1 : out = [] := by simpa using hout
      have h2 : out' = [] := by simpa using hout'
      subst h1; subst h2
      exact ⟨[], by simp [interleave, assertUB, forUp, forN], by simp, .refl _, by simp,
        by simp [deinterleave, assertUB, forUp, forN]⟩
    · omega
  generalize hinp : d :: t = inp at *
  obtain ⟨r, hr, hl, hv⟩ := interleave_ok ORDER L hO inp out d hin hout
  obtain ⟨r', hr', hl', hv'⟩ := deinterleave_ok ORDER L hO r out' d hl hout'
  refine ⟨r, hr, hl, ?_, fun k hk => ?_, ?_⟩
  · exact perm_of_reindex d inp r (L * ORDER) hin hl (target ORDER L) (fun k => target_lt)
      (fun k k' => target_inj) hv
  · have := hv k hk
    have h1 : target ORDER L k < r.length := by rw [hl]; exact target_lt hk
    rw [List.getD_eq_getElem _ _ h1, List.getD_eq_getElem _ _ (by omega)] at this
    change r[target ORDER L k]? = _
    rw [List.getElem?_eq_getElem h1, List.getElem?_eq_getElem (by omega), this]
  · rw [hr']
    congr 1
    apply ext_getD d (by omega)
    intro i hi
    rw [hv' i (by omega), hv i (by omega)]

/-- **C12**, the other order. -/
theorem C12_deinterleave (SIZE ORDER : Nat) (hO : 0 < ORDER) (hdvd : ORDER ∣ SIZE)
    (inp out out' : List α) (hin : inp.length = SIZE) (hout : out.length = SIZE)
    (hout' : out'.length = SIZE) :
    ∃ r, deinterleave SIZE ORDER out inp = some r ∧ r.length = SIZE ∧ r.Perm inp ∧
      (∀ k, k < SIZE → r[k]? = inp[ORDER * (k % (SIZE / ORDER)) + k / (SIZE / ORDER)]?) ∧
      interleave SIZE ORDER out' r = some inp := by
  obtain ⟨L, rfl⟩ := hdvd
  rw [Nat.mul_comm ORDER L] at *
  rw [Nat.mul_div_cancel _ hO]
  rcases inp with _ | ⟨d, t⟩
  · simp at hin
    rcases hin with rfl | rfl
    · have h1 : out = [] := by simpa using hout
      have h2 : out' = [] := by simpa using hout'
      subst h1; subst h2
      exact ⟨[], by simp [deinterleave, assertUB, forUp, forN], by simp, .refl _, by simp,
        by simp [interleave, assertUB, forUp, forN]⟩
    · omega
  generalize hinp : d :: t = inp at *
  obtain ⟨r, hr, hl, hv⟩ := deinterleave_ok ORDER L hO inp out d hin hout
  obtain ⟨r', hr', hl', hv'⟩ := interleave_ok ORDER L hO r out' d hl hout'
  refine ⟨r, hr, hl, ?_, fun k hk => ?_, ?_⟩
  · exact (perm_of_reindex d r inp (L * ORDER) hl hin (target ORDER L) (fun k => target_lt)
      (fun k k' => target_inj) (fun k hk => (hv k hk).symm)).symm
  · have := hv k hk
    have h1 : target ORDER L k < inp.length := by rw [hin]; exact target_lt hk
    rw [List.getD_eq_getElem _ _ (by omega), List.getD_eq_getElem _ _ h1] at this
    change _ = inp[target ORDER L k]?
    rw [List.getElem?_eq_getElem h1, List.getElem?_eq_getElem (by omega), this]
  · rw [hr']
    congr 1
    apply ext_getD d (by omega)
    intro i hi
    obtain ⟨k, hk, rfl⟩ := target_surj (O := ORDER) (L := L) (m := i) (by omega)
    rw [hv' k hk, hv k hk]

example : (3 : Nat) ∣ 6 ∧ interleave 6 3 [0, 0, 0, 0, 0, 0] [1, 2, 3, 4, 5, 6] =
    some [1, 3, 5, 2, 4, 6] := by decide

end Verif.Interleave
