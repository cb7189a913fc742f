import Verif.OSD.BackSub
/- The row echelon form with column exchanges. -/
namespace Verif.OSD
open Finset

variable {K N : Nat} {g : List (BitVec 8)}

/-- The array of columns: entry `i` is `σ (π i)`. -/
def PermOf (N : Nat) (perm : List Nat) (σ : Nat → Nat) (π : Equiv.Perm Nat) : Prop :=
  N ≤ perm.length ∧ ∀ i, i < N → perm.getD i 0 = σ (π i)

/-- Facts about the first `k` pivots, the columns below `T` being used up. -/
structure Ech (K N : Nat) (σ : Nat → Nat) (π : Equiv.Perm Nat) (v : Nat → Nat → ZMod 2) (k T : Nat) : Prop where
  kT : k ≤ T
  TN : T ≤ N
  fix : ∀ i, T ≤ i → π i = i
  inc : ∀ a b, a < b → b < k → π a < π b
  below : ∀ a, a < k → π a < T
  one : ∀ a, a < k → v a (σ (π a)) = 1
  lead : ∀ a t, a < k → t < π a → v a (σ t) = 0
  zero : ∀ j t, k ≤ j → j < K → t < T → v j (σ t) = 0

theorem Ech.pi_lt {σ : Nat → Nat} {π : Equiv.Perm Nat} {v : Nat → Nat → ZMod 2} {k T : Nat} (E : Ech K N σ π v k T)
    {i : Nat} (hi : i < T) : π i < T := by
  by_contra h
  have h1 := E.fix (π i) (by omega)
  have h2 := π.injective h1
  omega

/-- While looking for pivot `k`: nothing found yet in the columns below `T`. -/
theorem Ech.col {σ : Nat → Nat} {π : Equiv.Perm Nat} {v : Nat → Nat → ZMod 2} {k T : Nat} (E : Ech K N σ π v k T)
    {i j : Nat} (hi : i < T) (hj : k ≤ j) (hjK : j < K) : v j (σ (π i)) = 0 :=
  E.zero j _ hj hjK (E.pi_lt hi)

/-- Pivot `k` has been found and moved to row and column `k`. -/
structure Piv (K N : Nat) (σ : Nat → Nat) (π : Equiv.Perm Nat) (v : Nat → Nat → ZMod 2) (k : Nat) : Prop where
  kp : k ≤ π k
  pN : π k < N
  fix : ∀ i, π k < i → π i = i
  inc : ∀ a b, a < b → b ≤ k → π a < π b
  one : ∀ a, a ≤ k → v a (σ (π a)) = 1
  lead : ∀ a t, a < k → t < π a → v a (σ t) = 0
  zero : ∀ j t, k ≤ j → j < K → t < π k → v j (σ t) = 0

/-- A row exchange among the rows from `k` on. -/
theorem Ech.swap {σ : Nat → Nat} {π : Equiv.Perm Nat} {v : Nat → Nat → ZMod 2} {k T h : Nat} (E : Ech K N σ π v k T)
    (hk : k < K) (hh : k ≤ h) (hK : h < K) : Ech K N σ π (swapV v h k) k T := by
  have e : ∀ a, a < k → swapV v h k a = v a := by
    intro a ha
    unfold swapV
    rw [Equiv.swap_apply_of_ne_of_ne (by omega) (by omega)]
  refine ⟨E.kT, E.TN, E.fix, E.inc, E.below, ?_, ?_, ?_⟩
  · intro a ha; rw [e a ha, E.one a ha]
  · intro a t ha ht; rw [e a ha, E.lead a t ha ht]
  · intro j t hj hjK ht
    unfold swapV
    rw [Equiv.swap_apply_def]
    split
    · exact E.zero k t (Nat.le_refl _) hk ht
    · split
      · exact E.zero h t hh hK ht
      · exact E.zero j t hj hjK ht

/-- The column `σ T` moves to column `k`. -/
theorem Ech.piv {σ : Nat → Nat} {π : Equiv.Perm Nat} {v : Nat → Nat → ZMod 2} {k T : Nat} (E : Ech K N σ π v k T)
    (hT : T < N) (h1 : v k (σ T) = 1) :
    Piv K N σ ((Equiv.swap k T).trans π) v k := by
  have e1 : ((Equiv.swap k T).trans π) k = T := by
    rw [Equiv.trans_apply, Equiv.swap_apply_left, E.fix T (Nat.le_refl _)]
  have e2 : ∀ a, a < k → ((Equiv.swap k T).trans π) a = π a := by
    intro a ha
    have := E.kT
    rw [Equiv.trans_apply, Equiv.swap_apply_of_ne_of_ne (by omega) (by omega)]
  refine ⟨?_, ?_, ?_, ?_, ?_, ?_, ?_⟩
  · rw [e1]; exact E.kT
  · rw [e1]; exact hT
  · intro i hi
    rw [e1] at hi
    have := E.kT
    rw [Equiv.trans_apply, Equiv.swap_apply_of_ne_of_ne (by omega) (by omega), E.fix i (by omega)]
  · intro a b hab hb
    rw [e2 a (by omega)]
    by_cases h : b = k
    · subst h; rw [e1]; exact E.below a hab
    · rw [e2 b (by omega)]; exact E.inc a b hab (by omega)
  · intro a ha
    by_cases h : a = k
    · subst h; rw [e1]; exact h1
    · rw [e2 a (by omega)]; exact E.one a (by omega)
  · intro a t ha ht
    rw [e2 a ha] at ht
    exact E.lead a t ha ht
  · intro j t hj hjK ht
    rw [e1] at ht
    exact E.zero j t hj hjK ht

/-- Extending the range of columns without pivot. -/
theorem Ech.extend {σ : Nat → Nat} {π : Equiv.Perm Nat} {v : Nat → Nat → ZMod 2} {k T : Nat} (E : Ech K N σ π v k T)
    (hT : T < N) (hz : ∀ j, k ≤ j → j < K → v j (σ T) = 0) : Ech K N σ π v k (T + 1) := by
  have := E.kT
  refine ⟨by omega, by omega, fun i hi => E.fix i (by omega), E.inc, fun a ha => ?_, E.one, E.lead, ?_⟩
  · have := E.below a ha; omega
  · intro j t hj hjK ht
    by_cases h : t = T
    · subst h; exact hz j hj hjK
    · exact E.zero j t hj hjK (by omega)

theorem Piv.next {σ : Nat → Nat} {π : Equiv.Perm Nat} {v : Nat → Nat → ZMod 2} {k : Nat} (P : Piv K N σ π v k)
    (hkK : k < K) (hz : ∀ j, k < j → j < K → v j (σ (π k)) = 0) : Ech K N σ π v (k + 1) (π k + 1) := by
  have h1 := P.kp
  have h2 := P.pN
  refine ⟨by omega, by omega, fun i hi => P.fix i (by omega), fun a b h3 h4 => P.inc a b h3 (by omega), ?_,
    fun a ha => P.one a (by omega), ?_, ?_⟩
  · intro a ha
    by_cases h : a = k
    · subst h; omega
    · have := P.inc a k (by omega) (Nat.le_refl _); omega
  · intro a t ha ht
    by_cases h : a = k
    · subst h
      exact P.zero a t (Nat.le_refl _) hkK ht
    · exact P.lead a t (by omega) ht
  · intro j t hj hjK ht
    by_cases h : t = π k
    · subst h; exact hz j (by omega) hjK
    · exact P.zero j t (by omega) hjK (by omega)

/-- The arrays `G` and `perm`. -/
structure St (K N : Nat) (σ : Nat → Nat) (s : List (BitVec 8) × List Nat) (v : Nat → Nat → ZMod 2)
    (π : Equiv.Perm Nat) : Prop where
  rep : Rep (W N) N K s.1 fun j i => v j (σ (π i))
  perm : PermOf N s.2 σ π

/-- Found: the state after the exchange. -/
def Found (K N : Nat) (σ : Nat → Nat) (v0 : Nat → Nat → ZMod 2) (k lG lp : Nat) (s : List (BitVec 8) × List Nat) : Prop :=
  ∃ v π, St K N σ s v π ∧ s.1.length = lG ∧ s.2.length = lp ∧ Same K N v0 v ∧ Piv K N σ π v k

variable {σ : Nat → Nat} {π : Equiv.Perm Nat} {v : Nat → Nat → ZMod 2}

theorem swapAt_perm {perm : List Nat} (hp : PermOf N perm σ π) {k j : Nat} (hk : k < N) (hj : j < N) :
    Ok (swapAt perm k j) (fun p => p.length = perm.length ∧ PermOf N p σ ((Equiv.swap k j).trans π)) := by
  have hk' : k < perm.length := by have := hp.1; omega
  have hj' : j < perm.length := by have := hp.1; omega
  unfold swapAt
  rw [rd_of_lt hk', rd_of_lt hj']
  dsimp only [Option.bind_eq_bind, Option.bind_some]
  rw [wr_of_lt hk', Option.bind_some, wr_of_lt (by rw [List.length_set]; exact hj')]
  refine Ok.some ⟨by rw [List.length_set, List.length_set], by rw [List.length_set, List.length_set]; exact hp.1, ?_⟩
  intro i hi
  rw [getElem_eq_getD hk' 0, getElem_eq_getD hj' 0, getD_set, getD_set, List.length_set, Equiv.trans_apply,
    Equiv.swap_apply_def, hp.2 k hk, hp.2 j hj, hp.2 i hi]
  by_cases h1 : i = k
  · subst h1
    rw [if_pos rfl]
    by_cases h2 : j = i
    · subst h2; rw [if_pos ⟨rfl, hj'⟩]
    · rw [if_neg (by omega), if_pos ⟨rfl, hk'⟩]
  · rw [if_neg h1]
    by_cases h2 : i = j
    · subst h2; rw [if_pos rfl, if_pos ⟨rfl, hj'⟩]
    · rw [if_neg h2, if_neg (by omega), if_neg (by omega)]

theorem pivotHere_ok {G : List (BitVec 8)} {perm : List Nat} (S : St K N σ (G, perm) v π) {k T : Nat}
    (E : Ech K N σ π v k T) (hk : k < K) (hkN : k < N) :
    Ok (pivotHere N K k G) (fun G' => Found K N σ v k G.length perm.length (G', perm) ∨
      (G' = G ∧ ∃ T', k < T' ∧ Ech K N σ π v k T')) := by
  have hTk := E.kT
  unfold pivotHere
  refine Ok.bind' (P := fun (s : Bool × List (BitVec 8)) => (s.1 = true ∧ Found K N σ v k G.length perm.length (s.2, perm)) ∨
    (s.1 = false ∧ s.2 = G ∧ ∀ h, k ≤ h → h < K → v h (σ (π k)) = 0)) (forUp_inv (fun j (s : Bool × List (BitVec 8)) =>
      (s.1 = true ∧ Found K N σ v k G.length perm.length (s.2, perm)) ∨
      (s.1 = false ∧ s.2 = G ∧ ∀ h, k ≤ h → h < j → v h (σ (π k)) = 0)) (by omega) ?_ ?_) ?_
  · exact Or.inr ⟨rfl, rfl, fun h h1 h2 => by omega⟩
  · rintro j ⟨fl, G'⟩ h1 h2 hs
    rcases hs with ⟨hf, hF⟩ | ⟨hf, hG, hz⟩
    · dsimp only at hf
      subst hf
      exact Ok.some (Or.inl ⟨rfl, hF⟩)
    · dsimp only at hf hG
      subst hf hG
      dsimp only
      rw [if_neg (by simp), S.rep.rd (N_le_W N) h2 hkN]
      dsimp only [Option.bind_eq_bind, Option.bind_some]
      by_cases hp : bv (v j (σ (π k))) ≠ 0#8
      · rw [if_pos hp]
        rw [bv_ne] at hp
        have hT : T = k := by
          by_contra hne
          rw [E.col (show k < T by omega) h1 h2] at hp
          exact absurd hp (by decide)
        subst hT
        have hz2 : ∀ i, i < T → v j (σ (π i)) = 0 ∧ v T (σ (π i)) = 0 := fun i hi =>
          ⟨E.col hi h1 h2, E.col hi (Nat.le_refl _) hk⟩
        refine Ok.bind' (swapRows_ok S.rep h2 hk (by omega) hz2) ?_
        rintro G2 ⟨l2, R2⟩
        rw [swapV_comp v (fun i => σ (π i))] at R2
        refine Ok.some (Or.inl ⟨rfl, swapV v j T, π, ⟨R2, S.perm⟩, l2, rfl, same_swap _ h2 hk, ?_⟩)
        have h3 := (E.swap hk h1 h2).piv hkN (by
          unfold swapV
          rw [Equiv.swap_apply_right]
          rw [E.fix T (Nat.le_refl _)] at hp
          exact hp)
        rw [Equiv.swap_self, Equiv.refl_trans] at h3
        exact h3
      · rw [if_neg hp]
        rw [not_not, bv_eq] at hp
        refine Ok.some (Or.inr ⟨rfl, rfl, ?_⟩)
        intro h h3 h4
        by_cases h5 : h = j
        · subst h5; exact hp
        · exact hz h h3 (by omega)
  · rintro ⟨fl, G'⟩ hs
    rcases hs with ⟨_, hF⟩ | ⟨_, hG, hz⟩
    · exact Ok.some (Or.inl hF)
    · refine Ok.some (Or.inr ⟨hG, ?_⟩)
      by_cases h : k < T
      · exact ⟨T, h, E⟩
      · have hT : T = k := by omega
        subst hT
        rw [E.fix T (Nat.le_refl _)] at hz
        exact ⟨T + 1, by omega, E.extend hkN hz⟩

theorem pivotThere_ok {s : List (BitVec 8) × List Nat} (S : St K N σ s v π) {k T j : Nat}
    (E : Ech K N σ π v k T) (hk : k < K) (hkT : k < T) (hkj : k < j) (hj : j < N) (hjT : j ≤ T) :
    Ok (pivotThere N K k j s) (fun s' => Found K N σ v k s.1.length s.2.length s' ∨
      (s' = s ∧ ∀ h, k ≤ h → h < K → v h (σ (π j)) = 0)) := by
  unfold pivotThere
  refine Ok.bind' (P := fun (t : Bool × List (BitVec 8) × List Nat) => (t.1 = true ∧ Found K N σ v k s.1.length s.2.length t.2) ∨
    (t.1 = false ∧ t.2 = s ∧ ∀ h, k ≤ h → h < K → v h (σ (π j)) = 0)) (forUp_inv (fun h (t : Bool × List (BitVec 8) × List Nat) =>
      (t.1 = true ∧ Found K N σ v k s.1.length s.2.length t.2) ∨
      (t.1 = false ∧ t.2 = s ∧ ∀ h', k ≤ h' → h' < h → v h' (σ (π j)) = 0)) (by omega) ?_ ?_) ?_
  · exact Or.inr ⟨rfl, rfl, fun h h1 h2 => by omega⟩
  · rintro h ⟨fl, t⟩ h1 h2 hs
    rcases hs with ⟨hf, hF⟩ | ⟨hf, hG, hz⟩
    · dsimp only at hf
      subst hf
      exact Ok.some (Or.inl ⟨rfl, hF⟩)
    · dsimp only at hf hG
      subst hf hG
      dsimp only
      rw [if_neg (by simp), S.rep.rd (N_le_W N) h2 hj]
      dsimp only [Option.bind_eq_bind, Option.bind_some]
      by_cases hp : bv (v h (σ (π j))) ≠ 0#8
      · rw [if_pos hp]
        rw [bv_ne] at hp
        have hT : T = j := by
          by_contra hne
          rw [E.col (show j < T by omega) h1 h2] at hp
          exact absurd hp (by decide)
        subst hT
        refine Ok.bind' (swapAt_perm S.perm (show k < N by omega) hj) ?_
        rintro p1 ⟨lp1, P1⟩
        refine Ok.bind' (swapCols_ok S.rep (show k < N by omega) hj (by omega)) ?_
        rintro G1 ⟨l1, R1⟩
        have hz2 : ∀ i, i < k → v h (σ (π (Equiv.swap k T i))) = 0 ∧ v k (σ (π (Equiv.swap k T i))) = 0 := by
          intro i hi
          rw [Equiv.swap_apply_of_ne_of_ne (by omega) (by omega)]
          exact ⟨E.col (by omega) h1 h2, E.col (by omega) (Nat.le_refl _) hk⟩
        refine Ok.bind' (swapRows_ok R1 h2 hk (by omega) hz2) ?_
        rintro G2 ⟨l2, R2⟩
        refine Ok.some (Or.inl ⟨rfl, swapV v h k, (Equiv.swap k T).trans π, ⟨R2, P1⟩, l2.trans l1, lp1, same_swap _ h2 hk, ?_⟩)
        refine (E.swap hk h1 h2).piv hj ?_
        unfold swapV
        rw [Equiv.swap_apply_right]
        rw [E.fix T (Nat.le_refl _)] at hp
        exact hp
      · rw [if_neg hp]
        rw [not_not, bv_eq] at hp
        refine Ok.some (Or.inr ⟨rfl, rfl, ?_⟩)
        intro h' h3 h4
        by_cases h5 : h' = h
        · subst h5; exact hp
        · exact hz h' h3 (by omega)
  · rintro ⟨fl, t⟩ hs
    rcases hs with ⟨_, hF⟩ | ⟨_, hG, hz⟩
    · exact Ok.some (Or.inl hF)
    · exact Ok.some (Or.inr ⟨hG, hz⟩)

theorem pivotSearch_ok {G : List (BitVec 8)} {perm : List Nat} {v0 : Nat → Nat → ZMod 2} {k lG lp : Nat} (hk : k < K) (hkN : k < N)
    (hG : Found K N σ v0 k lG lp (G, perm) ∨ (∃ v π, St K N σ (G, perm) v π ∧ G.length = lG ∧ perm.length = lp ∧ Same K N v0 v ∧
      ∃ T, k < T ∧ Ech K N σ π v k T)) :
    Ok (pivotSearch N K k (G, perm)) (fun s => Found K N σ v0 k lG lp s ∨
      ∃ v π, Same K N v0 v ∧ Ech K N σ π v k N) := by
  unfold pivotSearch
  refine Ok.mono (forUp_inv (fun j s => Found K N σ v0 k lG lp s ∨ (∃ v π, St K N σ s v π ∧ s.1.length = lG ∧ s.2.length = lp ∧
    Same K N v0 v ∧ ∃ T, j ≤ T ∧ Ech K N σ π v k T)) (by omega) hG ?_) ?_
  · rintro j s h1 h2 hs
    rcases hs with ⟨v, π, S, l1, l2, S0, P⟩ | ⟨v, π, S, l1, l2, S0, T, hT, E⟩
    · rw [S.rep.rd (N_le_W N) hk hkN, P.one k (Nat.le_refl _)]
      dsimp only [Option.bind_eq_bind, Option.bind_some]
      rw [if_neg (by decide)]
      exact Ok.some (Or.inl ⟨v, π, S, l1, l2, S0, P⟩)
    · rw [S.rep.rd (N_le_W N) hk hkN, E.col (by omega) (Nat.le_refl _) hk]
      dsimp only [Option.bind_eq_bind, Option.bind_some]
      rw [if_pos (by decide)]
      refine (pivotThere_ok S E hk (by omega) (by omega) h2 hT).mono ?_
      rintro s' (⟨v', π', S', l1', l2', S0', P'⟩ | ⟨rfl, hz⟩)
      · exact Or.inl ⟨v', π', S', l1'.trans l1, l2'.trans l2, S0.trans S0', P'⟩
      · refine Or.inr ⟨v, π, S, l1, l2, S0, ?_⟩
        by_cases h : j < T
        · exact ⟨T, by omega, E⟩
        · have : T = j := by omega
          subst this
          rw [E.fix T (Nat.le_refl _)] at hz
          exact ⟨T + 1, by omega, E.extend h2 hz⟩
  · rintro s (h | ⟨v, π, S, _, _, S0, T, hT, E⟩)
    · exact Or.inl h
    · have := E.TN
      have e : T = N := by omega
      subst e
      exact Or.inr ⟨v, π, S0, E⟩

/-- Independent rows cannot run out of columns. -/
theorem Ech.room {k : Nat} (E : Ech K N σ π v k N) (hk : k < K) (hσ : ∀ p, p < N → ∃ t, t < N ∧ σ t = p) :
    ¬ FullRank K N v := by
  intro h
  have := h (fun j => if j = k then 1 else 0) (fun p hp => by
    obtain ⟨t, ht, rfl⟩ := hσ p hp
    simp only [ite_mul, one_mul, zero_mul, sum_ite_eq', mem_range, hk, if_true]
    exact E.zero k t (Nat.le_refl _) hk ht) k hk
  rw [if_pos rfl] at this
  exact absurd this (by decide)

theorem clearBelow_ok {s : List (BitVec 8) × List Nat} {k : Nat} (S : St K N σ s v π) (P : Piv K N σ π v k) (hk : k < K) (hkN : k < N) :
    Ok (clearBelow N K k s.1) (fun G' => G'.length = s.1.length ∧ ∃ v', St K N σ (G', s.2) v' π ∧ Same K N v v' ∧
      Ech K N σ π v' (k + 1) (π k + 1)) := by
  unfold clearBelow
  refine Ok.mono (forUp_inv (fun j G' => G'.length = s.1.length ∧ ∃ v', St K N σ (G', s.2) v' π ∧ Same K N v v' ∧
    Piv K N σ π v' k ∧ ∀ h, k < h → h < j → v' h (σ (π k)) = 0) (by omega) ⟨rfl, v, S, Same.refl _ _ _, P, fun h h1 h2 => by omega⟩ ?_) ?_
  · rintro j G1 h1 h2 ⟨l1, v1, S1, E1, P1, Z1⟩
    rw [S1.rep.rd (N_le_W N) h2 hkN]
    dsimp only [Option.bind_eq_bind, Option.bind_some]
    by_cases hp : bv (v1 j (σ (π k))) ≠ 0#8
    · rw [if_pos hp]
      rw [bv_ne] at hp
      refine (addRow_ok S1.rep (N_le_W N) h2 hk (by omega) (by omega) fun i hi =>
        P1.zero k _ (Nat.le_refl _) hk (P1.inc i k hi (Nat.le_refl _))).mono ?_
      rintro G2 ⟨l2, R2⟩
      rw [addV_comp v1 (fun i => σ (π i))] at R2
      refine ⟨l2.trans l1, addV v1 j k, ⟨R2, S1.perm⟩, E1.trans (same_add _ h2 hk (by omega)), ?_, ?_⟩
      · have e : ∀ a, a ≤ k → addV v1 j k a = v1 a := by
          intro a ha; unfold addV; rw [if_neg (by omega)]
        refine ⟨P1.kp, P1.pN, P1.fix, P1.inc, ?_, ?_, ?_⟩
        · intro a ha; rw [e a ha, P1.one a ha]
        · intro a t ha ht; rw [e a (by omega), P1.lead a t ha ht]
        · intro a t ha haK ht
          unfold addV
          by_cases h : a = j
          · subst h; rw [if_pos rfl, P1.zero a t ha haK ht, P1.zero k t (Nat.le_refl _) hk ht, add_zero]
          · rw [if_neg h, P1.zero a t ha haK ht]
      · intro h h3 h4
        unfold addV
        by_cases h5 : h = j
        · subst h5; rw [if_pos rfl, hp, P1.one k (Nat.le_refl _)]; decide
        · rw [if_neg h5, Z1 h h3 (by omega)]
    · rw [if_neg hp]
      rw [not_not, bv_eq] at hp
      refine Ok.some ⟨l1, v1, S1, E1, P1, ?_⟩
      intro h h3 h4
      by_cases h5 : h = j
      · subst h5; exact hp
      · exact Z1 h h3 (by omega)
  · rintro G1 ⟨l1, v1, S1, E1, P1, Z1⟩
    exact ⟨l1, v1, S1, E1, P1.next hk Z1⟩

theorem rowEchelon_ok {s : List (BitVec 8) × List Nat} (S : St K N σ s v (Equiv.refl _)) (hr : FullRank K N v)
    (hσ : ∀ p, p < N → ∃ t, t < N ∧ σ t = p) :
    Ok (rowEchelon N K s) (fun s' => s'.1.length = s.1.length ∧ s'.2.length = s.2.length ∧ K ≤ N ∧
      ∃ v' π, St K N σ s' v' π ∧ Same K N v v' ∧ ∃ T, Ech K N σ π v' K T) := by
  unfold rowEchelon
  refine Ok.mono (forUp_inv (fun k s' => s'.1.length = s.1.length ∧ s'.2.length = s.2.length ∧
    ∃ v' π, St K N σ s' v' π ∧ Same K N v v' ∧ ∃ T, Ech K N σ π v' k T) (Nat.zero_le _) ⟨rfl, rfl, v, _, S, Same.refl _ _ _, 0, ?_⟩ ?_) ?_
  · exact ⟨Nat.le_refl _, Nat.zero_le _, fun i _ => rfl, fun a b _ h => absurd h (Nat.not_lt_zero _), fun a h => absurd h (Nat.not_lt_zero _),
      fun a h => absurd h (Nat.not_lt_zero _), fun a t h => absurd h (Nat.not_lt_zero _), fun j t _ _ h => absurd h (Nat.not_lt_zero _)⟩
  · rintro k ⟨G1, p1⟩ _ hk ⟨l1, l2, v1, π1, S1, E1, T, H1⟩
    have hkN : k < N := by
      by_contra h
      have h1 := H1.kT
      have h2 := H1.TN
      have h3 : T = N := by omega
      subst h3
      exact H1.room hk hσ (E1.2 hr)
    dsimp only
    refine Ok.bind' (pivotHere_ok S1 H1 hk hkN) fun G2 hG2 => ?_
    have hG3 : Found K N σ v1 k G1.length p1.length (G2, p1) ∨ (∃ v π, St K N σ (G2, p1) v π ∧ G2.length = G1.length ∧
        p1.length = p1.length ∧ Same K N v1 v ∧ ∃ T, k < T ∧ Ech K N σ π v k T) := by
      rcases hG2 with h | ⟨rfl, T', h, h'⟩
      · exact Or.inl h
      · exact Or.inr ⟨v1, π1, S1, rfl, rfl, Same.refl _ _ _, T', h, h'⟩
    refine Ok.bind' (pivotSearch_ok hk hkN hG3) fun s3 hs3 => ?_
    rcases hs3 with ⟨v3, π3, S3, l3, l3', E3, P3⟩ | ⟨v3, π3, E3, H3⟩
    · rw [S3.rep.rd (N_le_W N) hk hkN, P3.one k (Nat.le_refl _)]
      dsimp only [Option.bind_eq_bind, Option.bind_some]
      refine Ok.bind (Ok.assertUB (P := fun _ => True) (by decide) trivial) fun _ _ => ?_
      refine Ok.bind (clearBelow_ok S3 P3 hk hkN) ?_
      rintro G4 ⟨l4, v4, S4, E4, H4⟩
      refine Ok.some ⟨?_, ?_, v4, π3, S4, E1.trans (E3.trans E4), _, H4⟩
      · exact l4.trans (l3.trans l1)
      · exact l3'.trans l2
    · exact absurd (E3.2 (E1.2 hr)) (H3.room hk hσ)
  · rintro s' ⟨l1, l2, v1, π1, S1, E1, T, H1⟩
    refine ⟨l1, l2, ?_, v1, π1, S1, E1, T, H1⟩
    have h1 := H1.kT
    have h2 := H1.TN
    omega

end Verif.OSD
