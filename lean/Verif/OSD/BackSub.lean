import Verif.OSD.Mat
/- The elimination above the diagonal. -/
namespace Verif.OSD
open Finset

variable {w n K N : Nat} {g : List (BitVec 8)}

/-- Unit upper triangular in the columns `q 0 .. q (K-1)`. -/
structure Tri (K : Nat) (q : Nat → Nat) (v : Nat → Nat → ZMod 2) : Prop where
  diag : ∀ a, a < K → v a (q a) = 1
  low : ∀ a i, a < K → i < a → v a (q i) = 0

theorem addV_comp (v : Nat → Nat → ZMod 2) (q : Nat → Nat) (j k : Nat) :
    addV (fun a i => v a (q i)) j k = fun a i => addV v j k a (q i) := by
  funext a i
  unfold addV
  split <;> rfl

theorem swapV_comp (v : Nat → Nat → ZMod 2) (q : Nat → Nat) (j k : Nat) :
    swapV (fun a i => v a (q i)) j k = fun a i => swapV v j k a (q i) := rfl

theorem Tri.add {q : Nat → Nat} {v : Nat → Nat → ZMod 2} (T : Tri K q v) {j k : Nat} (hjk : j < k) (hk : k < K) :
    Tri K q (addV v j k) := by
  refine ⟨fun a ha => ?_, fun a i ha hi => ?_⟩
  · unfold addV
    by_cases h : a = j
    · subst h; rw [if_pos rfl, T.diag a ha, T.low k a hk hjk, add_zero]
    · rw [if_neg h, T.diag a ha]
  · unfold addV
    by_cases h : a = j
    · subst h; rw [if_pos rfl, T.low a i ha hi, T.low k i hk (by omega), add_zero]
    · rw [if_neg h, T.low a i ha hi]

theorem backSub_ok {q : Nat → Nat} {v : Nat → Nat → ZMod 2} (hn : n ≤ w) (hK : K ≤ n)
    (R : Rep w n K g fun j i => v j (q i)) (T : Tri K q v) :
    Ok (backSub w n K g) (fun g' => g'.length = g.length ∧ ∃ v', Rep w n K g' (fun j i => v' j (q i)) ∧
      Same K N v v' ∧ ∀ a b, a < K → b < K → v' a (q b) = if a = b then 1 else 0) := by
  unfold backSub
  refine Ok.mono (forDown_inv (lo := 1) (fun m g' => g'.length = g.length ∧ ∃ v', Rep w n K g' (fun j i => v' j (q i)) ∧
    Same K N v v' ∧ Tri K q v' ∧ ∀ a b, 1 + m ≤ b → b < K → a < b → v' a (q b) = 0) (K - 1) g ⟨rfl, v, R, Same.refl _ _ _, T, ?_⟩ ?_) ?_
  · intro a b h1 h2; omega
  · rintro j0 g1 hj0 ⟨l1, v1, R1, S1, T1, C1⟩
    set k := 1 + j0 with hk
    have hkK : k < K := by omega
    refine Ok.mono (forUp_inv (fun t g' => g'.length = g.length ∧ ∃ v', Rep w n K g' (fun j i => v' j (q i)) ∧
      Same K N v v' ∧ Tri K q v' ∧ (∀ a b, k < b → b < K → a < b → v' a (q b) = 0) ∧ ∀ a, a < t → v' a (q k) = 0)
      (Nat.zero_le _) ⟨l1, v1, R1, S1, T1, ?_, ?_⟩ ?_) ?_
    · intro a b h1 h2 h3; exact C1 a b (by omega) h2 h3
    · intro a h; omega
    · rintro j g2 _ hj ⟨l2, v2, R2, S2, T2, C2, D2⟩
      rw [R2.rd hn (by omega) (by omega)]
      dsimp only [Option.bind_eq_bind, Option.bind_some]
      by_cases hp : bv (v2 j (q k)) ≠ 0#8
      · rw [if_pos hp]
        rw [bv_ne] at hp
        refine (addRow_ok R2 hn (by omega) hkK (by omega) (by omega) fun i hi => T2.low k i hkK hi).mono ?_
        rintro g3 ⟨l3, R3⟩
        rw [addV_comp] at R3
        refine ⟨l3.trans l2, _, R3, S2.trans (same_add _ (by omega) hkK (by omega)), T2.add hj hkK, ?_, ?_⟩
        · intro a b h1 h2 h3
          unfold addV
          by_cases h : a = j
          · subst h; rw [if_pos rfl, C2 a b h1 h2 h3, C2 k b h1 h2 h1, add_zero]
          · rw [if_neg h, C2 a b h1 h2 h3]
        · intro a ha
          unfold addV
          by_cases h : a = j
          · subst h; rw [if_pos rfl, hp, T2.diag k hkK]; decide
          · rw [if_neg h, D2 a (by omega)]
      · rw [if_neg hp]
        rw [not_not, bv_eq] at hp
        refine Ok.some ⟨l2, v2, R2, S2, T2, C2, ?_⟩
        intro a ha
        by_cases h : a = j
        · subst h; exact hp
        · exact D2 a (by omega)
    · rintro g2 ⟨l2, v2, R2, S2, T2, C2, D2⟩
      refine ⟨l2, v2, R2, S2, T2, ?_⟩
      intro a b h1 h2 h3
      by_cases h : b = k
      · subst h; exact D2 a h3
      · exact C2 a b (by omega) h2 h3
  · rintro g1 ⟨l1, v1, R1, S1, T1, C1⟩
    refine ⟨l1, v1, R1, S1, ?_⟩
    intro a b ha hb
    by_cases h : a = b
    · subst h; rw [if_pos rfl, T1.diag a ha]
    · rw [if_neg h]
      rcases Nat.lt_or_gt_of_ne h with h | h
      · exact C1 a b (by omega) hb h
      · exact T1.low a b ha h

end Verif.OSD
