import Verif.OSD.Prep
/- The nested loops: which words are visited. -/
namespace Verif.OSD
open Finset
open Verif.RS (sb)

variable {K N : Nat}

/-- The sets of rows added, in the order of the visits. -/
def vis (K : Nat) : Nat → Nat → List (List Nat)
  | 0, _ => []
  | n + 1, lo => (List.range' lo (K - lo)).flatMap fun a => [a] :: (vis K n (a + 1)).map (a :: ·)

/-- Sum of rows. -/
def sumV (v : Nat → Nat → ZMod 2) (A : List Nat) : Nat → ZMod 2 := (A.map v).sum

theorem nest_ok {σ τ : Type} {fl : Nat → σ → Option σ} {upd : σ → Option σ} {O : Nat} {v : Nat → Nat → ZMod 2}
    (R : (Nat → ZMod 2) → τ → σ → Prop) (step : (Nat → ZMod 2) → τ → τ)
    (hf : ∀ c x s a, a < K → R c x s → Ok (fl a s) (R (c + v a) x))
    (hu : ∀ c x s, R c x s → Ok (upd s) (R c (step c x))) :
    ∀ depth lvl lo c x s, lo ≤ K → R c x s → Ok (nest fl upd K O depth lvl lo s)
      (R c ((vis K (min depth (O + 1 - lvl)) lo).foldl (fun x A => step (c + sumV v A) x) x)) := by
  intro depth
  induction depth with
  | zero => intro lvl lo c x s _ hR; unfold nest; rw [Nat.zero_min]; exact Ok.some hR
  | succ depth ih =>
    intro lvl lo c x s hlo hR
    unfold nest
    by_cases hO : O ≥ lvl
    · rw [if_pos hO, show min (depth + 1) (O + 1 - lvl) = min depth (O + 1 - (lvl + 1)) + 1 by omega]
      unfold vis
      refine Ok.mono (forUp_inv (fun j s => R c (((List.range' lo (j - lo)).flatMap fun a => [a] ::
        (vis K (min depth (O + 1 - (lvl + 1))) (a + 1)).map (a :: ·)).foldl (fun x A => step (c + sumV v A) x) x) s)
        hlo (by rw [Nat.sub_self]; exact hR) ?_) (fun _ h => h)
      intro a s1 h1 h2 hR1
      refine Ok.bind' (hf _ _ _ a h2 hR1) fun s2 hR2 => ?_
      refine Ok.bind' (hu _ _ _ hR2) fun s3 hR3 => ?_
      refine Ok.bind' (ih (lvl + 1) (a + 1) _ _ _ (by omega) hR3) fun s4 hR4 => ?_
      refine (hf _ _ _ a h2 hR4).mono fun s5 hR5 => ?_
      have e1 : c + v a + v a = c := by
        funext p; rw [Pi.add_apply, Pi.add_apply, add_assoc, zz, add_zero]
      rw [e1] at hR5
      rw [show a + 1 - lo = (a - lo) + 1 by omega, List.range'_concat, List.flatMap_append, List.foldl_append,
        show lo + 1 * (a - lo) = a by omega, List.flatMap_cons, List.flatMap_nil, List.append_nil, List.foldl_cons, List.foldl_map]
      have e2 : ∀ A, c + sumV v (a :: A) = c + v a + sumV v A := by
        intro A; unfold sumV; rw [List.map_cons, List.sum_cons, add_assoc]
      have e3 : c + v a + sumV v [] = c + v a := by
        unfold sumV; rw [List.map_nil, List.sum_nil, add_zero]
      simp only [e2, e3]
      exact hR5
    · rw [if_neg hO, show min (depth + 1) (O + 1 - lvl) = 0 by omega]
      exact Ok.some hR

/-- The visits are the strictly increasing sequences. -/
theorem mem_vis {K : Nat} : ∀ (n lo : Nat) (A : List Nat), A ∈ vis K n lo ↔
    A.Pairwise (· < ·) ∧ (∀ a ∈ A, lo ≤ a ∧ a < K) ∧ 1 ≤ A.length ∧ A.length ≤ n := by
  intro n
  induction n with
  | zero =>
    intro lo A
    unfold vis
    constructor
    · intro h; exact absurd h List.not_mem_nil
    · rintro ⟨_, _, h1, h2⟩; omega
  | succ n ih =>
    intro lo A
    unfold vis
    rw [List.mem_flatMap]
    constructor
    · rintro ⟨a, ha, h⟩
      rw [List.mem_range'_1] at ha
      rw [List.mem_cons, List.mem_map] at h
      rcases h with rfl | ⟨B, hB, rfl⟩
      · refine ⟨List.pairwise_singleton _ _, ?_, by simp, by simp⟩
        intro b hb
        rw [List.mem_singleton.1 hb]; omega
      · obtain ⟨h1, h2, h3, h4⟩ := (ih _ _).1 hB
        refine ⟨List.pairwise_cons.2 ⟨fun b hb => by have := h2 b hb; omega, h1⟩, ?_, by simp, by simp; omega⟩
        intro b hb
        rcases List.mem_cons.1 hb with rfl | hb
        · omega
        · have := h2 b hb; omega
    · rintro ⟨h1, h2, h3, h4⟩
      cases A with
      | nil => simp at h3
      | cons a B =>
        have ha := h2 a (by simp)
        refine ⟨a, by rw [List.mem_range'_1]; omega, ?_⟩
        rw [List.pairwise_cons] at h1
        rw [List.mem_cons, List.mem_map]
        cases B with
        | nil => exact Or.inl rfl
        | cons b B =>
          right
          refine ⟨b :: B, (ih _ _).2 ⟨h1.2, ?_, by simp, by simp at h4 ⊢; omega⟩, rfl⟩
          intro x hx
          have := h1.1 x hx
          have := h2 x (List.mem_cons_of_mem _ hx)
          omega

theorem nodup_vis {K : Nat} : ∀ (n lo : Nat), (vis K n lo).Nodup := by
  intro n
  induction n with
  | zero => intro lo; unfold vis; exact List.nodup_nil
  | succ n ih =>
    intro lo
    unfold vis
    rw [List.nodup_flatMap]
    constructor
    · intro a _
      rw [List.nodup_cons]
      refine ⟨?_, (ih _).map fun x y h => (List.cons.inj h).2⟩
      intro h
      obtain ⟨B, hB, e⟩ := List.mem_map.1 h
      have := ((mem_vis _ _ _).1 hB).2.2.1
      cases B with
      | nil => simp at this
      | cons b B => simp at e
    · have hnd : (List.range' lo (K - lo)).Nodup := List.nodup_range'
      refine hnd.imp ?_
      intro a b hne
      show List.Disjoint _ _
      intro A h1 h2
      have hh : ∀ x, A ∈ [x] :: (vis K n (x + 1)).map (x :: ·) → A.head? = some x := by
        intro x hx
        rw [List.mem_cons, List.mem_map] at hx
        rcases hx with rfl | ⟨B, _, rfl⟩ <;> rfl
      have := (hh a h1).symm.trans (hh b h2)
      exact hne (Option.some.inj this)

variable {g : Nat → Nat → ZMod 2} {soft : List (BitVec 8)} {M : Mem} {q : Nat → Nat} {v : Nat → Nat → ZMod 2}

/-- The words visited: the encoded hard decisions first. -/
def words (K D : Nat) (soft : List (BitVec 8)) (q : Nat → Nat) (v : Nat → Nat → ZMod 2) : List (Nat → ZMod 2) :=
  base K soft q v :: (vis K D 0).map fun A => base K soft q v + sumV v A

/-- An array holds a word in the order of the columns. -/
def Holds (N : Nat) (q : Nat → Nat) (a : List (BitVec 8)) (c : Nat → ZMod 2) : Prop :=
  ∀ i, i < N → a.getD i 0 = bv (c (q i))

theorem flip_ok {cw : List (BitVec 8)} {c : Nat → ZMod 2} (P : Prep N K g soft M q v) (hl : cw.length = W N) (hc : Holds N q cw c)
    {a : Nat} (ha : a < K) :
    Ok (flip N M.G a cw) (fun cw' => cw'.length = W N ∧ Holds N q cw' (c + v a)) := by
  have hW := N_le_W N
  unfold flip
  refine Ok.mono (forUp_inv (fun t (cw' : List (BitVec 8)) => cw'.length = W N ∧
    ∀ i, i < N → cw'.getD i 0 = bv (if i < t then c (q i) + v a (q i) else c (q i))) (Nat.zero_le _)
    ⟨hl, fun i hi => by rw [if_neg (by omega), hc i hi]⟩ ?_) ?_
  · rintro t cw1 _ ht ⟨l1, h1⟩
    have hb : W N * a + t < M.G.length := by rw [P.valid.G]; exact idx_lt ha ht
    rw [rd_of_lt (show t < cw1.length by omega), rd_of_lt hb]
    dsimp only [Option.bind_eq_bind, Option.bind_some]
    refine Ok.wr (by omega) ⟨by rw [List.length_set]; exact l1, ?_⟩
    intro i hi
    rw [getD_set]
    by_cases h : t = i
    · subst h
      rw [if_pos ⟨rfl, by omega⟩, if_pos (by omega), getElem_eq_getD (by omega) 0, getElem_eq_getD hb 0, h1 t hi, if_neg (by omega),
        P.rep.ent a t ha hi, bv_xor]
    · rw [if_neg (by omega), h1 i hi]
      by_cases h2 : i < t
      · rw [if_pos h2, if_pos (by omega)]
      · rw [if_neg h2, if_neg (by omega)]
  · rintro cw1 ⟨l1, h1⟩
    refine ⟨l1, fun i hi => ?_⟩
    rw [h1 i hi, if_pos (by omega)]; rfl

theorem sum_perm {q : Nat → Nat} (h1 : ∀ i, i < N → q i < N) (h2 : ∀ i j, i < N → j < N → q i = q j → i = j) (f : Nat → Int) :
    ∑ i ∈ range N, f (q i) = ∑ p ∈ range N, f p := by
  have hinj : Set.InjOn q (range N) := by
    intro i hi j hj h
    rw [Finset.mem_coe, mem_range] at hi hj
    exact h2 i j hi hj h
  rw [← Finset.sum_image (g := q) (f := f) hinj]
  congr 1
  refine Finset.eq_of_subset_of_card_le ?_ ?_
  · intro p hp
    obtain ⟨i, hi, rfl⟩ := Finset.mem_image.1 hp
    rw [mem_range] at hi ⊢
    exact h1 i hi
  · rw [Finset.card_image_of_injOn hinj]

theorem metric_ok {cw : List (BitVec 8)} {c : Nat → ZMod 2} (P : Prep N K g soft M q v) (hl : cw.length = W N) (hc : Holds N q cw c) :
    metric N cw M.softperm = some (corr N soft c) := by
  have hW := N_le_W N
  have hsl := P.valid.softperm
  set f : Nat → Int := fun i => (1 - 2 * (cw.getD i 0).toInt) * (M.softperm.getD i 0).toInt with hf
  have h1 : Ok (metric N cw M.softperm) (fun x => x = ∑ i ∈ range (W N), f i) := by
    unfold metric
    refine forUp_inv (fun t (x : Int) => x = ∑ i ∈ range t, f i) (Nat.zero_le _) (by rw [sum_range_zero]) ?_
    rintro t x _ ht rfl
    rw [rd_of_lt (show t < cw.length by omega), rd_of_lt (show t < M.softperm.length by omega)]
    dsimp only [Option.bind_eq_bind, Option.bind_some]
    refine Ok.some ?_
    rw [sum_range_succ, getElem_eq_getD (by omega) 0, getElem_eq_getD (by omega) 0]
  have h2 : ∑ i ∈ range (W N), f i = corr N soft c := by
    have e : ∑ i ∈ range (W N), f i = ∑ i ∈ range N, f i := by
      symm
      refine Finset.sum_subset (fun i hi => by rw [mem_range] at *; omega) ?_
      intro i hi hni
      rw [mem_range] at hi hni
      rw [hf]
      dsimp only
      rw [P.spz i (by omega) hi]
      simp
    rw [e]
    unfold corr
    rw [← sum_perm P.qlt P.qinj fun p => if c p = 0 then val soft p else - val soft p]
    refine Finset.sum_congr rfl fun i hi => ?_
    rw [mem_range] at hi
    rw [hf]
    dsimp only
    rw [hc i hi, P.sp i hi, bv_int]
    split
    · rw [one_mul]
    · rw [neg_one_mul]
  obtain ⟨x, hx, rfl⟩ := h1
  rw [hx, h2]

end Verif.OSD
