import Verif.Polar.LanesProof
import Verif.Sort.Props
/- The pieces shared by the nodes of the two list decoders. -/
namespace Verif.Polar
open PolarHelper (I8 prodV maddV qmulV)
open Hadamard (chk)
open Verif.RS (sb)
variable {L : Nat}

/-- The penalty of deciding for the symbol `b` on the soft value `s`. -/
def pen (s b : Int) : Int := max 0 (-(b * s))

theorem pen_one (s : Int) : pen s 1 = neg s := by simp [pen, neg]
theorem pen_neg (s : Int) : pen s (-1) = max 0 s := by simp [pen]

theorem chk_of {x : Int} (h : -2 ^ 31 ≤ x ∧ x < 2 ^ 31) : chk x = some x := by unfold chk; rw [if_pos h]

theorem lane_of {α : Type} (r : Fin L → α) {k : Nat} (h : k < L) : lane r k = some (r ⟨k, h⟩) := by unfold lane; rw [dif_pos h]

theorem tab_of {α : Type} {f : Fin L → Option α} {g : Fin L → α} (h : ∀ k, f k = some (g k)) : tab f = some g := by
  unfold tab
  have h' : ∀ k, (f k).isSome := fun k => by rw [h k]; rfl
  rw [dif_pos h']
  congr 1
  funext k
  simp [h k]

/-- The metrics are `L` numbers between 0 and `B`. -/
def Met (L : Nat) (B : Int) (m : List Int) : Prop := m.length = L ∧ ∀ k, k < L → 0 ≤ m.getD k 0 ∧ m.getD k 0 ≤ B

theorem charge_ok {v : Reg L} {m : List Int} {B : Int} (h8 : ∀ k, I8 (v k)) (hm : Met L B m) (hB : B + 128 < 2 ^ 31) :
    ∃ m', charge v m = some m' ∧ Met L (B + 128) m' ∧ ∀ k : Fin L, m'.getD k 0 = m.getD k 0 + neg (v k) := by
  have key : Ok (charge v m) (fun m' => m'.length = L ∧ ∀ k : Fin L, m'.getD k 0 = m.getD k 0 + neg (v k)) := by
    unfold charge
    refine Ok.mono (forUp_inv (fun j (a : List Int) => a.length = L ∧ ∀ k : Fin L, a.getD k 0 = m.getD k 0 + if k.val < j then neg (v k) else 0)
      (Nat.zero_le _) ⟨hm.1, fun k => by simp⟩ ?_) ?_
    · rintro j a _ hj ⟨a1, a2⟩
      rw [lane_of v hj, sb]
      have hv := h8 ⟨j, hj⟩
      have aj := a2 ⟨j, hj⟩
      have mj := hm.2 j hj
      rw [if_neg (lt_irrefl _), add_zero] at aj
      dsimp only at aj
      by_cases hs : v ⟨j, hj⟩ < 0
      · rw [if_pos hs, rd_of_lt (by omega), sb, getElem_eq_getD _ 0, aj, chk_of (by unfold I8 at hv; omega), sb, wr_of_lt (by omega)]
        refine Ok.some ⟨by rw [List.length_set, a1], fun k => ?_⟩
        rw [getD_set]
        by_cases hk : j = k.val
        · subst hk
          rw [if_pos ⟨rfl, by omega⟩, if_pos (by omega)]
          unfold neg
          dsimp only [Fin.eta] at hs ⊢
          omega
        · rw [if_neg (by tauto), a2 k]
          congr 1
          by_cases h : k.val < j
          · rw [if_pos h, if_pos (by omega)]
          · rw [if_neg h, if_neg (by omega)]
      · rw [if_neg hs]
        refine Ok.some ⟨a1, fun k => ?_⟩
        rw [a2 k]
        congr 1
        by_cases hk : j = k.val
        · subst hk
          rw [if_neg (lt_irrefl _), if_pos (by omega)]
          unfold neg
          dsimp only [Fin.eta] at hs ⊢
          omega
        · by_cases h : k.val < j
          · rw [if_pos h, if_pos (by omega)]
          · rw [if_neg h, if_neg (by omega)]
    · rintro a ⟨a1, a2⟩
      exact ⟨a1, fun k => by rw [a2 k, if_pos k.isLt]⟩
  obtain ⟨m', e, h1, h2⟩ := key
  refine ⟨m', e, ⟨h1, fun k hk => ?_⟩, h2⟩
  have := h2 ⟨k, hk⟩
  have hv := h8 ⟨k, hk⟩
  have := hm.2 k hk
  unfold neg I8 at *
  dsimp only at *
  omega

/-- The position of a continuation in the array `fork`. -/
def cont (j : Nat) (b : Int) : Nat := 2 * j + if b = 1 then 0 else 1

theorem cont_one (j : Nat) : cont j 1 = 2 * j := by simp [cont]
theorem cont_neg (j : Nat) : cont j (-1) = 2 * j + 1 := by simp [cont]

theorem fork_ok {v : Reg L} {m : List Int} {B : Int} (h8 : ∀ k, I8 (v k)) (hm : Met L B m) (hB : B + 128 < 2 ^ 31) :
    ∃ f, fork v m = some f ∧ f.length = 2 * L ∧ ∀ (k : Fin L) b, Sym b → f.getD (cont k b) 0 = m.getD k 0 + pen (v k) b := by
  have key : Ok (fork v m) (fun f => f.length = 2 * L ∧ ∀ k : Fin L, f.getD (2 * k) 0 = m.getD k 0 + pen (v k) 1 ∧
      f.getD (2 * k + 1) 0 = m.getD k 0 + pen (v k) (-1)) := by
    unfold fork
    refine Ok.bind' (forUp_inv (fun j (a : List Int) => a.length = 2 * L ∧ ∀ k, k < j → a.getD (2 * k) 0 = m.getD k 0 ∧ a.getD (2 * k + 1) 0 = m.getD k 0)
      (Nat.zero_le _) ⟨by simp, fun k hk => by omega⟩ ?_) ?_
    · rintro j a _ hj ⟨a1, a2⟩
      have := hm.1
      rw [rd_of_lt (by omega), sb, getElem_eq_getD _ 0, wr_of_lt (by omega), sb, wr_of_lt (by rw [List.length_set]; omega)]
      refine Ok.some ⟨by simp [a1], fun k hk => ?_⟩
      simp only [getD_set, List.length_set]
      by_cases h : k = j
      · subst h
        rw [if_neg (by omega), if_pos (by omega), if_pos (by omega)]
        exact ⟨rfl, rfl⟩
      · rw [if_neg (by omega), if_neg (by omega), if_neg (by omega), if_neg (by omega)]
        exact a2 k (by omega)
    · rintro a ⟨a1, a2⟩
      refine Ok.mono (forUp_inv (fun j (f : List Int) => f.length = 2 * L ∧ ∀ k : Fin L,
        f.getD (2 * k) 0 = m.getD k 0 + (if k.val < j then pen (v k) 1 else 0) ∧
        f.getD (2 * k + 1) 0 = m.getD k 0 + (if k.val < j then pen (v k) (-1) else 0))
        (Nat.zero_le _) ⟨a1, fun k => by
          rw [if_neg (Nat.not_lt_zero _), if_neg (Nat.not_lt_zero _), add_zero]; exact a2 k k.isLt⟩ ?_) ?_
      · rintro j f _ hj ⟨f1, f2⟩
        rw [lane_of v hj, sb]
        have hv := h8 ⟨j, hj⟩
        have fj := f2 ⟨j, hj⟩
        have mj := hm.2 j hj
        rw [if_neg (lt_irrefl _), if_neg (lt_irrefl _), add_zero] at fj
        dsimp only at fj
        have split : ∀ (k : Fin L), k.val ≠ j → ∀ x : Int, (if k.val < j then x else 0) = (if k.val < j + 1 then x else 0) := by
          intro k hk x
          by_cases h : k.val < j
          · rw [if_pos h, if_pos (by omega)]
          · rw [if_neg h, if_neg (by omega)]
        by_cases hs : v ⟨j, hj⟩ < 0
        · rw [if_pos hs, rd_of_lt (by omega), sb, getElem_eq_getD _ 0, fj.1, chk_of (by unfold I8 at hv; omega), sb, wr_of_lt (by omega)]
          refine Ok.some ⟨by rw [List.length_set, f1], fun k => ?_⟩
          simp only [getD_set]
          by_cases hk : k.val = j
          · subst hk
            rw [if_pos (show 2 * k.val = 2 * k.val ∧ 2 * k.val < f.length by omega), if_neg (show ¬ (2 * k.val = 2 * k.val + 1 ∧ 2 * k.val < f.length) by omega),
              if_pos (by omega), if_pos (by omega), fj.2, pen_one, pen_neg]
            unfold neg
            dsimp only [Fin.eta] at hs ⊢
            omega
          · rw [if_neg (show ¬ (2 * j = 2 * k.val ∧ 2 * j < f.length) by omega), if_neg (show ¬ (2 * j = 2 * k.val + 1 ∧ 2 * j < f.length) by omega), ← split k hk, ← split k hk]
            exact f2 k
        · rw [if_neg hs, rd_of_lt (by omega), sb, getElem_eq_getD _ 0, fj.2, chk_of (by unfold I8 at hv; omega), sb, wr_of_lt (by omega)]
          refine Ok.some ⟨by rw [List.length_set, f1], fun k => ?_⟩
          simp only [getD_set]
          by_cases hk : k.val = j
          · subst hk
            rw [if_neg (show ¬ (2 * k.val + 1 = 2 * k.val ∧ 2 * k.val + 1 < f.length) by omega), if_pos (show 2 * k.val + 1 = 2 * k.val + 1 ∧ 2 * k.val + 1 < f.length by omega),
              if_pos (by omega), if_pos (by omega), fj.1, pen_one, pen_neg]
            unfold neg
            dsimp only [Fin.eta] at hs ⊢
            omega
          · rw [if_neg (show ¬ (2 * j + 1 = 2 * k.val ∧ 2 * j + 1 < f.length) by omega), if_neg (show ¬ (2 * j + 1 = 2 * k.val + 1 ∧ 2 * j + 1 < f.length) by omega), ← split k hk, ← split k hk]
            exact f2 k
      · rintro f ⟨f1, f2⟩
        exact ⟨f1, fun k => by have := f2 k; rwa [if_pos k.isLt, if_pos k.isLt] at this⟩
  obtain ⟨f, e, h1, h2⟩ := key
  refine ⟨f, e, h1, fun k b hb => ?_⟩
  rcases hb with rfl | rfl
  · rw [cont_one]; exact (h2 k).1
  · rw [cont_neg]; exact (h2 k).2

theorem ltZ_weak : Verif.Sort.StrictWeak (fun a b : Int => decide (a < b)) where
  asymm x y h := by simp at h ⊢; omega
  negtrans x y z h := by simp at h ⊢; omega

theorem cont_cases {p : Nat} : cont (p / 2) (1 - 2 * ((p % 2 : Nat) : Int)) = p := by
  unfold cont
  rcases Nat.mod_two_eq_zero_or_one p with h | h <;> rw [h] <;> simp <;> omega

/-- The continuation at a place of the array `fork`. -/
def contAt [NeZero L] (f : List Int) (p : Nat) : Fin L × Int × Int := (Fin.ofNat L (p / 2), 1 - 2 * ((p % 2 : Nat) : Int), f.getD p 0)

theorem conts_eq [NeZero L] (f : List Int) :
    ((List.finRange L).flatMap fun j : Fin L => [(j, (1 : Int), f.getD (cont j 1) 0), (j, -1, f.getD (cont j (-1)) 0)]) = (List.range (2 * L)).map (contAt f) := by
  have key : ∀ n, (h : n ≤ L) → ((List.range n).flatMap fun j => [((Fin.ofNat L j : Fin L), (1 : Int), f.getD (cont j 1) 0), (Fin.ofNat L j, -1, f.getD (cont j (-1)) 0)]) =
      (List.range (2 * n)).map (contAt f) := by
    intro n
    induction n with
    | zero => intro _; rfl
    | succ n ih =>
      intro h
      rw [List.range_succ, List.flatMap_append, ih (by omega), show 2 * (n + 1) = 2 * n + 1 + 1 by ring, List.range_succ, List.range_succ, List.map_append, List.map_append, List.append_assoc]
      congr 1
      simp only [List.flatMap_cons, List.flatMap_nil, List.append_nil, List.map_cons, List.map_nil, contAt, cont_one, cont_neg]
      rw [show 2 * n / 2 = n by omega, show (2 * n + 1) / 2 = n by omega, show 2 * n % 2 = 0 by omega, show (2 * n + 1) % 2 = 1 by omega]
      norm_num
  rw [← key L le_rfl, ← List.map_coe_finRange_eq_range, List.flatMap_map]
  congr 1
  funext j
  simp

theorem zipLE_of {α β : Type} {a b : α × β × Int} {i j : Nat} (h1 : a.2.2 ≤ b.2.2) (h2 : b.2.2 ≤ a.2.2 → i ≤ j) :
    List.zipIdxLE (fun a b : α × β × Int => decide (a.2.2 ≤ b.2.2)) (a, i) (b, j) = true := by
  by_cases h : b.2.2 ≤ a.2.2
  · simp [List.zipIdxLE, h1, h, h2 h]
  · simp [List.zipIdxLE, h1, h]

theorem prune_keep [NeZero L] {f b m' : List Int} {q : List Nat} (hf : f.length = 2 * L) (ql : q.length = 2 * L) (bl : b.length = 2 * L) (m1 : m'.length = L)
    (hq : q.Perm (List.range (2 * L))) (hbf : ∀ i (h : i < q.length), b.getD i 0 = f.getD q[i] 0) (bsort : ∀ i j, i ≤ j → j < 2 * L → b.getD i 0 ≤ b.getD j 0)
    (m2 : ∀ k, k < L → m'.getD k 0 = b.getD k 0)
    (hstab : ∀ i j (hj : j < q.length) (hij : i < j), (∀ x y, b[i]? = some x → b[j]? = some y → decide (x < y) = false) → q[i] < q[j]) :
    List.ofFn (fun k : Fin L => (src (fun k : Fin L => q.getD k 0 / 2) k, (1 - 2 * ((q.getD k 0 % 2 : Nat) : Int)), m'.getD k 0)) =
      keep L ((List.finRange L).flatMap fun j : Fin L => [(j, (1 : Int), f.getD (cont j 1) 0), (j, -1, f.getD (cont j (-1)) 0)]) := by
  have hL : 0 < L := Nat.pos_of_ne_zero (NeZero.ne L)
  have qlt : ∀ i (h : i < q.length), q[i] < 2 * L := fun i h => List.mem_range.1 (hq.mem_iff.1 (List.getElem_mem h))
  have key : q.map (contAt f) = ((List.range (2 * L)).map (contAt (L := L) f)).mergeSort fun a b => decide (a.2.2 ≤ b.2.2) := by
    rw [← List.mergeSort_zipIdx]
    have hz : ((List.range (2 * L)).map (contAt (L := L) f)).zipIdx = (List.range (2 * L)).map fun i => (contAt f i, i) := by
      refine List.ext_getElem (by simp) fun i h1 h2 => ?_
      simp
    rw [hz]
    have : q.map (fun i => (contAt (L := L) f i, i)) = ((List.range (2 * L)).map fun i => (contAt (L := L) f i, i)).mergeSort (List.zipIdxLE fun a b => decide (a.2.2 ≤ b.2.2)) := by
      refine List.Perm.eq_of_pairwise (le := fun a b => List.zipIdxLE (fun a b : Fin L × Int × Int => decide (a.2.2 ≤ b.2.2)) a b = true) ?_ ?_ ?_ ((hq.map _).trans (List.mergeSort_perm _ _).symm)
      · rintro ⟨a, i⟩ ⟨c, j⟩ ha hc h1 h2
        obtain ⟨i', _, hi⟩ := List.mem_map.1 ha
        have hc := (List.mergeSort_perm _ _).mem_iff.1 hc
        obtain ⟨j', _, hj⟩ := List.mem_map.1 hc
        injection hi with hi hi'
        injection hj with hj hj'
        subst hi' hj'
        have : i' = j' := by
          simp only [List.zipIdxLE] at h1 h2
          by_cases hac : a.2.2 ≤ c.2.2 <;> by_cases hca : c.2.2 ≤ a.2.2 <;> simp [hac, hca] at h1 h2 <;> omega
        subst this
        rw [← hi, ← hj]
      · rw [List.pairwise_map, List.pairwise_iff_getElem]
        intro i j hi hj hij
        have h1 := bsort i j hij.le (by omega)
        rw [hbf i hi, hbf j hj] at h1
        refine zipLE_of h1 fun h2 => ?_
        refine (hstab i j hj hij (fun x y hx hy => ?_)).le
        have ex : x = b.getD i 0 := by rw [List.getD_eq_getElem?_getD, hx]; rfl
        have ey : y = b.getD j 0 := by rw [List.getD_eq_getElem?_getD, hy]; rfl
        have h2 : f.getD q[j] 0 ≤ f.getD q[i] 0 := h2
        rw [ex, ey, hbf i hi, hbf j hj, decide_eq_false_iff_not]; omega
      · have h := List.pairwise_mergeSort (le := List.zipIdxLE fun a b : Fin L × Int × Int => decide (a.2.2 ≤ b.2.2))
          (List.zipIdxLE_trans fun a b c h1 h2 => by simp at *; omega) (List.zipIdxLE_total fun a b => by simp; omega)
          ((List.range (2 * L)).map fun i => (contAt (L := L) f i, i))
        exact h
    rw [← this, List.map_map]
    rfl
  rw [conts_eq]
  unfold keep
  rw [← key]
  refine List.ext_getElem (by simp [ql]; omega) fun i h1 h2 => ?_
  have hi : i < L := by simpa using h1
  have hi' : i < q.length := by omega
  rw [List.getElem_ofFn, List.getElem_take, List.getElem_map]
  have hlt := qlt i hi'
  have hqi : q.getD i 0 = q[i] := (getElem_eq_getD hi' 0).symm
  unfold contAt
  dsimp only
  rw [hqi, m2 i hi, hbf i hi']
  refine Prod.ext ?_ rfl
  dsimp only
  unfold src
  dsimp only
  rw [dif_pos (by rw [hqi]; omega)]
  apply Fin.ext
  simp only [hqi, Fin.val_ofNat]
  rw [Nat.mod_eq_of_lt (by omega)]

theorem prune_ok [NeZero L] {f m : List Int} (hL : 0 < L) (hL' : L ≤ 256) (hf : f.length = 2 * L) (hm : m.length = L) :
    ∃ m' map hrd, prune (L := L) f m = some (m', map, hrd) ∧ m'.length = L ∧ (∀ k, map k < L) ∧ (∀ k, Sym (hrd k)) ∧
      (∀ k : Fin L, m'.getD k 0 = f.getD (cont (map k) (hrd k)) 0) ∧ (∀ k k', map k = map k' → hrd k = hrd k' → k = k') ∧
      (∀ k k' : Fin L, k ≤ k' → m'.getD k 0 ≤ m'.getD k' 0) ∧
      (∀ (j : Fin L) b, Sym b → (∀ k, ¬ (map k = j.val ∧ hrd k = b)) → ∀ k : Fin L, m'.getD k 0 ≤ f.getD (cont j b) 0) ∧
      List.ofFn (fun k => (src map k, hrd k, m'.getD k 0)) =
        keep L ((List.finRange L).flatMap fun j : Fin L => [(j, (1 : Int), f.getD (cont j 1) 0), (j, -1, f.getD (cont j (-1)) 0)]) := by
  obtain ⟨q, b, e, hsort, hq, hb, hstab⟩ := Verif.Sort.C16_indices (fun a b : Int => decide (a < b)) ltZ_weak (id : Nat → Nat) (List.replicate (2 * L) 0) f
    (by simp [hf]) (by omega)
  rw [hf] at e hq
  have ql : q.length = 2 * L := by rw [hq.length_eq]; simp
  have bl : b.length = 2 * L := by rw [hsort.perm.length_eq, hf]
  have qlt : ∀ i (h : i < q.length), q[i] < 2 * L := fun i h => List.mem_range.1 (hq.mem_iff.1 (List.getElem_mem h))
  have hbf : ∀ i (h : i < q.length), b.getD i 0 = f.getD q[i] 0 := by
    intro i h
    have := hb i h
    rw [List.getD_eq_getElem?_getD, List.getD_eq_getElem?_getD, this]
  have bsort : ∀ i j, i ≤ j → j < 2 * L → b.getD i 0 ≤ b.getD j 0 := by
    intro i j hij hj
    rcases Nat.eq_or_lt_of_le hij with rfl | h
    · exact le_rfl
    · have := List.pairwise_iff_getElem.1 hsort.sorted i j (by omega) (by omega) h
      rw [← getElem_eq_getD (by omega), ← getElem_eq_getD (by omega)]
      simpa using this
  have qnd : q.Nodup := hq.nodup_iff.2 List.nodup_range
  have mlen : ∃ m', (forUp 0 L m fun k metric => do
      let m ← rd b k
      wr metric k m) = some m' ∧ m'.length = L ∧ ∀ k, k < L → m'.getD k 0 = b.getD k 0 := by
    obtain ⟨m', h1, h2, h3⟩ : Ok _ (fun m' : List Int => m'.length = L ∧ ∀ k, k < L → m'.getD k 0 = b.getD k 0) := by
      refine forUp_inv (f := fun k metric => do
        let m ← rd b k
        wr metric k m) (s := m) (fun j (a : List Int) => a.length = L ∧ ∀ k, k < j → a.getD k 0 = b.getD k 0) (Nat.zero_le L) ⟨hm, fun k hk => by omega⟩ ?_
      rintro j a _ hj ⟨a1, a2⟩
      rw [rd_of_lt (by omega), sb, wr_of_lt (by omega)]
      refine Ok.some ⟨by rw [List.length_set, a1], fun k hk => ?_⟩
      rw [getD_set]
      by_cases h : j = k
      · subst h; rw [if_pos ⟨rfl, by omega⟩, getElem_eq_getD _ 0]
      · rw [if_neg (by tauto)]; exact a2 k (by omega)
    exact ⟨m', h1, h2, h3⟩
  obtain ⟨m', em, m1, m2⟩ := mlen
  have hodd : ∀ p : Nat, p &&& 1 = p % 2 := fun p => Nat.and_one_is_mod p
  have hsh : ∀ p : Nat, p < 2 * L → (p >>> 1) % 256 = p / 2 := fun p hp => by
    rw [Nat.shiftRight_eq_div_pow, pow_one, Nat.mod_eq_of_lt (by omega)]
  have hcont : ∀ p : Nat, cont (p / 2) (1 - 2 * ((p % 2 : Nat) : Int)) = p := by
    intro p
    unfold cont
    rcases Nat.mod_two_eq_zero_or_one p with h | h <;> rw [h] <;> simp <;> omega
  refine ⟨m', fun k => q.getD k 0 / 2, fun k => 1 - 2 * ((q.getD k 0 % 2 : Nat) : Int), ?_, m1, ?_, ?_, ?_, ?_, ?_, ?_, ?_⟩
  · unfold prune
    rw [e, sb]
    dsimp only
    rw [em, sb, List.map_id]
    rw [tab_of (g := fun k => q.getD k 0 / 2) (fun k => by
      rw [rd_of_lt (by omega), sb, getElem_eq_getD _ 0, hsh _ (by rw [← getElem_eq_getD (by omega)]; exact qlt _ _)]; rfl), sb,
      tab_of (g := fun k => 1 - 2 * ((q.getD k 0 % 2 : Nat) : Int)) (fun k => by
      rw [rd_of_lt (by omega), sb, getElem_eq_getD _ 0, hodd]; rfl), sb]
    rfl
  · intro k
    have := qlt k.val (by omega)
    rw [getElem_eq_getD _ 0] at this
    dsimp only
    omega
  · intro k
    dsimp only
    rcases Nat.mod_two_eq_zero_or_one (q.getD k 0) with h | h <;> rw [h]
    · left; rfl
    · right; rfl
  · intro k
    rw [m2 k k.isLt, hbf k (by omega), hcont, getElem_eq_getD _ 0]
  · intro k k' h1 h2
    dsimp only at h1 h2
    have : q.getD k 0 = q.getD k' 0 := by omega
    rw [← getElem_eq_getD (by omega), ← getElem_eq_getD (by omega)] at this
    exact Fin.ext ((List.Nodup.getElem_inj_iff qnd).1 this)
  · intro k k' h
    rw [m2 k k.isLt, m2 k' k'.isLt]
    exact bsort _ _ h (by omega)
  · intro j s hs hno k
    have hlt : cont j s < 2 * L := by unfold cont; have := j.isLt; split <;> omega
    obtain ⟨t, ht, et⟩ := List.mem_iff_getElem.1 (hq.mem_iff.2 (List.mem_range.2 hlt))
    have htL : L ≤ t := by
      by_contra hcon
      refine hno ⟨t, by omega⟩ ?_
      dsimp only
      rw [← getElem_eq_getD ht, et]
      unfold cont
      rcases hs with rfl | rfl
      · rw [if_pos rfl]; constructor
        · omega
        · have : (2 * j.val + 0) % 2 = 0 := by omega
          rw [this]; rfl
      · rw [if_neg (by decide)]; constructor
        · omega
        · have : (2 * j.val + 1) % 2 = 1 := by omega
          rw [this]; rfl
    rw [m2 k k.isLt]
    have := bsort k t (by omega) (by omega)
    rw [hbf t ht, et] at this
    exact this
  · exact prune_keep hf ql bl m1 hq hbf bsort m2 (fun i j hj hij h => hstab i j hj hij h)

end Verif.Polar
