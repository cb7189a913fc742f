import Verif.Polar.SpecScl
import Verif.Polar.ParPath
/- The walk over the code tree is the sequence of steps of the textbook. -/
namespace Verif.Polar
open PolarHelper (I8 prodV maddV qmulV)
open Verif.RS (sb)
variable {L : Nat} {X C Q : Type}

theorem polar_congr {M : Nat} {u v : Nat → Int} (h : ∀ i, i < 2 ^ M → u i = v i) (j : Nat) : polar M u j = polar M v j := by
  unfold polar
  exact Finset.prod_congr rfl fun i hi => h i (by simpa using (Finset.mem_filter.1 hi).1)

/-- What a path has collected after its decisions. -/
def Lf.qOf (A : Lf L X C Q) (F : List Bool) (c0 : C) (q0 : Q) (w : List Int) : Q := A.path (F.take w.length) c0 q0 w

def Lf.cOf (A : Lf L X C Q) (F : List Bool) (c0 : C) (p : Nat) : C := A.step^[cnt (F.take p)] c0

/-- A path of `p` decisions. -/
structure GoodP (A : Lf L X C Q) (F : List Bool) (c0 : C) (q0 : Q) (p : Nat) (a : List Int × Q × Int) : Prop where
  len : a.1.length = p
  sym : ∀ x ∈ a.1, Sym x
  q : a.2.1 = A.qOf F c0 q0 a.1

theorem cnt_append (f g : List Bool) : cnt (f ++ g) = cnt f + cnt g := by
  unfold cnt; rw [List.filter_append, List.length_append]

theorem take_split (F : List Bool) (p n : Nat) : F.take (p + n) = F.take p ++ (F.drop p).take n := by
  rw [List.take_add]

theorem cOf_add (A : Lf L X C Q) (F : List Bool) (c0 : C) (p n : Nat) : A.cOf F c0 (p + n) = A.step^[cnt ((F.drop p).take n)] (A.cOf F c0 p) := by
  unfold Lf.cOf
  rw [take_split, cnt_append, add_comm, Function.iterate_add_apply]

theorem qOf_append (A : Lf L X C Q) (F : List Bool) (c0 : C) (q0 : Q) (w v : List Int) (h : w.length ≤ F.length) :
    A.qOf F c0 q0 (w ++ v) = A.path ((F.drop w.length).take v.length) (A.cOf F c0 w.length) (A.qOf F c0 q0 w) v := by
  unfold Lf.qOf Lf.cOf
  rw [List.length_append, take_split, path_append _ _ _ _ _ _ _ (by simp [h])]

theorem map_keep (n : Nat) (l : List (List Int × Q × Int)) :
    (keep n l).map (fun a => (a.1, a.2.2)) = best n (l.map fun a => (a.1, a.2.2)) := by
  unfold keep best
  rw [List.map_take, List.map_mergeSort]
  intro a _ b _
  rfl

theorem mem_keep {n : Nat} {l : List (List Int × Q × Int)} {a : List Int × Q × Int} (h : a ∈ keep n l) : a ∈ l :=
  (List.mergeSort_perm _ _).mem_iff.1 (List.mem_of_mem_take h)

theorem negs_sum' {l : List Int} {n : Nat} {s : Nat → Int} (hl : l.length = n) (hs : ∀ i, i < n → l.getD i 0 = s i) :
    negs l = ∑ i ∈ Finset.range n, penalty (s i) 1 := negs_sum hl hs

theorem sub_list (F : List Bool) (p n m : Nat) (h : m ≤ n) : ((F.drop p).take n).take m = (F.drop p).take m := by
  rw [List.take_take, Nat.min_eq_left h]

theorem sub_list' (F : List Bool) (p n : Nat) : ((F.drop p).take (n + n)).drop n = (F.drop (p + n)).take n := by
  rw [List.drop_take, List.drop_drop, Nat.add_sub_cancel]

theorem getD_sub {F : List Bool} {p n i : Nat} (hi : i < n) : ((F.drop p).take n).getD i false = F.getD (p + i) false := by
  rw [getD_take_lt hi, getD_drop']

set_option maxHeartbeats 1000000 in
theorem node_flat (A : Lf L X C Q) (M : Nat) (s : Nat → Int) (fr : Nat → Prop) (cost : List Int → Int → Int → Int → Int) (F : List Bool) (c0 : C) (q0 : Q)
    (hF : F.length = 2 ^ M) (hfr : ∀ i, i < 2 ^ M → (F.getD i false = true ↔ fr i))
    (hnew : ∀ (w : List Int) μ s b, w.length < 2 ^ M → ¬ fr w.length → (∀ x ∈ w, Sym x) → Sym b → A.new (A.cOf F c0 w.length) (A.qOf F c0 q0 w) μ s b = cost w μ s b) :
    ∀ (d t n : Nat), t + d = M → n < 2 ^ t → ∀ (sf : List Int → List Int),
      (∀ w, n * 2 ^ d ≤ w.length → (∀ x ∈ w, Sym x) → (sf w).length = 2 ^ d ∧ ∀ i, i < 2 ^ d → I8 ((sf w).getD i 0) ∧ (sf w).getD i 0 = nodeSoft M s (w.getD · 1) t n i) →
      ∀ ps : List (List Int × Q × Int), (∀ a ∈ ps, GoodP A F c0 q0 (n * 2 ^ d) a) →
        ((A.node d ((F.drop (n * 2 ^ d)).take (2 ^ d)) (A.cOf F c0 (n * 2 ^ d)) (n * 2 ^ d) sf ps).map fun a => (a.1, a.2.2)) =
          (steps fr d n).foldl (sclStep L M s fr cost) (ps.map fun a => (a.1, a.2.2)) ∧
        ∀ a ∈ A.node d ((F.drop (n * 2 ^ d)).take (2 ^ d)) (A.cOf F c0 (n * 2 ^ d)) (n * 2 ^ d) sf ps, GoodP A F c0 q0 (n * 2 ^ d + 2 ^ d) a := by
  have frozen : ∀ (d t n : Nat), t + d = M → n < 2 ^ t → (∀ i, i < 2 ^ d → fr (n * 2 ^ d + i)) → ∀ (sf : List Int → List Int),
      (∀ w, n * 2 ^ d ≤ w.length → (∀ x ∈ w, Sym x) → (sf w).length = 2 ^ d ∧ ∀ i, i < 2 ^ d → I8 ((sf w).getD i 0) ∧ (sf w).getD i 0 = nodeSoft M s (w.getD · 1) t n i) →
      ∀ ps : List (List Int × Q × Int), (∀ a ∈ ps, GoodP A F c0 q0 (n * 2 ^ d) a) →
        ((ps.map fun a => (a.1 ++ List.replicate (2 ^ d) 1, a.2.1, a.2.2 + negs (sf a.1))).map fun a => (a.1, a.2.2)) =
          sclStep L M s fr cost (ps.map fun a => (a.1, a.2.2)) (d, n) ∧
        ∀ a ∈ ps.map (fun a => (a.1 ++ List.replicate (2 ^ d) 1, a.2.1, a.2.2 + negs (sf a.1))), GoodP A F c0 q0 (n * 2 ^ d + 2 ^ d) a := by
    intro d t n hM hn hfz sf hsf ps hps
    have hlt : (n + 1) * 2 ^ d ≤ 2 ^ M := by
      rw [← hM, pow_add]; exact Nat.mul_le_mul_right _ hn
    rw [Nat.add_mul, Nat.one_mul] at hlt
    have hp := Nat.two_pow_pos d
    constructor
    · unfold sclStep
      rw [if_pos (by have := hfz 0 (by omega); simpa using this), List.map_map, List.map_map]
      refine List.map_congr_left fun a ha => ?_
      obtain ⟨g1, g2, g3⟩ := hps a ha
      obtain ⟨h1, h2⟩ := hsf a.1 (by omega) g2
      dsimp only [Function.comp]
      rw [negs_sum' h1 fun i hi => (h2 i hi).2, show M - d = t by omega]
    · intro a ha
      obtain ⟨a', ha', rfl⟩ := List.mem_map.1 ha
      obtain ⟨g1, g2, g3⟩ := hps a' ha'
      refine ⟨by simp [g1], fun x hx => ?_, ?_⟩
      · rcases List.mem_append.1 hx with h | h
        · exact g2 x h
        · rw [List.eq_of_mem_replicate h]; exact Or.inl rfl
      · dsimp only
        rw [qOf_append _ _ _ _ _ _ (by omega), g3, path_all]
        rw [List.all_eq_true]
        intro b hb
        obtain ⟨i, hi, rfl⟩ := List.mem_iff_getElem.1 hb
        have hi' : i < 2 ^ d := by simp at hi; omega
        rw [getElem_eq_getD _ false, List.length_replicate, getD_sub hi', g1, hfr _ (by omega)]
        exact hfz i hi'
  intro d
  induction d with
  | zero =>
    intro t n hM hn sf hsf ps hps
    rw [pow_zero, Nat.mul_one] at hsf hps ⊢
    have hnM : n < 2 ^ M := by rw [← hM]; simpa using hn
    have hF1 : (F.drop n).take 1 = [F.getD n false] := by
      rw [List.drop_eq_getElem_cons (by omega), List.take_succ_cons, List.take_zero, getElem_eq_getD _ false]
    rw [Lf.node, steps, List.foldl_cons, List.foldl_nil, hF1]
    by_cases hz : fr n
    · rw [if_pos (by simp only [List.all_cons, List.all_nil, Bool.and_true]; exact (hfr n hnM).2 hz)]
      have := frozen 0 t n hM hn (fun i hi => by
        rw [pow_zero, Nat.mul_one]; have : i = 0 := by simpa using hi
        rw [this]; exact hz) sf (by rw [pow_zero, Nat.mul_one]; exact hsf) ps (by rw [pow_zero, Nat.mul_one]; exact hps)
      rw [pow_zero, Nat.mul_one] at this
      exact this
    · rw [if_neg (by simp only [List.all_cons, List.all_nil, Bool.and_true]; rw [hfr n hnM]; exact hz)]
      have hmem : ∀ a ∈ ps, ∀ b, Sym b → GoodP A F c0 q0 (n + 1) (a.1 ++ [b], A.upd (A.cOf F c0 n) a.2.1 b, A.new (A.cOf F c0 n) a.2.1 a.2.2 ((sf a.1).headD 0) b) := by
        intro a ha b hb
        obtain ⟨g1, g2, g3⟩ := hps a ha
        refine ⟨by simp [g1], fun x hx => ?_, ?_⟩
        · rcases List.mem_append.1 hx with h | h
          · exact g2 x h
          · rw [List.mem_singleton.1 h]; exact hb
        · dsimp only
          rw [qOf_append _ _ _ _ _ _ (by omega), g1, List.length_singleton, hF1]
          have : F.getD n false = false := by
            have := mt (hfr n hnM).1 hz
            simpa using this
          rw [this, g3]
          rfl
      constructor
      · rw [map_keep]
        unfold sclStep
        rw [if_neg (by rw [pow_zero, Nat.mul_one]; exact hz), List.map_flatMap, List.flatMap_map]
        congr 1
        refine List.flatMap_congr fun a ha => ?_
        obtain ⟨g1, g2, g3⟩ := hps a ha
        obtain ⟨h1, h2⟩ := hsf a.1 (by omega) g2
        obtain ⟨v, hv⟩ := List.length_eq_one_iff.1 h1
        have hv0 : (sf a.1).headD 0 = nodeSoft M s (a.1.getD · 1) (M - 0) n 0 := by
          have := (h2 0 (by omega)).2
          rw [hv] at this ⊢
          rw [show M - 0 = t by omega]; exact this
        simp only [List.map_cons, List.map_nil]
        rw [hv0, g3, ← g1, hnew _ _ _ _ (by omega) (by rw [g1]; exact hz) g2 (Or.inl rfl), hnew _ _ _ _ (by omega) (by rw [g1]; exact hz) g2 (Or.inr rfl)]
      · intro a ha
        obtain ⟨a', ha', h⟩ := List.mem_flatMap.1 (mem_keep ha)
        simp only [List.mem_cons, List.not_mem_nil, or_false] at h
        rcases h with rfl | rfl
        · exact hmem a' ha' 1 (Or.inl rfl)
        · exact hmem a' ha' (-1) (Or.inr rfl)
  | succ d ih =>
    intro t n hM hn sf hsf ps hps
    have hlt : (n + 1) * 2 ^ (d + 1) ≤ 2 ^ M := by
      rw [← hM, pow_add 2 t (d + 1)]; exact Nat.mul_le_mul_right _ hn
    rw [Nat.add_mul, Nat.one_mul] at hlt
    have e := two_pow_succ' d
    have hp := Nat.two_pow_pos d
    have hc : (d + 1 ≤ 5 ∧ ((F.drop (n * 2 ^ (d + 1))).take (2 ^ (d + 1))).all (fun b => b) = true) ↔ (d + 1 ≤ 5 ∧ ∀ i, i < 2 ^ (d + 1) → fr (n * 2 ^ (d + 1) + i)) := by
      refine and_congr_right fun _ => ?_
      rw [List.all_eq_true]
      constructor
      · intro h i hi
        rw [← hfr _ (by omega), ← getD_sub hi, ← getElem_eq_getD (by simp; omega)]
        exact h _ (List.getElem_mem _)
      · intro h b hb
        obtain ⟨i, hi, rfl⟩ := List.mem_iff_getElem.1 hb
        have hi' : i < 2 ^ (d + 1) := by simp at hi; omega
        rw [getElem_eq_getD _ false, getD_sub hi', hfr _ (by omega)]
        exact h i hi'
    rw [Lf.node, steps]
    by_cases hz : d + 1 ≤ 5 ∧ ∀ i, i < 2 ^ (d + 1) → fr (n * 2 ^ (d + 1) + i)
    · rw [if_pos (hc.2 hz), if_pos hz, List.foldl_cons, List.foldl_nil]
      exact frozen (d + 1) t n hM hn hz.2 sf hsf ps hps
    · rw [if_neg (fun h => hz (hc.1 h)), if_neg hz, List.foldl_append]
      have p1 : n * 2 ^ (d + 1) = 2 * n * 2 ^ d := by rw [pow_succ]; ring
      have p2 : n * 2 ^ (d + 1) + 2 ^ d = (2 * n + 1) * 2 ^ d := by rw [pow_succ]; ring
      have p3 : n * 2 ^ (d + 1) + 2 ^ (d + 1) = (2 * n + 1) * 2 ^ d + 2 ^ d := by rw [pow_succ]; ring
      have hn1 : 2 * n < 2 ^ (t + 1) := by rw [pow_succ]; omega
      have hn2 : 2 * n + 1 < 2 ^ (t + 1) := by rw [pow_succ]; omega
      have ht : M - (t + 1) = d := by omega
      obtain ⟨l1, l2⟩ := ih (t + 1) (2 * n) (by omega) hn1 (fun w => List.zipWith prodV ((sf w).take (2 ^ d)) ((sf w).drop (2 ^ d))) (by
        intro w hw hs
        obtain ⟨h1, h2⟩ := hsf w (by omega) hs
        refine ⟨by simp [h1, e], fun i hi => ?_⟩
        rw [getD_zipWith' (da := 0) (db := 0) (by simp [h1, e]; omega) (by simp [h1, e]; omega), getD_take_lt hi, getD_drop']
        refine ⟨vprod_range _ _, ?_⟩
        rw [prodV_softF (h2 i (by omega)).1 (h2 _ (by omega)).1, (h2 i (by omega)).2, (h2 _ (by omega)).2, nodeSoft]
        simp only [ht]
        rw [if_pos (by omega), show 2 * n / 2 = n by omega]) ps (by rw [← p1]; exact hps)
      obtain ⟨r1, r2⟩ := ih (t + 1) (2 * n + 1) (by omega) hn2
        (fun w => zip3 maddV (T qmulV d ((w.drop (n * 2 ^ (d + 1))).take (2 ^ d))) ((sf w).take (2 ^ d)) ((sf w).drop (2 ^ d))) (by
        intro w hw hs
        obtain ⟨h1, h2⟩ := hsf w (by omega) hs
        have lw : ((w.drop (n * 2 ^ (d + 1))).take (2 ^ d)).length = 2 ^ d := by simp; omega
        have sw : ∀ x ∈ (w.drop (n * 2 ^ (d + 1))).take (2 ^ d), Sym x := fun x hx => hs x (List.mem_of_mem_drop (List.mem_of_mem_take hx))
        have tl : (T qmulV d ((w.drop (n * 2 ^ (d + 1))).take (2 ^ d))).length = 2 ^ d := T_length qmulV d _ lw
        have ta : ((sf w).take (2 ^ d)).length = 2 ^ d := by rw [List.length_take]; omega
        have td : ((sf w).drop (2 ^ d)).length = 2 ^ d := by rw [List.length_drop]; omega
        have hT : ∀ i, i < 2 ^ d → (T qmulV d ((w.drop (n * 2 ^ (d + 1))).take (2 ^ d))).getD i 1 = polar d (fun j => w.getD (n * 2 ^ (d + 1) + j) 1) i := fun i hi =>
          T_polar lw sw (fun i hi => by rw [getD_take_lt hi, getD_drop']) hi
        have hTs : ∀ i, i < 2 ^ d → Sym (polar d (fun j => w.getD (n * 2 ^ (d + 1) + j) 1) i) := fun i hi => by
          rw [← hT i hi, ← getElem_eq_getD (by omega)]
          exact T_sym d _ sw _ (List.getElem_mem _)
        refine ⟨by unfold zip3; rw [List.length_zipWith, List.length_zip, tl, ta, td]; omega, fun i hi => ?_⟩
        unfold zip3
        rw [getD_zipWith' (da := ((1 : Int), (0 : Int))) (db := 0) (by rw [List.length_zip, tl, ta]; omega) (by omega)]
        have : ((T qmulV d ((w.drop (n * 2 ^ (d + 1))).take (2 ^ d))).zip ((sf w).take (2 ^ d))).getD i (1, 0) = (polar d (fun j => w.getD (n * 2 ^ (d + 1) + j) 1) i, (sf w).getD i 0) := by
          rw [← getElem_eq_getD (by rw [List.length_zip, tl, ta]; omega), List.getElem_zip, getElem_eq_getD _ 1, getElem_eq_getD _ 0, getD_take_lt hi, hT i hi]
        rw [this, getD_drop']
        refine ⟨vmadd_range _ _ _, ?_⟩
        rw [maddV_softG (hTs i hi) (h2 i (by omega)).1, (h2 i (by omega)).2, (h2 _ (by omega)).2, nodeSoft]
        simp only [ht]
        rw [if_neg (by omega), show (2 * n + 1) / 2 = n by omega, show 2 * n + 1 - 1 = 2 * n by omega, ← p1])
        (A.node d ((F.drop (2 * n * 2 ^ d)).take (2 ^ d)) (A.cOf F c0 (2 * n * 2 ^ d)) (2 * n * 2 ^ d) (fun w => List.zipWith prodV ((sf w).take (2 ^ d)) ((sf w).drop (2 ^ d))) ps)
        (by rw [← p2, p1]; exact l2)
      rw [← l1, p3, e, sub_list' , sub_list _ _ _ _ (by omega), ← cOf_add]
      rw [← e, ← p1] at *
      rw [p2] at *
      exact ⟨r1, r2⟩

end Verif.Polar
