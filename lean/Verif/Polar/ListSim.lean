import Verif.Polar.SpecSclOf
import Verif.Polar.ScExact
/- The lanes of a list decoder are the textbook's list of paths, for any arithmetic. -/
namespace Verif.Polar
open Verif.RS (sb)
variable {L : Nat} {T V P X : Type} [LinearOrder P]

/-- `L` paths of `p` decisions. -/
structure Paths (L p : Nat) (ps : List (List Int × P)) : Prop where
  count : ps.length = L
  len : ∀ a ∈ ps, a.1.length = p
  sym : ∀ a ∈ ps, ∀ x ∈ a.1, Sym x

/-- The decisions of path number `k`. -/
def word (ps : List (List Int × P)) (k : Nat) : List Int := (ps.map Prod.fst).getD k []

theorem word_eq {ps : List (List Int × P)} {k : Nat} (h : k < ps.length) : word ps k = (ps[k]).1 := by
  unfold word
  rw [← getElem_eq_getD (by simpa using h)]
  simp

theorem Paths.word_len {p : Nat} {ps : List (List Int × P)} (h : Paths L p ps) (k : Fin L) : (word ps k).length = p := by
  rw [word_eq (by rw [h.count]; exact k.isLt)]; exact h.len _ (List.getElem_mem _)

theorem Paths.word_sym {p : Nat} {ps : List (List Int × P)} (h : Paths L p ps) (k : Fin L) : ∀ x ∈ word ps k, Sym x := by
  rw [word_eq (by rw [h.count]; exact k.isLt)]; exact h.sym _ (List.getElem_mem _)

theorem paths_of {p : Nat} {ps : List (List Int × P)} (h : ps.length = L) (h1 : ∀ k : Fin L, (word ps k).length = p ∧ ∀ x ∈ word ps k, Sym x) : Paths L p ps := by
  have key : ∀ a ∈ ps, ∃ k : Fin L, word ps k = a.1 := by
    intro a ha
    obtain ⟨i, hi, rfl⟩ := List.mem_iff_getElem.1 ha
    exact ⟨⟨i, by omega⟩, word_eq hi⟩
  refine ⟨h, fun a ha => ?_, fun a ha => ?_⟩
  · obtain ⟨k, e⟩ := key a ha; rw [← e]; exact (h1 k).1
  · obtain ⟨k, e⟩ := key a ha; rw [← e]; exact (h1 k).2

/-- What the node functions of a list decoder have to do.  `S a v` says that the lane `a` holds the soft value `v`, `Hd a x` that it holds the
symbol `x`, `Rel p x ps` that the state `x` stands for the paths `ps` of `p` decisions. -/
structure Sim (H : PH (Fin L → T)) (A : Arith V) (M : Nat) (R : Nat → V → Prop) (S : T → V → Prop) (Hd : T → Int → Prop) (fr : Nat → Prop) (pay : P → V → P)
    (cost : List Int → P → V → Int → P) (Rel : Nat → X → List (List Int × P) → Prop) (z : T) (W : Walk (Fin L → T) (LMap L) X) (N : Nodes (Fin L → T) (LMap L) X) : Prop where
  prod : W.prod = H.prod
  madd : W.madd = H.madd
  qmul : W.qmul = H.qmul
  vshuf : W.vshuf = shuf z
  comp : W.comp = shuf 0
  sc1 : W.sc1 = false
  lane : ∀ k, Lane H A M R (fun a v => S (a k) v) (fun a x => Hd (a k) x)
  r0 : ∀ d p x ps (s : List (Fin L → T)) (sf : List Int → Nat → V), d ≤ 5 → p + 2 ^ d ≤ 2 ^ M → (∀ i, i < 2 ^ d → fr (p + i)) → s.length = 2 ^ d → Rel p x ps → Paths L p ps →
    (∀ (k : Fin L) i, i < 2 ^ d → S (s.getD i H.one k) (sf (word ps k) i) ∧ ∃ t, t ≤ M ∧ R t (sf (word ps k) i)) →
    ∃ x', N.r0 d x s = some (x', List.replicate (2 ^ d) H.one, fun k => k.val) ∧
      Rel (p + 2 ^ d) x' (ps.map fun a => (a.1 ++ List.replicate (2 ^ d) 1, ((List.range (2 ^ d)).map (sf a.1)).foldl pay a.2))
  r1 : ∀ p x ps (v : Fin L → T) (sf : List Int → V), p < 2 ^ M → ¬ fr p → Rel p x ps → Paths L p ps →
    (∀ k : Fin L, S (v k) (sf (word ps k)) ∧ ∃ t, t ≤ M ∧ R t (sf (word ps k))) →
    ∃ x' h m, N.r1 0 x [v] = some (x', [h], m) ∧ Rel (p + 1) x' (bestOf L (forks cost sf ps)) ∧
      ∀ k : Fin L, m k < L ∧ ∃ b, Sym b ∧ Hd (h k) b ∧ word (bestOf L (forks cost sf ps)) k = word ps (m k) ++ [b]

/-- What a node does. -/
def NodeSim (H : PH (Fin L → T)) (Hd : T → Int → Prop) (Rel : Nat → X → List (List Int × P) → Prop) (d n : Nat) (ps ps' : List (List Int × P)) (r : Option (X × List (Fin L → T) × LMap L)) : Prop :=
  ∃ x' hd m, r = some (x', hd, m) ∧ Rel (n * 2 ^ d + 2 ^ d) x' ps' ∧ Paths L (n * 2 ^ d + 2 ^ d) ps' ∧ hd.length = 2 ^ d ∧
    ∀ k : Fin L, m k < L ∧ (word ps' k).take (n * 2 ^ d) = word ps (m k) ∧
      ∀ i, i < 2 ^ d → Hd (hd.getD i H.one k) (polar d (fun j => (word ps' k).getD (n * 2 ^ d + j) 1) i)

theorem forks_length (cost : List Int → P → V → Int → P) (sf : List Int → V) (ps : List (List Int × P)) : (forks cost sf ps).length = 2 * ps.length := by
  unfold forks
  induction ps with
  | nil => rfl
  | cons a ps ih => rw [List.flatMap_cons, List.length_append, ih]; simp; omega

theorem bestOf_length (n : Nat) (l : List (List Int × P)) (h : n ≤ l.length) : (bestOf n l).length = n := by
  unfold bestOf; simp [h]

theorem polar_zero (u : Nat → Int) : polar 0 u 0 = u 0 := by
  have := P_prod 0 u 0 (by norm_num); unfold polar; rw [← this]; rfl

theorem shuf_of {α : Type} {z : α} {a : Fin L → α} {m : LMap L} {k : Fin L} (h : m k < L) : shuf z a m k = a ⟨m k, h⟩ := by unfold shuf; rw [dif_pos h]

set_option maxHeartbeats 1000000 in
theorem list_sim {H : PH (Fin L → T)} {A : Arith V} {M : Nat} {R : Nat → V → Prop} {S : T → V → Prop} {Hd : T → Int → Prop} {fr : Nat → Prop} {pay : P → V → P}
    {cost : List Int → P → V → Int → P} {Rel : Nat → X → List (List Int × P) → Prop} {z : T} {W : Walk (Fin L → T) (LMap L) X} {N : Nodes (Fin L → T) (LMap L) X}
    (LA : A.Laws R) (C : Sim H A M R S Hd fr pay cost Rel z W N) {σ : Nat → V} (hσ : ∀ i, i < 2 ^ M → R 0 (σ i)) :
    ∀ d t n, t + d = M → n < 2 ^ t → ∀ (f : List Bool) (x : X) (s : List (Fin L → T)) (ps : List (List Int × P)), f.length = 2 ^ d → (∀ i, i < 2 ^ d → (f.getD i false = true ↔ fr (n * 2 ^ d + i))) →
      s.length = 2 ^ d → Rel (n * 2 ^ d) x ps → Paths L (n * 2 ^ d) ps →
      (∀ (k : Fin L) i, i < 2 ^ d → S (s.getD i H.one k) (softAt A M σ ((word ps k).getD · 1) t n i)) →
      NodeSim H Hd Rel d n ps ((steps fr d n).foldl (sclStepOf A L M σ fr pay cost) ps) (childF W N (fun M => treeF W N M) d f x s) ∧
      (¬ (d ≤ 5 ∧ f.all (fun b => b) = true) → d ≠ 0 → NodeSim H Hd Rel d n ps ((steps fr d n).foldl (sclStepOf A L M σ fr pay cost) ps) (treeF W N d f x s)) := by
  -- a block of frozen positions
  have frozen : ∀ d t n, d ≤ 5 → t + d = M → n < 2 ^ t → ∀ (f : List Bool) (x : X) (s : List (Fin L → T)) (ps : List (List Int × P)), f.length = 2 ^ d → (∀ i, i < 2 ^ d → fr (n * 2 ^ d + i)) →
      s.length = 2 ^ d → Rel (n * 2 ^ d) x ps → Paths L (n * 2 ^ d) ps →
      (∀ (k : Fin L) i, i < 2 ^ d → S (s.getD i H.one k) (softAt A M σ ((word ps k).getD · 1) t n i)) →
      NodeSim H Hd Rel d n ps (sclStepOf A L M σ fr pay cost ps (d, n)) (N.r0 d x s) := by
    intro d t n h5 hM hn f x s ps hf hz hs hrel hps hso
    have hlt : n * 2 ^ d + 2 ^ d ≤ 2 ^ M := by
      rw [← hM, pow_add 2 t d]
      calc n * 2 ^ d + 2 ^ d = (n + 1) * 2 ^ d := by ring
        _ ≤ _ := Nat.mul_le_mul_right _ hn
    have h0 := Nat.two_pow_pos d
    obtain ⟨x', e, hr⟩ := C.r0 d (n * 2 ^ d) x ps s (fun w i => softAt A M σ (w.getD · 1) t n i) h5 hlt hz hs hrel hps (fun k i hi =>
      ⟨hso k i hi, t, by omega, softAt_R LA (fun j => getD_Sym (hps.word_sym k) j) hσ t n i (by omega) (by rw [show M - t = d by omega]; exact hi)⟩)
    have hstep : sclStepOf A L M σ fr pay cost ps (d, n) = ps.map fun a => (a.1 ++ List.replicate (2 ^ d) 1, ((List.range (2 ^ d)).map (fun i => softAt A M σ (a.1.getD · 1) t n i)).foldl pay a.2) := by
      unfold sclStepOf
      rw [if_pos (by have := hz 0 h0; simpa using this)]
      simp only [show M - d = t by omega]
    rw [hstep]
    have hword : ∀ k : Fin L, word (ps.map fun a => (a.1 ++ List.replicate (2 ^ d) 1, ((List.range (2 ^ d)).map (fun i => softAt A M σ (a.1.getD · 1) t n i)).foldl pay a.2)) k =
        word ps k ++ List.replicate (2 ^ d) 1 := by
      intro k
      have hk : k.val < ps.length := by rw [hps.count]; exact k.isLt
      rw [word_eq (by simpa using hk), word_eq hk, List.getElem_map]
    refine ⟨x', _, _, e, hr, paths_of (by simp [hps.count]) fun k => ?_, by simp, fun k => ⟨k.isLt, ?_, fun i hi => ?_⟩⟩
    · rw [hword, List.length_append, hps.word_len, List.length_replicate]
      refine ⟨rfl, fun y hy => ?_⟩
      rcases List.mem_append.1 hy with h | h
      · exact hps.word_sym k y h
      · rw [List.eq_of_mem_replicate h]; exact Or.inl rfl
    · rw [hword, List.take_left' (hps.word_len k)]
    · rw [getD_replicate' _ _ _ hi, hword]
      unfold polar
      rw [Finset.prod_eq_one fun j hj => ?_]
      · exact (C.lane k).one
      · have hj' : j < 2 ^ d := by simpa using (Finset.mem_filter.1 hj).1
        rw [List.getD_append_right _ _ _ _ (by rw [hps.word_len]; omega), hps.word_len, Nat.add_sub_cancel_left, getD_replicate' _ _ _ hj']
  intro d
  induction d with
  | zero =>
    intro t n hM hn f x s ps hf hfr hs hrel hps hso
    refine ⟨?_, fun _ h => absurd rfl h⟩
    have htM : t = M := by omega
    subst htM
    obtain ⟨b, rfl⟩ : ∃ b, f = [b] := List.length_eq_one_iff.1 hf
    unfold childF
    rw [steps, List.foldl_cons, List.foldl_nil]
    cases b with
    | true =>
      rw [if_pos (by simp)]
      exact frozen 0 t n (by omega) (by omega) hn [true] x s ps rfl (fun i hi => by
        rw [← hfr i hi]; have : i = 0 := by simpa using hi
        subst this; rfl) hs hrel hps hso
    | false =>
      rw [if_neg (by simp), if_pos (by simp)]
      obtain ⟨v, rfl⟩ : ∃ v, s = [v] := List.length_eq_one_iff.1 hs
      have hfr := hfr 0 (by norm_num)
      rw [Nat.add_zero, pow_zero, Nat.mul_one] at hfr
      rw [pow_zero, Nat.mul_one] at hrel hps
      have hnf : ¬ fr n := fun h => by simpa using hfr.2 h
      obtain ⟨x', h, m, e, hr, hk⟩ := C.r1 n x ps v (fun w => softAt A t σ (w.getD · 1) t n 0) hn hnf hrel hps (fun k => ⟨hso k 0 (by norm_num), t, le_rfl,
        softAt_R LA (fun j => getD_Sym (hps.word_sym k) j) hσ t n 0 le_rfl (by simp)⟩)
      have hstep : sclStepOf A L t σ fr pay cost ps (0, n) = bestOf L (forks cost (fun w => softAt A t σ (w.getD · 1) t n 0) ps) := by
        unfold sclStepOf
        rw [if_neg (by rw [pow_zero, Nat.mul_one]; exact hnf)]
        rfl
      rw [hstep]
      have hlen := bestOf_length L (forks cost (fun w => softAt A t σ (w.getD · 1) t n 0) ps) (by rw [forks_length, hps.count]; omega)
      unfold NodeSim
      rw [pow_zero, Nat.mul_one]
      refine ⟨x', [h], m, e, hr, paths_of hlen fun k => ?_, rfl, fun k => ?_⟩
      · obtain ⟨h1, b, hb, _, h2⟩ := hk k
        have l := hps.word_len ⟨m k, h1⟩
        have sy := hps.word_sym ⟨m k, h1⟩
        rw [h2, List.length_append]
        dsimp only at l sy
        rw [l]
        refine ⟨rfl, fun y hy => ?_⟩
        rcases List.mem_append.1 hy with h | h
        · exact sy y h
        · rw [List.mem_singleton.1 h]; exact hb
      · obtain ⟨h1, b, hb, hh, h2⟩ := hk k
        have l := hps.word_len ⟨m k, h1⟩
        dsimp only at l
        refine ⟨h1, by rw [h2, List.take_left' l], fun i hi => ?_⟩
        have : i = 0 := by omega
        subst this
        rw [polar_zero, Nat.add_zero, h2, List.getD_append_right _ _ _ _ (by omega), l, Nat.sub_self]
        exact hh
  | succ d ih =>
    intro t n hM hn f x s ps hf hfr hs hrel hps hso
    have e := two_pow_succ' d
    have p1 : n * 2 ^ (d + 1) = 2 * n * 2 ^ d := by rw [pow_succ]; ring
    have p2 : n * 2 ^ (d + 1) + 2 ^ d = (2 * n + 1) * 2 ^ d := by rw [pow_succ]; ring
    have p3 : n * 2 ^ (d + 1) + 2 ^ (d + 1) = (2 * n + 1) * 2 ^ d + 2 ^ d := by rw [pow_succ]; ring
    have ht : M - (t + 1) = d := by omega
    have hR : ∀ (k : Fin L) i, i < 2 ^ (d + 1) → R t (softAt A M σ ((word ps k).getD · 1) t n i) := fun k i hi =>
      softAt_R LA (fun j => getD_Sym (hps.word_sym k) j) hσ t n i (by omega) (by rw [show M - t = d + 1 by omega]; exact hi)
    have hc : (d + 1 ≤ 5 ∧ f.all (fun b => b) = true) ↔ (d + 1 ≤ 5 ∧ ∀ i, i < 2 ^ (d + 1) → fr (n * 2 ^ (d + 1) + i)) := by
      refine and_congr_right fun _ => ?_
      rw [List.all_eq_true]
      constructor
      · intro h i hi
        rw [← hfr i hi, ← getElem_eq_getD (by omega)]
        exact h _ (List.getElem_mem _)
      · intro h b hb
        obtain ⟨i, hi, rfl⟩ := List.mem_iff_getElem.1 hb
        rw [getElem_eq_getD _ false, hfr _ (by omega)]
        exact h i (by omega)
    have node : ¬ (d + 1 ≤ 5 ∧ f.all (fun b => b) = true) → NodeSim H Hd Rel (d + 1) n ps ((steps fr (d + 1) n).foldl (sclStepOf A L M σ fr pay cost) ps) (treeF W N (d + 1) f x s) := by
      intro hno
      rw [steps, if_neg (fun h => hno (hc.2 h)), List.foldl_append]
      have hf1 : (f.take (2 ^ d)).length = 2 ^ d := by simp [hf, e]
      have hf2 : (f.drop (2 ^ d)).length = 2 ^ d := by simp [hf, e]
      have es1 : (s.take (2 ^ d)).length = 2 ^ d := by simp [hs, e]
      have es2 : (s.drop (2 ^ d)).length = 2 ^ d := by simp [hs, e]
      set ps1 := (steps fr d (2 * n)).foldl (sclStepOf A L M σ fr pay cost) ps with hps1
      obtain ⟨x1, hd1, m1, r1, rel1, pa1, len1, v1⟩ := (ih (t + 1) (2 * n) (by omega) (by rw [pow_succ]; omega) (f.take (2 ^ d)) x (List.zipWith H.prod (s.take (2 ^ d)) (s.drop (2 ^ d))) ps hf1
        (fun i hi => by rw [getD_take_lt hi, ← p1]; exact hfr i (by omega)) (by simp [es1, es2]) (by rw [← p1]; exact hrel) (by rw [← p1]; exact hps) (fun k i hi => by
          have a1 := hso k i (by omega)
          have b1 := hso k (2 ^ d + i) (by omega)
          rw [getD_zipWith' (da := H.one) (db := H.one) (by omega) (by omega), getD_take_lt hi, getD_drop', softAt]
          simp only [ht]
          rw [if_pos (by omega), show 2 * n / 2 = n by omega]
          exact (C.lane k).prod t _ _ _ _ (by omega) (hR k i (by omega)) (hR k _ (by omega)) a1 b1)).1
      rw [← hps1] at rel1 pa1 v1
      rw [← p1, p2] at rel1 pa1
      rw [← p1] at v1
      have hsoft1 : ∀ (k : Fin L) i, softAt A M σ ((word ps1 k).getD · 1) t n i = softAt A M σ ((word ps (m1 k)).getD · 1) t n i := by
        intro k i
        refine softAt_congr A M σ t n (by omega) (fun j hj => ?_) i
        rw [show M - t = d + 1 by omega] at hj
        rw [← (v1 k).2.1, getD_take_lt hj]
      set s2 := zip3 H.madd hd1 ((s.take (2 ^ d)).map (shuf z · m1)) ((s.drop (2 ^ d)).map (shuf z · m1)) with hs2
      have hs2l : s2.length = 2 ^ d := by rw [hs2, zip3_length, List.length_map, List.length_map, len1, es1, es2]; simp
      set ps2 := (steps fr d (2 * n + 1)).foldl (sclStepOf A L M σ fr pay cost) ps1 with hps2
      obtain ⟨x2, hd2, m2, r2, rel2, pa2, len2, v2⟩ := (ih (t + 1) (2 * n + 1) (by omega) (by rw [pow_succ]; omega) (f.drop (2 ^ d)) x1 s2 ps1 hf2
        (fun i hi => by rw [getD_drop', ← p2, Nat.add_assoc]; exact hfr _ (by omega)) hs2l rel1 pa1 (fun k i hi => by
          obtain ⟨hm1, tk, hh⟩ := v1 k
          have a1 := hso ⟨m1 k, hm1⟩ i (by omega)
          have b1 := hso ⟨m1 k, hm1⟩ (2 ^ d + i) (by omega)
          have ra := hR ⟨m1 k, hm1⟩ i (by omega)
          have rb := hR ⟨m1 k, hm1⟩ (2 ^ d + i) (by omega)
          dsimp only at a1 b1 ra rb
          rw [hs2]
          unfold zip3
          rw [getD_zipWith' (da := (H.one, H.one)) (db := H.one) (by rw [List.length_zip, List.length_map, len1, es1]; omega) (by rw [List.length_map]; omega)]
          have : (hd1.zip ((s.take (2 ^ d)).map (shuf z · m1))).getD i (H.one, H.one) = (hd1.getD i H.one, shuf z (s.getD i H.one) m1) := by
            rw [← getElem_eq_getD (by rw [List.length_zip, List.length_map, len1, es1]; omega), List.getElem_zip, getElem_eq_getD _ H.one, getElem_eq_getD _ H.one,
              getD_map' _ _ H.one H.one (by omega), getD_take_lt hi]
          rw [this, getD_map' _ _ H.one H.one (by omega), getD_drop', softAt]
          simp only [ht]
          rw [if_neg (by omega), show (2 * n + 1) / 2 = n by omega, show 2 * n + 1 - 1 = 2 * n by omega, ← p1, hsoft1, hsoft1]
          refine (C.lane k).madd t _ _ _ _ _ _ (by omega) (polar_sym (fun j => getD_Sym (pa1.word_sym k) _) hi) ra rb (hh i hi) ?_ ?_
          · show S (shuf z (s.getD i H.one) m1 k) _
            rw [shuf_of hm1]; exact a1
          · show S (shuf z (s.getD (2 ^ d + i) H.one) m1 k) _
            rw [shuf_of hm1]; exact b1)).1
      rw [← hps2] at rel2 pa2 v2
      rw [← p3] at rel2 pa2
      rw [← p2] at v2
      have hln : (List.zipWith H.qmul (hd1.map (shuf z · m2)) hd2).length = 2 ^ d := by simp [len1, len2]
      refine ⟨x2, List.zipWith H.qmul (hd1.map (shuf z · m2)) hd2 ++ hd2, shuf 0 m1 m2, ?_, rel2, pa2, by simp [len1, len2, e], fun k => ?_⟩
      · rw [treeF, C.prod, C.madd, C.qmul, C.vshuf, C.comp]
        have e1 : childF W N (fun _ => treeF W N d) d (f.take (2 ^ d)) x (List.zipWith H.prod (s.take (2 ^ d)) (s.drop (2 ^ d))) = _ := r1
        rw [e1, sb]
        dsimp only
        have e2 : childF W N (fun _ => treeF W N d) d (f.drop (2 ^ d)) x1 s2 = _ := r2
        rw [← hs2, e2, sb]
        rfl
      · obtain ⟨hm2, tk2, hh2⟩ := v2 k
        obtain ⟨hm1, tk1, hh1⟩ := v1 ⟨m2 k, hm2⟩
        dsimp only at tk1 hh1
        have hg : ∀ j, j < 2 ^ d → (word ps2 k).getD (n * 2 ^ (d + 1) + j) 1 = (word ps1 (m2 k)).getD (n * 2 ^ (d + 1) + j) 1 := fun j hj => by
          rw [← tk2, getD_take_lt (by omega)]
        refine ⟨by rw [shuf_of hm2]; exact hm1, ?_, fun i hi => ?_⟩
        · rw [shuf_of hm2, ← tk1, ← tk2, List.take_take, Nat.min_eq_left (by omega)]
        · by_cases h : i < 2 ^ d
          · rw [List.getD_append _ _ _ _ (by rw [hln]; exact h), getD_zipWith' (da := H.one) (db := H.one) (by rw [List.length_map]; omega) (by omega), getD_map' _ _ H.one H.one (by omega), polar_low h,
              polar_congr (v := fun j => (word ps1 (m2 k)).getD (n * 2 ^ (d + 1) + j) 1) fun j hj => hg j hj]
            refine (C.lane k).qmul _ _ _ _ (polar_sym (fun j => getD_Sym (pa1.word_sym ⟨m2 k, hm2⟩) _) h) (polar_sym (fun j => getD_Sym (pa2.word_sym k) _) h) ?_ ?_
            · show Hd (shuf z (hd1.getD i H.one) m2 k) _
              rw [shuf_of hm2]; exact hh1 i h
            · have := hh2 i h
              simpa only [Nat.add_assoc] using this
          · obtain ⟨j, rfl⟩ : ∃ j, i = 2 ^ d + j := ⟨i - 2 ^ d, by omega⟩
            have hj : j < 2 ^ d := by omega
            rw [List.getD_append_right _ _ _ _ (by omega), hln, Nat.add_sub_cancel_left, polar_high hj]
            have := hh2 j hj
            simpa only [Nat.add_assoc] using this
    refine ⟨?_, fun h _ => node h⟩
    unfold childF
    by_cases c0 : d + 1 ≤ 5 ∧ f.all (fun b => b) = true
    · rw [if_pos c0, steps, if_pos (hc.1 c0), List.foldl_cons, List.foldl_nil]
      exact frozen (d + 1) t n c0.1 hM hn f x s ps hf (hc.1 c0).2 hs hrel hps hso
    · rw [if_neg c0, if_neg (by rw [C.sc1]; simp)]
      exact node c0

end Verif.Polar
