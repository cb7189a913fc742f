import Verif.RS.Poly
import Mathlib.Tactic.FieldSimp
/- Location search. -/
namespace Verif.RS
open Polynomial Finset

variable {F : Type} [Field F] (G : Gf F) (u : F) (ui : Fin G.N)

theorem sb {α β : Type} {a : α} {f : α → Option β} : (some a >>= f) = f a := rfl

theorem assertUB_pos {b : Prop} {inst : Decidable b} (h : b) : @assertUB b inst = some () := if_pos h

/-- The table of the constructor `ArtinSchreier()`. -/
structure Imap (im : List F) : Prop where
  len : im.length = G.N + 1
  sound : ∀ n, im.getD n 0 ≠ 0 → ∃ k, 1 ≤ k ∧ k < (G.N + 1) / 2 ∧ im.getD n 0 = G.val (2 * k) ∧
    G.num (im.getD n 0 * im.getD n 0 + im.getD n 0) = n ∧ n ≠ G.N
  complete : ∀ k, 1 ≤ k → k < (G.N + 1) / 2 →
    G.num (G.val (2 * k) * G.val (2 * k) + G.val (2 * k)) ≠ G.N →
    im.getD (G.num (G.val (2 * k) * G.val (2 * k) + G.val (2 * k))) 0 = G.val (2 * k)

theorem val_even_ne {k : Nat} (h1 : 1 ≤ k) (h2 : k < (G.N + 1) / 2) : G.val (2 * k) ≠ 0 ∧ G.val (2 * k) ≠ 1 := by
  have hQ := G.Q_eq
  have hn : G.num (G.val (2 * k)) = 2 * k := G.num_val _ (by omega)
  constructor
  · intro h; rw [h, G.num_zero] at hn; omega
  · intro h; rw [h, G.num_one] at hn; omega

theorem xor_one_ne_even (a b : Nat) : (2 * a) ^^^ 1 ≠ 2 * b := by
  intro h
  have := congrArg (Nat.testBit · 0) h
  simp at this

include G in
theorem artin_factor {x y : F} (h : x * x + x = y * y + y) : x = y ∨ x = y + 1 := by
  have h1 : (x + y) * (x + y + 1) = 0 := by
    have h2 := G.two_eq
    linear_combination h + (y * y + y + x * y) * h2
  rcases mul_eq_zero.1 h1 with h2 | h2
  · exact Or.inl (G.eq_of_add h2)
  · right
    rw [add_assoc] at h2
    exact G.eq_of_add h2

theorem artin_ok : Ok (artin (G.fieldOps u ui)) (Imap G) := by
  have hQ := G.Q_eq
  have hN := G.N_ge
  unfold artin
  simp only [Option.bind_eq_bind, Gf.f_mkV0, Option.bind_some, Gf.f_N, Gf.f_junk]
  rw [forUp_fill (g := fun _ => (0 : F)) (by rw [List.length_replicate])
    (fun j l hj hl => by rw [List.length_replicate] at hl; exact wr_of_lt (by omega)), Option.bind_some,
    List.drop_eq_nil_of_le (by rw [List.length_replicate]), List.append_nil]
  refine Ok.mono (forUp_inv (fun k (im : List F) => im.length = G.N + 1 ∧
      (∀ n, im.getD n 0 ≠ 0 → ∃ j, 1 ≤ j ∧ j < k ∧ im.getD n 0 = G.val (2 * j) ∧
        G.num (im.getD n 0 * im.getD n 0 + im.getD n 0) = n ∧ n ≠ G.N) ∧
      (∀ j, 1 ≤ j → j < k → G.num (G.val (2 * j) * G.val (2 * j) + G.val (2 * j)) ≠ G.N →
        im.getD (G.num (G.val (2 * j) * G.val (2 * j) + G.val (2 * j))) 0 = G.val (2 * j)))
      (by omega) ?_ ?_) ?_
  · refine ⟨by rw [List.length_map, List.length_range], ?_, by omega⟩
    intro n hn
    exfalso; apply hn
    simp only [List.getD_eq_getElem?_getD, List.getElem?_map]
    cases (List.range (G.N + 1))[n]? <;> simp
  · rintro k im hk1 hk2 ⟨hl, hs, hc⟩
    obtain ⟨hx0, hx1⟩ := val_even_ne G hk1 hk2
    rw [Gf.f_mkV G u ui (show 2 * k ≤ G.N by omega), Option.bind_some, Gf.f_mulVV, Option.bind_some,
      Gf.f_add, Option.bind_some, Gf.f_mkV G u ui le_rfl, Option.bind_some]
    simp only [Gf.f_num, G.num_val G.N (show G.N < 2 ^ G.M by omega)]
    set x := G.val (2 * k) with hx
    by_cases hskip : G.num (x * x + x) = G.N
    · rw [if_pos hskip]
      refine Ok.some ⟨hl, ?_, ?_⟩
      · intro n hn
        obtain ⟨j, h1, h2, h3⟩ := hs n hn
        exact ⟨j, h1, by omega, h3⟩
      · intro j h1 h2 h3
        by_cases hjk : j = k
        · subst hjk; exact absurd hskip h3
        · exact hc j h1 (by omega) h3
    · rw [if_neg hskip]
      have hne : x * x + x ≠ 0 := by
        intro h
        have : x * (x + 1) = 0 := by linear_combination h
        rcases mul_eq_zero.1 this with h | h
        · exact hx0 h
        · exact hx1 (G.eq_of_add h)
      have hlt : G.num (x * x + x) < im.length := by rw [hl]; have := G.num_lt (x * x + x); omega
      have hold : im.getD (G.num (x * x + x)) 0 = 0 := by
        by_contra hc0
        obtain ⟨j, h1, h2, h3, h4, _⟩ := hs _ hc0
        have h5 := G.num_inj h4
        have hev : G.num (G.val (2 * j)) = 2 * j := G.num_val _ (by omega)
        have hevx : G.num x = 2 * k := G.num_val _ (by omega)
        rcases artin_factor G h5 with h6 | h6
        · rw [h3] at h6
          have := congrArg G.num h6
          rw [hev, hevx] at this; omega
        · rw [h3] at h6
          have := congrArg G.num h6
          rw [hev, G.num_add, hevx, G.num_one] at this
          exact xor_one_ne_even _ _ this.symm
      refine Ok.bind (P := fun _ => True) (Ok.assertUB (mt G.num_eq_zero.1 hne) trivial) fun _ _ => ?_
      rw [rd_of_lt hlt, Option.bind_some, getElem_eq_getD hlt 0, hold]
      refine Ok.bind (P := fun _ => True) (Ok.assertUB G.num_zero trivial) fun _ _ => ?_
      rw [wr_of_lt hlt]
      refine Ok.some ⟨by rw [List.length_set, hl], ?_, ?_⟩
      · intro n
        rw [getD_set]
        split
        · rename_i h
          intro _
          exact ⟨k, hk1, by omega, hx, h.1, by rw [← h.1]; exact hskip⟩
        · intro hn
          obtain ⟨j, h1, h2, h3⟩ := hs n hn
          exact ⟨j, h1, by omega, h3⟩
      · intro j h1 h2 h3
        rw [getD_set]
        by_cases hjk : j = k
        · subst hjk; rw [if_pos ⟨rfl, hlt⟩]
        · have h4 := hc j h1 (by omega) h3
          rw [if_neg, h4]
          rintro ⟨h5, _⟩
          rw [← h5, hold] at h4
          exact (val_even_ne G h1 (by omega)).1 h4.symm
  · rintro im ⟨h1, h2, h3⟩
    exact ⟨h1, h2, h3⟩

/-- The locator of position `p` (inverse of the root found by the search). -/
noncomputable def xl (p : Nat) : F := (G.al ^ (p + 1))⁻¹

theorem xl_ne (p : Nat) : xl G p ≠ 0 := inv_ne_zero (G.al_pow_ne _)
theorem xl_inv (p : Nat) : (xl G p)⁻¹ = G.al ^ (p + 1) := inv_inv _

theorem al_succ_inj {i j : Nat} (hi : i < G.N) (hj : j < G.N) (h : G.al ^ (i + 1) = G.al ^ (j + 1)) : i = j := by
  rw [pow_succ, pow_succ] at h
  exact G.al_pow_inj hi hj (mul_right_cancel₀ G.al_ne h)

theorem xl_inj {A : Finset Nat} (hA : ∀ p ∈ A, p < G.N) : Set.InjOn (xl G) A := by
  intro p hp q hq h
  exact al_succ_inj G (hA p hp) (hA q hq) (inv_injective h)

theorem xl_eq {p : Nat} (hp : p < G.N) : xl G p = G.al ^ (G.N - 1 - p) := by
  unfold xl
  apply inv_eq_of_mul_eq_one_right
  rw [← pow_add, show p + 1 + (G.N - 1 - p) = G.N by omega, G.al_pow_N]

/-- The positions written by a search. -/
def posOf (locs : List (Fin G.N)) (cnt : Nat) : List Nat := (locs.take cnt).map Fin.val

theorem posOf_lt {locs : List (Fin G.N)} {cnt p : Nat} (h : p ∈ posOf G locs cnt) : p < G.N := by
  unfold posOf at h
  rw [List.mem_map] at h
  obtain ⟨i, _, rfl⟩ := h
  exact i.2

/-- What a search returns: distinct roots. -/
structure Found (c : F[X]) (deg n : Nat) (r : List (Fin G.N) × Nat) : Prop where
  len : r.1.length = n
  cnt : r.2 ≤ deg
  cntn : r.2 ≤ n
  nodup : (posOf G r.1 r.2).Nodup
  root : ∀ p ∈ posOf G r.1 r.2, c.eval (G.al ^ (p + 1)) = 0

theorem posOf_length {r : List (Fin G.N) × Nat} {n : Nat} (h1 : r.1.length = n) (h2 : r.2 ≤ n) :
    (posOf G r.1 r.2).length = r.2 := by
  unfold posOf
  rw [List.length_map, List.length_take]; omega

theorem nodup_roots_le {c : F[X]} (hc : c ≠ 0) {l : List Nat} (hl : l.Nodup) (hlt : ∀ p ∈ l, p < G.N)
    (h : ∀ p ∈ l, c.eval (G.al ^ (p + 1)) = 0) : l.length ≤ c.natDegree := by
  classical
  have h1 : (l.toFinset.image fun p => G.al ^ (p + 1)).card = l.length := by
    rw [Finset.card_image_of_injOn, List.toFinset_card_of_nodup hl]
    intro p hp q hq h
    simp only [List.coe_toFinset, Set.mem_ofPred_eq] at hp hq
    exact al_succ_inj G (hlt p hp) (hlt q hq) h
  rw [← h1]
  refine (Finset.card_le_card (t := c.roots.toFinset) ?_).trans
    ((Multiset.toFinset_card_le _).trans (card_roots' c))
  intro r hr
  rw [Finset.mem_image] at hr
  obtain ⟨p, hp, rfl⟩ := hr
  rw [Multiset.mem_toFinset, mem_roots hc]
  exact h p (by simpa using hp)

open Classical in
theorem chien_ok {loc : List F} {deg n : Nat} {locs : List (Fin G.N)} (hl : deg < loc.length)
    (hd : (pl loc).natDegree = deg) (h0 : (pl loc).coeff 0 ≠ 0) (hdN : deg < G.N) (hn : locs.length = n)
    (hdn : deg ≤ n) :
    Ok (chien (G.fieldOps u ui) loc deg locs) (fun r => r.1.length = n ∧
      posOf G r.1 r.2 = (List.range G.N).filter (fun p => (pl loc).eval (G.al ^ (p + 1)) = 0) ∧ r.2 ≤ n) := by
  set c := pl loc with hc
  have hc0 : c ≠ 0 := by intro h; rw [h] at h0; simp at h0
  have evalc : ∀ r, c.eval r = ∑ j ∈ range (deg + 1), loc.getD j 0 * r ^ j := by
    intro r
    rw [eval_eq_sum_range, hd]
    refine Finset.sum_congr rfl fun j _ => by rw [hc, coeff_pl]
  unfold chien
  simp only [Option.bind_eq_bind, Gf.f_junk, Gf.f_N]
  rw [copy_ok (src := loc) (by omega) (by rw [List.length_replicate]) (fun i l => rfl), Option.bind_some]
  refine Ok.bind (forUp_inv (fun i (st : List F × List (Fin G.N) × Nat) =>
      st.1.length = deg + 1 ∧ (∀ j, j < deg + 1 → st.1.getD j 0 = loc.getD j 0 * (G.al ^ j) ^ i) ∧
      st.2.1.length = n ∧ posOf G st.2.1 st.2.2 = (List.range i).filter (fun p => c.eval (G.al ^ (p + 1)) = 0) ∧
      st.2.2 ≤ n) (by omega) ?_ ?_) ?_
  · refine ⟨by rw [List.length_take]; omega, ?_, hn, by simp [posOf], Nat.zero_le _⟩
    intro j hj
    rw [pow_zero, mul_one, List.getD_eq_getElem?_getD, List.getElem?_take_of_lt hj, ← List.getD_eq_getElem?_getD]
  · rintro i ⟨tmp, ls, cnt⟩ _ hi ⟨h1, h2, h3, h4, h5⟩
    dsimp only at h1 h2 h3 h4 h5 ⊢
    rw [rd_of_lt (show 0 < tmp.length by omega), Option.bind_some]
    have hin : Ok (forUp 1 (deg + 1) (tmp, tmp[0]) fun j x => (rd x.1 j).bind fun t =>
        ((G.fieldOps u ui).mkI j).bind fun ji => ((G.fieldOps u ui).mulVI t ji).bind fun t =>
        (wr x.1 j t).bind fun tmp => ((G.fieldOps u ui).add x.2 t).bind fun sum => some (tmp, sum))
        (fun st => st.1.length = deg + 1 ∧
          (∀ j, j < deg + 1 → st.1.getD j 0 = loc.getD j 0 * (G.al ^ j) ^ (i + 1)) ∧
          st.2 = c.eval (G.al ^ (i + 1))) := by
      refine Ok.mono (forUp_inv (fun k (st : List F × F) => st.1.length = deg + 1 ∧
          (∀ j, j < k → st.1.getD j 0 = loc.getD j 0 * (G.al ^ j) ^ (i + 1)) ∧
          (∀ j, k ≤ j → j < deg + 1 → st.1.getD j 0 = loc.getD j 0 * (G.al ^ j) ^ i) ∧
          st.2 = ∑ j ∈ range k, loc.getD j 0 * (G.al ^ (i + 1)) ^ j) (by omega) ?_ ?_) ?_
      · refine ⟨h1, ?_, fun j _ h => h2 j h, ?_⟩
        · intro j hj
          have : j = 0 := by omega
          subst this
          rw [h2 0 (by omega)]; simp
        · simp only
          rw [Finset.sum_range_one, getElem_eq_getD _ 0, h2 0 (by omega)]; simp
      · rintro k ⟨t, sm⟩ hk1 hk2 ⟨g1, g2, g3, g4⟩
        dsimp only at g1 g2 g3 g4 ⊢
        rw [rd_of_lt (show k < t.length by omega), Option.bind_some, Gf.f_mkI G u ui (show k < G.N by omega),
          Option.bind_some, Gf.f_mulVI, Option.bind_some, wr_of_lt (by omega), Option.bind_some, Gf.f_add,
          Option.bind_some]
        have hv : t[k] * G.al ^ k = loc.getD k 0 * (G.al ^ k) ^ (i + 1) := by
          rw [getElem_eq_getD _ 0, g3 k le_rfl (by omega), pow_succ]; ring
        refine Ok.some ⟨by rw [List.length_set, g1], ?_, ?_, ?_⟩
        · intro j hj
          simp only [getD_set, g1]
          split
          · rename_i h; rw [← h.1, hv]
          · exact g2 j (by omega)
        · intro j hj1 hj2
          simp only [getD_set]
          rw [if_neg (by omega)]
          exact g3 j (by omega) hj2
        · dsimp only
          rw [Finset.sum_range_succ, g4, hv, ← pow_mul, ← pow_mul, mul_comm k]
      · rintro ⟨t, sm⟩ ⟨g1, g2, _, g4⟩
        exact ⟨g1, g2, by rw [g4, evalc]⟩
    refine Ok.bind hin ?_
    rintro ⟨t, sm⟩ ⟨g1, g2, g3⟩
    dsimp only at g1 g2 g3 ⊢
    simp only [Gf.f_num, G.num_eq_zero]
    by_cases hs : sm = 0
    · rw [if_pos hs, Gf.f_mkI G u ui hi, Option.bind_some]
      rw [g3] at hs
      -- the number of roots so far is below the degree
      have hcnt : cnt < n := by
        have hlen : (posOf G ls cnt).length = cnt := posOf_length G (r := (ls, cnt)) h3 h5
        have h6 := nodup_roots_le G hc0 (l := (List.range (i + 1)).filter (fun p => c.eval (G.al ^ (p + 1)) = 0))
          ((List.nodup_range).filter _) (by
            intro p hp
            simp only [List.mem_filter, List.mem_range] at hp; omega) (by
            intro p hp
            simp only [List.mem_filter, decide_eq_true_eq] at hp; exact hp.2)
        rw [List.range_succ, List.filter_append, List.length_append, ← h4, hlen, hd] at h6
        have : (List.filter (fun p => decide (c.eval (G.al ^ (p + 1)) = 0)) [i]).length = 1 := by
          simp [hs]
        omega
      rw [wr_of_lt (by omega), Option.bind_some]
      refine Ok.some ⟨g1, g2, by rw [List.length_set, h3], ?_, by simpa using hcnt⟩
      dsimp only
      rw [List.range_succ, List.filter_append, ← h4]
      have : (List.filter (fun p => decide (c.eval (G.al ^ (p + 1)) = 0)) [i]) = [i] := by
        simp [hs]
      rw [this]
      unfold posOf
      rw [List.take_add_one, List.getElem?_set_self (by omega), List.take_set,
        List.set_eq_of_length_le (by rw [List.length_take]; omega)]
      simp
    · rw [if_neg hs]
      rw [g3] at hs
      refine Ok.some ⟨g1, g2, h3, ?_, h5⟩
      dsimp only
      rw [List.range_succ, List.filter_append, ← h4]
      have : (List.filter (fun p => decide (c.eval (G.al ^ (p + 1)) = 0)) [i]) = [] := by
        simp [hs]
      rw [this, List.append_nil]
  · rintro ⟨t, ls, cnt⟩ ⟨_, _, h3, h4, h5⟩
    exact Ok.some ⟨h3, h4, h5⟩

theorem idx_sub_one {x : F} (hx : x ≠ 0) :
    G.al ^ ((G.log x + G.N - 1) % G.N + 1) = x := by
  have hN := G.N_ge
  rw [pow_succ, G.al_pow_mod, ← pow_succ, show G.log x + G.N - 1 + 1 = G.log x + G.N by omega, pow_add, G.al_pow_N,
    mul_one, G.al_log x hx]

theorem pl_two {loc : List F} (hd : (pl loc).natDegree ≤ 2) (r : F) :
    (pl loc).eval r = loc.getD 0 0 + loc.getD 1 0 * r + loc.getD 2 0 * r ^ 2 := by
  rw [eval_eq_sum_range' (n := 3) (by omega)]
  simp [Finset.sum_range_succ, coeff_pl]

/-- The exceptional quadratics: the normalised constant is the all-ones element. -/
def Skipped (loc : List F) : Prop :=
  G.num (loc.getD 2 0 * loc.getD 0 0 / (loc.getD 1 0 * loc.getD 1 0)) = G.N

open Classical in
theorem findLoc_ok {im loc : List F} {deg n : Nat} {locs : List (Fin G.N)} (hI : Imap G im)
    (hl : deg < loc.length) (hd : (pl loc).natDegree = deg) (h0 : (pl loc).coeff 0 = 1) (hdN : deg < G.N)
    (hn : locs.length = n) (hdn : deg ≤ n) :
    Ok (findLoc (G.fieldOps u ui) im loc deg locs) (fun r => Found G (pl loc) deg n r ∧
      ((deg = 2 ∧ Skipped G loc → r.2 = 0) ∧
       (∀ A : Finset Nat, (∀ p ∈ A, p < G.N) → pl loc = sigma (xl G) A →
        ¬ (deg = 2 ∧ Skipped G loc) → r.2 = deg))) := by
  have hN := G.N_ge
  have hQ := G.Q_eq
  have hc0 : pl loc ≠ 0 := by intro h; rw [h] at h0; simp at h0
  have hl0 : loc.getD 0 0 = 1 := by rw [← coeff_pl, h0]
  unfold findLoc
  by_cases h1 : deg = 1
  · subst h1
    have hb : loc.getD 1 0 ≠ 0 := by
      rw [← coeff_pl]
      have := leadingCoeff_ne_zero.2 hc0
      unfold leadingCoeff at this; rwa [hd] at this
    rw [if_pos rfl, rd_of_lt (show 0 < loc.length by omega), sb, rd_of_lt hl, sb,
      getElem_eq_getD _ 0, getElem_eq_getD _ 0, hl0, Gf.f_index G u ui one_ne_zero, sb,
      Gf.f_index G u ui hb, sb, Gf.f_divII, sb, Gf.f_mkI1, sb, Gf.f_divII,
      sb, wr_of_lt (by omega), sb]
    refine Ok.some ⟨⟨by rw [List.length_set, hn], le_rfl, hdn, ?_, ?_⟩, by omega, fun _ _ _ _ => rfl⟩
    · unfold posOf
      rcases locs with _ | ⟨a, t⟩
      · simp at hn; omega
      · simp
    · intro p hp
      unfold posOf at hp
      rcases locs with _ | ⟨a, t⟩
      · simp at hn; omega
      · simp only [List.set_cons_zero, List.take_succ_cons, List.take_zero, List.map_cons, List.map_nil,
          List.mem_singleton] at hp
        have : G.al ^ (p + 1) = 1 / loc.getD 1 0 := by
          rw [hp, pow_succ, G.al_pow_mod, ← pow_succ,
            show (G.log 1 + G.N - G.log (loc.getD 1 0)) % G.N + G.N - 1 + 1 =
              (G.log 1 + G.N - G.log (loc.getD 1 0)) % G.N + G.N by omega, pow_add, G.al_pow_N, mul_one,
            G.al_div (G.log_lt _), G.al_log _ one_ne_zero, G.al_log _ hb]
        rw [this, pl_two (by omega), hl0]
        have h2 : loc.getD 2 0 = 0 := by
          rw [← coeff_pl]; exact coeff_eq_zero_of_natDegree_lt (by omega)
        rw [h2, mul_one_div_cancel hb]
        rw [zero_mul, add_zero]; exact G.add_self 1
  rw [if_neg h1]
  by_cases h2 : deg = 2
  · subst h2
    have ha : loc.getD 2 0 ≠ 0 := by
      rw [← coeff_pl]
      have := leadingCoeff_ne_zero.2 hc0
      unfold leadingCoeff at this; rwa [hd] at this
    rw [if_pos rfl, rd_of_lt (show 1 < loc.length by omega), sb, rd_of_lt (show 0 < loc.length by omega),
      sb, getElem_eq_getD _ 0, getElem_eq_getD _ 0]
    simp only [Gf.f_num, G.num_eq_zero]
    -- facts about a complete factorisation
    have hfac : ∀ A : Finset Nat, (∀ p ∈ A, p < G.N) → pl loc = sigma (xl G) A →
        loc.getD 1 0 ≠ 0 ∧ ∃ r : F, loc.getD 0 0 + loc.getD 1 0 * r + loc.getD 2 0 * r ^ 2 = 0 := by
      intro A hA hAe
      have hcard : A.card = 2 := by rw [← hd, hAe, sigma_natDegree (xl_ne G)]
      obtain ⟨p, q, hpq, rfl⟩ := Finset.card_eq_two.1 hcard
      constructor
      · rw [← coeff_pl, hAe]
        unfold sigma
        rw [Finset.prod_pair hpq]
        have : ((1 - C (xl G p) * X) * (1 - C (xl G q) * X) : F[X]) =
            1 - C (xl G p + xl G q) * X + C (xl G p * xl G q) * X ^ 2 := by
          simp only [C_add, C_mul]; ring
        rw [this]
        simp only [coeff_add, coeff_sub, coeff_one, coeff_C_mul, coeff_X_one, coeff_X_pow]
        simp only [one_ne_zero, if_false, mul_one, zero_sub]
        norm_num
        intro h
        have h3 := G.eq_of_add (x := xl G p) (y := xl G q) (by
          linear_combination -h)
        exact hpq (xl_inj G hA (by simp) (by simp) h3)
      · refine ⟨(xl G p)⁻¹, ?_⟩
        rw [← pl_two (by omega), hAe]
        exact eval_sigma (xl_ne G) (by simp)
    by_cases hb : loc.getD 1 0 = 0
    · rw [if_pos (Or.inl hb)]
      refine Ok.some ⟨⟨hn, by simp, by simp, by simp [posOf], by simp [posOf]⟩, fun _ => rfl, ?_⟩
      intro A hA hAe _
      exact absurd hb (hfac A hA hAe).1
    · rw [if_neg (by rw [hl0]; exact fun h => h.elim hb one_ne_zero), rd_of_lt hl, sb, getElem_eq_getD _ 0,
        Gf.f_divVV G u ui ha, sb, Gf.f_mulVV, sb, Gf.f_mulVV, sb,
        Gf.f_divVV G u ui (mul_ne_zero hb hb), sb]
      set a := loc.getD 2 0 with hae
      set b := loc.getD 1 0 with hbe
      have hy0 : a * loc.getD 0 0 / (b * b) ≠ 0 := by
        rw [hl0]; exact div_ne_zero (mul_ne_zero ha one_ne_zero) (mul_ne_zero hb hb)
      set y := a * loc.getD 0 0 / (b * b) with hye
      have hyb : y * (b * b) = a := by
        rw [hye, hl0, mul_one]; field_simp
      have hyl := G.num_lt y
      refine Ok.bind' (P := fun _ => True) (Ok.assertUB (show G.num y ≤ G.N by omega) trivial) fun _ _ => ?_
      refine Ok.bind' (P := fun _ => True) (Ok.assertUB (mt G.num_eq_zero.1 hy0) trivial) fun _ _ => ?_
      rw [rd_of_lt (show G.num y < im.length by rw [hI.len]; omega), sb,
        getElem_eq_getD _ 0]
      have hskip : Skipped G loc ↔ G.num y = G.N := Iff.rfl
      by_cases hR : im.getD (G.num y) 0 = 0
      · rw [if_pos hR]
        refine Ok.some ⟨⟨hn, by simp, by simp, by simp [posOf], by simp [posOf]⟩, fun _ => rfl, ?_⟩
        intro A hA hAe hns
        exfalso
        obtain ⟨_, r, hr⟩ := hfac A hA hAe
        rw [hl0] at hr
        -- x = r a / b solves x^2 + x = y
        have hx : (r * a / b) * (r * a / b) + r * a / b = y := by
          rw [eq_comm, ← sub_eq_zero]
          have h3 : y * (b * b) = a := hyb
          have h4 := G.two_eq
          have hbb : b * b ≠ 0 := mul_ne_zero hb hb
          have : (y - (r * a / b * (r * a / b) + r * a / b)) * (b * b) = 0 := by
            have e1 : r * a / b * b = r * a := div_mul_cancel₀ _ hb
            linear_combination h3 - ((r * a / b) * b + r * a + b) * e1 - a * hr + a * h4
          exact (mul_eq_zero.1 this).resolve_right hbb
        set x := r * a / b with hxe
        have hns' : G.num y ≠ G.N := fun h => hns ⟨trivial, hskip.2 h⟩
        -- choose the even one
        have hex : ∃ v : F, v * v + v = y ∧ G.num v % 2 = 0 := by
          rcases Nat.mod_two_eq_zero_or_one (G.num x) with h | h
          · exact ⟨x, hx, h⟩
          · refine ⟨x + 1, ?_, ?_⟩
            · have h4 := G.two_eq
              linear_combination hx + (x + 1) * h4
            · rw [G.num_add, G.num_one]
              have : (G.num x ^^^ 1).testBit 0 = false := by
                rw [Nat.testBit_xor]; simp [h]
              simpa using this
        obtain ⟨v, hv, hve⟩ := hex
        have hv0 : v ≠ 0 := by rintro rfl; rw [mul_zero, add_zero] at hv; exact hy0 hv.symm
        have hvn : G.num v ≠ 0 := mt G.num_eq_zero.1 hv0
        have hvl := G.num_lt v
        have hvk : v = G.val (2 * (G.num v / 2)) := by
          rw [show 2 * (G.num v / 2) = G.num v by omega, G.val_num]
        have hev : 2 ^ G.M % 2 = 0 := Nat.two_pow_mod_two_eq_zero.2 (by have := G.hM; omega)
        have := hI.complete (G.num v / 2) (by omega) (by omega) (by rw [← hvk, hv]; exact hns')
        rw [← hvk, hv, hR] at this
        exact hv0 this.symm
      · rw [if_neg hR]
        obtain ⟨k, hk1, hk2, hk3, hk4, hk5⟩ := hI.sound _ hR
        set R := im.getD (G.num y) 0 with hRe
        have hRR : R * R + R = y := G.num_inj hk4
        have hR1 : R ≠ 1 := by rw [hk3]; exact (val_even_ne G hk1 hk2).2
        have hba : b / a ≠ 0 := div_ne_zero hb ha
        have hr1 : b / a * R ≠ 0 := mul_ne_zero hba hR
        have hr2 : b / a * R + b / a ≠ 0 := by
          intro h
          have h3 : b / a * (R + 1) = 0 := by linear_combination h
          rcases mul_eq_zero.1 h3 with h4 | h4
          · exact hba h4
          · exact hR1 (G.eq_of_add h4)
        rw [Gf.f_mkI1, sb, Gf.f_mulVV, sb, Gf.f_index G u ui hr1, sb,
          Gf.f_divII, sb, wr_of_lt (by omega), sb, Gf.f_add, sb,
          Gf.f_index G u ui hr2, sb, Gf.f_divII, sb,
          wr_of_lt (by rw [List.length_set]; omega), sb]
        have hroot : ∀ v : F, v * v + v = y → 1 + b * (b / a * v) + a * (b / a * v) ^ 2 = 0 := by
          intro v hv
          have e1 : b / a * a = b := div_mul_cancel₀ _ ha
          have e2 := G.two_eq
          have : a * (1 + b * (b / a * v) + a * (b / a * v) ^ 2) = 0 := by
            linear_combination (b * b) * hv + hyb + (b * v + v ^ 2 * (b / a * a + b)) * e1 + a * e2
          exact (mul_eq_zero.1 this).resolve_left ha
        refine Ok.some ⟨⟨by rw [List.length_set, List.length_set, hn], le_rfl, hdn, ?_, ?_⟩, ?_, fun _ _ _ _ => rfl⟩
        · unfold posOf
          rcases locs with _ | ⟨l0, _ | ⟨l1, t⟩⟩
          · simp at hn; omega
          · simp at hn; omega
          · simp only [List.set_cons_zero, List.set_cons_succ, List.take_succ_cons, List.take_zero, List.map_cons,
              List.map_nil, List.nodup_cons, List.mem_singleton, List.not_mem_nil, not_false_eq_true,
              List.nodup_nil, and_true]
            intro h
            have h3 : G.al ^ ((G.log (b / a * R) + G.N - 1) % G.N + 1) =
                G.al ^ ((G.log (b / a * R + b / a) + G.N - 1) % G.N + 1) := by rw [h]
            rw [idx_sub_one G hr1, idx_sub_one G hr2] at h3
            exact hba (by linear_combination -h3)
        · intro p hp
          unfold posOf at hp
          rcases locs with _ | ⟨l0, _ | ⟨l1, t⟩⟩
          · simp at hn; omega
          · simp at hn; omega
          · simp only [List.set_cons_zero, List.set_cons_succ, List.take_succ_cons, List.take_zero, List.map_cons,
              List.map_nil, List.mem_cons, List.not_mem_nil, or_false] at hp
            rw [pl_two (by omega), hl0]
            rcases hp with rfl | rfl
            · rw [idx_sub_one G hr1]; exact hroot R hRR
            · rw [idx_sub_one G hr2, show b / a * R + b / a = b / a * (R + 1) by ring]
              refine hroot (R + 1) ?_
              have h4 := G.two_eq
              linear_combination hRR + (R + 1) * h4
        · rintro ⟨_, h⟩
          exact absurd (hskip.1 h) hk5
  · rw [if_neg h2]
    refine (chien_ok G u ui hl hd (by rw [h0]; exact one_ne_zero) hdN hn hdn).mono ?_
    rintro r ⟨g1, g2, g3⟩
    have hlen : (posOf G r.1 r.2).length = r.2 := posOf_length G g1 g3
    have hnd : (posOf G r.1 r.2).Nodup := by rw [g2]; exact List.nodup_range.filter _
    have hroot : ∀ p ∈ posOf G r.1 r.2, (pl loc).eval (G.al ^ (p + 1)) = 0 := by
      intro p hp
      rw [g2] at hp
      simp only [List.mem_filter, decide_eq_true_eq] at hp; exact hp.2
    refine ⟨⟨g1, ?_, g3, hnd, hroot⟩, fun h => absurd h.1 h2, ?_⟩
    · rw [← hlen, ← hd]
      exact nodup_roots_le G hc0 hnd (fun p hp => posOf_lt G hp) hroot
    · intro A hA hAe _
      apply le_antisymm
      · rw [← hlen, ← hd]
        exact nodup_roots_le G hc0 hnd (fun p hp => posOf_lt G hp) hroot
      · have hsub : A ⊆ (posOf G r.1 r.2).toFinset := by
          intro p hp
          rw [List.mem_toFinset, g2, List.mem_filter, List.mem_range]
          refine ⟨hA p hp, ?_⟩
          rw [decide_eq_true_eq, hAe, ← xl_inv]
          exact eval_sigma (xl_ne G) hp
        have := Finset.card_le_card hsub
        rw [List.toFinset_card_of_nodup hnd, hlen] at this
        have hcard : A.card = deg := by rw [← hd, hAe, sigma_natDegree (xl_ne G)]
        omega

end Verif.RS
