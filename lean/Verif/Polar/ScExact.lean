import Verif.Polar.Ml
import Verif.Polar.SpecSc
/- The successive cancellation decoder is the one of the textbook, for any arithmetic of the soft values. -/
namespace Verif.Polar
open Verif.RS (sb)
variable {τ V : Type}

/-- What is needed of the arithmetic of the soft values that satisfy `R` (`R t` at depth `t` of the tree): the signs of `F` and `G`. -/
structure Arith.Laws (A : Arith V) (R : Nat → V → Prop) : Prop where
  rF : ∀ t a b, R t a → R t b → R (t + 1) (A.F a b)
  rG : ∀ t h a b, Sym h → R t a → R t b → R (t + 1) (A.G h a b)
  sgn : ∀ a, A.sgn a = 1 ∨ A.sgn a = 0 ∨ A.sgn a = -1
  F_sgn : ∀ t a b, R t a → R t b → A.sgn (A.F a b) = A.sgn a * A.sgn b
  G_sgn : ∀ t a b, R t a → R t b → A.sgn a ≠ 0 → A.sgn b ≠ 0 → A.sgn (A.G (A.sgn a * A.sgn b) a b) = A.sgn b

/-- What one lane of a register sees: `S a v` says that the lane of `a` holds the soft value `v`, `Hd a x` that it holds the symbol `x`. -/
structure Lane (H : PH τ) (A : Arith V) (M : Nat) (R : Nat → V → Prop) (S : τ → V → Prop) (Hd : τ → Int → Prop) : Prop where
  one : Hd H.one 1
  qmul : ∀ a b x y, Sym x → Sym y → Hd a x → Hd b y → Hd (H.qmul a b) (x * y)
  signum : ∀ a v, S a v → A.sgn v ≠ 0 → Hd (H.signum a) (A.sgn v)
  prod : ∀ t a b v w, t < M → R t v → R t w → S a v → S b w → S (H.prod a b) (A.F v w)
  madd : ∀ t h a b x v w, t < M → Sym x → R t v → R t w → Hd h x → S a v → S b w → S (H.madd h a b) (A.G x v w)

theorem Arith.Laws.sym {A : Arith V} {R : Nat → V → Prop} (L : A.Laws R) {a : V} (h : A.sgn a ≠ 0) : Sym (A.sgn a) := by
  rcases L.sgn a with e | e | e
  · exact Or.inl e
  · exact absurd e h
  · exact Or.inr e


theorem softAt_congr (A : Arith V) (M : Nat) (s : Nat → V) {u v : Nat → Int} : ∀ (t n : Nat), t ≤ M → (∀ j, j < n * 2 ^ (M - t) → u j = v j) → ∀ i, softAt A M s u t n i = softAt A M s v t n i := by
  intro t
  induction t with
  | zero => intro n _ _ i; rfl
  | succ t ih =>
    intro n ht h i
    have e : 2 ^ (M - t) = 2 * 2 ^ (M - (t + 1)) := by rw [show M - t = M - (t + 1) + 1 by omega, pow_succ]; ring
    have hn : n / 2 * 2 ^ (M - t) ≤ n * 2 ^ (M - (t + 1)) := by
      rw [e, ← mul_assoc]
      exact Nat.mul_le_mul_right _ (Nat.div_mul_le_self n 2)
    have hp := ih (n / 2) (by omega) fun j hj => h j (by omega)
    simp only [softAt]
    rw [hp, hp]
    split
    · rfl
    · rename_i ho
      rw [polar_congr (v := fun j => v ((n - 1) * 2 ^ (M - (t + 1)) + j))]
      intro j hj
      refine h _ ?_
      obtain ⟨k, rfl⟩ : ∃ k, n = k + 1 := ⟨n - 1, by omega⟩
      rw [Nat.add_sub_cancel, Nat.add_mul, Nat.one_mul]; omega

/-- The decisions `u` are the signs of the soft values, none of which is 0. -/
structure Decides (A : Arith V) (M : Nat) (σ : Nat → V) (fr : Nat → Prop) (u : Nat → Int) : Prop where
  frozen : ∀ i, i < 2 ^ M → fr i → u i = 1
  free : ∀ i, i < 2 ^ M → ¬ fr i → u i = A.sgn (softAt A M σ u M i 0)
  ne : ∀ i, i < 2 ^ M → ¬ fr i → A.sgn (softAt A M σ u M i 0) ≠ 0
  sym : ∀ i, Sym (u i)

theorem softAt_R {A : Arith V} {R : Nat → V → Prop} (L : A.Laws R) {M : Nat} {σ : Nat → V} {u : Nat → Int} (hu : ∀ i, Sym (u i)) (hσ : ∀ i, i < 2 ^ M → R 0 (σ i)) :
    ∀ t n i, t ≤ M → i < 2 ^ (M - t) → R t (softAt A M σ u t n i) := by
  intro t
  induction t with
  | zero => intro n i _ hi; exact hσ i hi
  | succ t ih =>
    intro n i ht hi
    have e : 2 ^ (M - t) = 2 * 2 ^ (M - (t + 1)) := by rw [show M - t = M - (t + 1) + 1 by omega, pow_succ]; ring
    rw [softAt]
    split
    · exact L.rF _ _ _ (ih _ _ (by omega) (by omega)) (ih _ _ (by omega) (by omega))
    · exact L.rG _ _ _ _ (polar_sym (fun j => hu _) hi) (ih _ _ (by omega) (by omega)) (ih _ _ (by omega) (by omega))

/-- In a block without frozen positions the decisions are those that the signs of the block's soft values tell. -/
theorem rate1_block {A : Arith V} {R : Nat → V → Prop} (LA : A.Laws R) {M : Nat} {σ : Nat → V} {fr : Nat → Prop} {u : Nat → Int} (D : Decides A M σ fr u)
    (hσ : ∀ i, i < 2 ^ M → R 0 (σ i)) : ∀ d t n, t + d = M → n < 2 ^ t →
    (∀ i, i < 2 ^ d → ¬ fr (n * 2 ^ d + i)) → ∀ i, i < 2 ^ d → A.sgn (softAt A M σ u t n i) ≠ 0 ∧ A.sgn (softAt A M σ u t n i) = polar d (fun j => u (n * 2 ^ d + j)) i := by
  intro d
  induction d with
  | zero =>
    intro t n hM hn hf i hi
    have hi0 : i = 0 := by simpa using hi
    subst hi0
    have htM : t = M := by omega
    subst htM
    have hf := hf 0 (by simp)
    rw [pow_zero, Nat.mul_one] at hf ⊢
    refine ⟨D.ne n hn hf, ?_⟩
    have : polar 0 (fun j => u (n + j)) 0 = u n := by have := P_prod 0 (fun j => u (n + j)) 0 (by norm_num); unfold polar; rw [← this]; rfl
    rw [this, D.free n hn hf]
  | succ d ih =>
    intro t n hM hn hf
    have e := two_pow_succ' d
    have p1 : n * 2 ^ (d + 1) = 2 * n * 2 ^ d := by rw [pow_succ]; ring
    have p2 : n * 2 ^ (d + 1) + 2 ^ d = (2 * n + 1) * 2 ^ d := by rw [pow_succ]; ring
    have ht : M - (t + 1) = d := by omega
    have hL := ih (t + 1) (2 * n) (by omega) (by rw [pow_succ]; omega) fun i hi => by rw [← p1]; exact hf i (by omega)
    have hR := ih (t + 1) (2 * n + 1) (by omega) (by rw [pow_succ]; omega) fun i hi => by rw [← p2, Nat.add_assoc]; exact hf _ (by omega)
    have key : ∀ i, i < 2 ^ d → (A.sgn (softAt A M σ u t n i) ≠ 0 ∧ A.sgn (softAt A M σ u t n i) = polar (d + 1) (fun j => u (n * 2 ^ (d + 1) + j)) i) ∧
        (A.sgn (softAt A M σ u t n (2 ^ d + i)) ≠ 0 ∧ A.sgn (softAt A M σ u t n (2 ^ d + i)) = polar (d + 1) (fun j => u (n * 2 ^ (d + 1) + j)) (2 ^ d + i)) := by
      intro i hi
      obtain ⟨l1, l2⟩ := hL i hi
      obtain ⟨r1, r2⟩ := hR i hi
      rw [polar_low hi, polar_high hi]
      simp only [← Nat.add_assoc, p2]
      have eF : softAt A M σ u (t + 1) (2 * n) i = A.F (softAt A M σ u t n i) (softAt A M σ u t n (2 ^ d + i)) := by
        rw [softAt]
        simp only [ht]
        rw [if_pos (by omega), show 2 * n / 2 = n by omega]
      have eG : softAt A M σ u (t + 1) (2 * n + 1) i = A.G (polar d (fun j => u (2 * n * 2 ^ d + j)) i) (softAt A M σ u t n i) (softAt A M σ u t n (2 ^ d + i)) := by
        rw [softAt]
        simp only [ht]
        rw [if_neg (by omega), show (2 * n + 1) / 2 = n by omega, show 2 * n + 1 - 1 = 2 * n by omega]
      have ra : R t (softAt A M σ u t n i) := softAt_R LA D.sym hσ t n i (by omega) (by rw [show M - t = d + 1 by omega]; omega)
      have rb : R t (softAt A M σ u t n (2 ^ d + i)) := softAt_R LA D.sym hσ t n _ (by omega) (by rw [show M - t = d + 1 by omega]; omega)
      rw [eF, LA.F_sgn t _ _ ra rb] at l1 l2
      have ha : A.sgn (softAt A M σ u t n i) ≠ 0 := fun h => l1 (by rw [h, zero_mul])
      have hb : A.sgn (softAt A M σ u t n (2 ^ d + i)) ≠ 0 := fun h => l1 (by rw [h, mul_zero])
      rw [eG, ← l2, LA.G_sgn t _ _ ra rb ha hb] at r2
      rw [← p1] at l2
      refine ⟨⟨ha, ?_⟩, hb, r2⟩
      rw [← l2, ← r2, mul_assoc, (LA.sym hb).sq, mul_one]
    intro i hi
    by_cases h : i < 2 ^ d
    · exact (key i h).1
    · have := (key (i - 2 ^ d) (by omega)).2
      rwa [show 2 ^ d + (i - 2 ^ d) = i by omega] at this

theorem info_range_true {d : Nat} {f : List Bool} (hl : f.length = 2 ^ d) (h : ∀ i, i < 2 ^ d → f.getD i false = false) (v : Nat → Int) :
    info f ((List.range (2 ^ d)).map v) = (List.range (2 ^ d)).map v := by
  refine info_all_false (by simp [hl]) ?_
  rw [List.all_eq_true]
  intro b hb
  obtain ⟨i, hi, rfl⟩ := List.mem_iff_getElem.1 hb
  rw [getElem_eq_getD _ false, h i (by omega)]
  rfl

/-- What a node of the decoder does. -/
def NodeOk (H : PH τ) (Hd : τ → Int → Prop) (u : Nat → Int) (d n : Nat) (f : List Bool) (x : Msg τ) (r : Option (Msg τ × List τ × Unit)) : Prop :=
  ∃ l hd, r = some (⟨put x.msg x.p l, x.p + l.length⟩, hd, ()) ∧ l.length = cnt f ∧ List.Forall₂ Hd l (info f ((List.range (2 ^ d)).map fun i => u (n * 2 ^ d + i))) ∧
    hd.length = 2 ^ d ∧ ∀ i, i < 2 ^ d → Hd (hd.getD i H.one) (polar d (fun j => u (n * 2 ^ d + j)) i)

theorem T_proj {H : PH τ} {A : Arith V} {M : Nat} {R : Nat → V → Prop} {S : τ → V → Prop} {Hd : τ → Int → Prop} (N : Lane H A M R S Hd) : ∀ (d : Nat) (l : List τ) (m : List Int), (∀ x ∈ m, Sym x) →
    List.Forall₂ Hd l m → List.Forall₂ Hd (T H.qmul d l) (T PolarHelper.qmulV d m) ∧ ∀ x ∈ T PolarHelper.qmulV d m, Sym x := by
  intro d
  induction d with
  | zero => intro l m hm h; exact ⟨h, hm⟩
  | succ d ih =>
    intro l m hm h
    obtain ⟨a1, a2⟩ := ih (l.take (2 ^ d)) (m.take (2 ^ d)) (fun a ha => hm a (List.mem_of_mem_take ha)) (List.forall₂_take _ h)
    obtain ⟨b1, b2⟩ := ih (l.drop (2 ^ d)) (m.drop (2 ^ d)) (fun a ha => hm a (List.mem_of_mem_drop ha)) (List.forall₂_drop _ h)
    have key : ∀ (p q : List τ) (p' q' : List Int), (∀ a ∈ p', Sym a) → (∀ a ∈ q', Sym a) → List.Forall₂ Hd p p' → List.Forall₂ Hd q q' →
        List.Forall₂ Hd (List.zipWith H.qmul p q) (List.zipWith PolarHelper.qmulV p' q') ∧ ∀ a ∈ List.zipWith PolarHelper.qmulV p' q', Sym a := by
      intro p q p' q' hp hq h1
      induction h1 generalizing q q' with
      | nil => intro _; simp
      | @cons a x p p' ha h1 ihp =>
        intro h2
        cases h2 with
        | nil => simp
        | @cons b y q q' hb h2 =>
          obtain ⟨i1, i2⟩ := ihp q q' (fun x hx => hp x (by simp [hx])) (fun x hx => hq x (by simp [hx])) h2
          have sx := hp x (by simp)
          have sy := hq y (by simp)
          simp only [List.zipWith_cons_cons, qmulV_sym sx sy]
          refine ⟨List.Forall₂.cons (N.qmul a b x y sx sy ha hb) i1, ?_⟩
          intro z hz
          rcases List.mem_cons.1 hz with rfl | hz
          · exact sx.mul sy
          · exact i2 z hz
    obtain ⟨k1, k2⟩ := key _ _ _ _ a2 b2 a1 b1
    rw [T, T]
    refine ⟨List.rel_append k1 b1, fun a ha => ?_⟩
    rcases List.mem_append.1 ha with h | h
    · exact k2 a h
    · exact b2 a h

theorem forall2_getD {α β : Type} {P : α → β → Prop} {l : List α} {m : List β} (da : α) (db : β) (hl : l.length = m.length)
    (h : ∀ i, i < m.length → P (l.getD i da) (m.getD i db)) : List.Forall₂ P l m := by
  refine List.forall₂_iff_get.2 ⟨hl, fun i h1 h2 => ?_⟩
  have := h i h2
  rwa [← getElem_eq_getD h1, ← getElem_eq_getD h2] at this

theorem sc_exact {H : PH τ} {A : Arith V} {M : Nat} {R : Nat → V → Prop} {S : τ → V → Prop} {Hd : τ → Int → Prop} (LA : A.Laws R) (N : Lane H A M R S Hd) {σ : Nat → V} {fr : Nat → Prop}
    {u : Nat → Int} (D : Decides A M σ fr u) (hσ : ∀ i, i < 2 ^ M → R 0 (σ i)) :
    ∀ d t n, t + d = M → n < 2 ^ t → ∀ (f : List Bool) (x : Msg τ) (s : List τ), f.length = 2 ^ d → (∀ i, i < 2 ^ d → (f.getD i false = true ↔ fr (n * 2 ^ d + i))) →
      s.length = 2 ^ d → (∀ i, i < 2 ^ d → S (s.getD i H.one) (softAt A M σ u t n i)) → x.p + cnt f ≤ x.msg.length →
      NodeOk H Hd u d n f x (childF (scWalk H) (scN H) (fun M => treeF (scWalk H) (scN H) M) d f x s) ∧ (d ≠ 0 → NodeOk H Hd u d n f x (treeF (scWalk H) (scN H) d f x s)) := by
  intro d
  induction d with
  | zero =>
    intro t n hM hn f x s hf hfr hs hso hp
    refine ⟨?_, fun h => absurd rfl h⟩
    have htM : t = M := by omega
    subst htM
    obtain ⟨b, rfl⟩ : ∃ b, f = [b] := List.length_eq_one_iff.1 hf
    obtain ⟨w, rfl⟩ : ∃ w, s = [w] := List.length_eq_one_iff.1 hs
    have hfr := hfr 0 (by norm_num)
    have hso := hso 0 (by norm_num)
    simp only [pow_zero, Nat.mul_one, Nat.add_zero] at hfr
    have hpol : polar 0 (fun j => u (n * 2 ^ 0 + j)) 0 = u n := by
      have := P_prod 0 (fun j => u (n * 2 ^ 0 + j)) 0 (by norm_num); unfold polar; rw [← this]; show u (n * 2 ^ 0 + 0) = _; rw [pow_zero, Nat.mul_one, Nat.add_zero]
    unfold childF
    cases b with
    | true =>
      rw [if_pos (by simp)]
      refine ⟨[], [H.one], by simp [scN, put_nil], rfl, by simp [info], rfl, fun i hi => ?_⟩
      have : i = 0 := by simpa using hi
      subst this
      rw [hpol, D.frozen n hn (hfr.1 rfl)]
      exact N.one
    | false =>
      have hp' : x.p + 1 ≤ x.msg.length := hp
      rw [if_neg (by simp), if_pos (by simp)]
      have hnf : ¬ fr n := fun h => by simpa using hfr.2 h
      have hu : Hd (H.signum w) (u n) := by
        rw [D.free n hn hnf]
        exact N.signum w _ hso (D.ne n hn hnf)
      refine ⟨[H.signum w], [H.signum w], by simp [scN, T, hp'], rfl, by simpa [info] using hu, rfl, fun i hi => ?_⟩
      have : i = 0 := by simpa using hi
      subst this
      rw [hpol]
      exact hu
  | succ d ih =>
    intro t n hM hn f x s hf hfr hs hso hp
    have e := two_pow_succ' d
    have p1 : n * 2 ^ (d + 1) = 2 * n * 2 ^ d := by rw [pow_succ]; ring
    have p2 : n * 2 ^ (d + 1) + 2 ^ d = (2 * n + 1) * 2 ^ d := by rw [pow_succ]; ring
    have ht : M - (t + 1) = d := by omega
    have hlt : n * 2 ^ (d + 1) + 2 ^ (d + 1) ≤ 2 ^ M := by
      rw [← hM, pow_add 2 t (d + 1)]
      calc n * 2 ^ (d + 1) + 2 ^ (d + 1) = (n + 1) * 2 ^ (d + 1) := by ring
        _ ≤ _ := Nat.mul_le_mul_right _ hn
    have hpsym : ∀ d' m i, i < 2 ^ d' → Sym (polar d' (fun j => u (m + j)) i) := fun d' m i hi => polar_sym (fun j => D.sym _) hi
    have hR : ∀ i, i < 2 ^ (d + 1) → R t (softAt A M σ u t n i) := fun i hi => softAt_R LA D.sym hσ t n i (by omega) (by rw [show M - t = d + 1 by omega]; exact hi)
    have node : NodeOk H Hd u (d + 1) n f x (treeF (scWalk H) (scN H) (d + 1) f x s) := by
      have hf1 : (f.take (2 ^ d)).length = 2 ^ d := by simp [hf, e]
      have hf2 : (f.drop (2 ^ d)).length = 2 ^ d := by simp [hf, e]
      have es1 : (s.take (2 ^ d)).length = 2 ^ d := by simp [hs, e]
      have es2 : (s.drop (2 ^ d)).length = 2 ^ d := by simp [hs, e]
      have hcount := cnt_split f (2 ^ d)
      have hmap : ∀ l : List τ, l.map (fun v => (scWalk H).vshuf v ()) = l := fun l => List.map_id l
      obtain ⟨l, hd, r1, c1, i1, len1, v1⟩ := (ih (t + 1) (2 * n) (by omega) (by rw [pow_succ]; omega) (f.take (2 ^ d)) x (List.zipWith H.prod (s.take (2 ^ d)) (s.drop (2 ^ d))) hf1
        (fun i hi => by rw [getD_take_lt hi, ← p1]; exact hfr i (by omega)) (by simp [es1, es2]) (fun i hi => by
          have a1 := hso i (by omega)
          have b1 := hso (2 ^ d + i) (by omega)
          rw [getD_zipWith' (da := H.one) (db := H.one) (by omega) (by omega), getD_take_lt hi, getD_drop', softAt]
          simp only [ht]
          rw [if_pos (by omega), show 2 * n / 2 = n by omega]
          exact N.prod t _ _ _ _ (by omega) (hR i (by omega)) (hR _ (by omega)) a1 b1) (by omega)).1
      rw [← p1] at i1 v1
      obtain ⟨l', hd', r2, c2, i2, len2, v2⟩ := (ih (t + 1) (2 * n + 1) (by omega) (by rw [pow_succ]; omega) (f.drop (2 ^ d)) ⟨put x.msg x.p l, x.p + l.length⟩
        (zip3 H.madd hd (s.take (2 ^ d)) (s.drop (2 ^ d))) hf2
        (fun i hi => by rw [getD_drop', ← p2, Nat.add_assoc]; exact hfr _ (by omega)) (by rw [zip3_length, len1, es1, es2]; simp) (fun i hi => by
          have a1 := hso i (by omega)
          have b1 := hso (2 ^ d + i) (by omega)
          unfold zip3
          rw [getD_zipWith' (da := (H.one, H.one)) (db := H.one) (by rw [List.length_zip, len1, es1]; omega) (by omega)]
          have : (hd.zip (s.take (2 ^ d))).getD i (H.one, H.one) = (hd.getD i H.one, s.getD i H.one) := by
            rw [← getElem_eq_getD (by rw [List.length_zip, len1, es1]; omega), List.getElem_zip, getElem_eq_getD _ H.one, getElem_eq_getD _ H.one, getD_take_lt hi]
          rw [this, getD_drop', softAt]
          simp only [ht]
          rw [if_neg (by omega), show (2 * n + 1) / 2 = n by omega, show 2 * n + 1 - 1 = 2 * n by omega, ← p1]
          exact N.madd t _ _ _ _ _ _ (by omega) (hpsym d _ i hi) (hR i (by omega)) (hR _ (by omega)) (v1 i hi) a1 b1) (by dsimp only; rw [put_length (by omega)]; omega)).1
      rw [← p2] at i2 v2
      refine ⟨l ++ l', List.zipWith H.qmul hd hd' ++ hd', ?_, by rw [List.length_append]; omega, ?_, by simp [len1, len2, e], fun i hi => ?_⟩
      · rw [treeF]
        have e1 : childF (scWalk H) (scN H) (fun _ => treeF (scWalk H) (scN H) d) d (f.take (2 ^ d)) x
            (List.zipWith (scWalk H).prod (s.take (2 ^ d)) (s.drop (2 ^ d))) = some (⟨put x.msg x.p l, x.p + l.length⟩, hd, ()) := r1
        rw [e1, sb]
        dsimp only
        rw [hmap, hmap]
        have e2 : childF (scWalk H) (scN H) (fun _ => treeF (scWalk H) (scN H) d) d (f.drop (2 ^ d)) ⟨put x.msg x.p l, x.p + l.length⟩
            (zip3 (scWalk H).madd hd (s.take (2 ^ d)) (s.drop (2 ^ d))) = _ := r2
        rw [e2, sb]
        dsimp only
        rw [hmap, put_put (by omega), List.length_append, add_assoc]
        rfl
      · have hr : (List.range (2 ^ (d + 1))).map (fun i => u (n * 2 ^ (d + 1) + i)) =
            (List.range (2 ^ d)).map (fun i => u (n * 2 ^ (d + 1) + i)) ++ (List.range (2 ^ d)).map (fun i => u (n * 2 ^ (d + 1) + 2 ^ d + i)) := by
          generalize n * 2 ^ (d + 1) = m
          rw [e, List.range_add, List.map_append, List.map_map]
          congr 1
          refine List.map_congr_left fun i _ => ?_
          show u (m + (2 ^ d + i)) = u (m + 2 ^ d + i)
          rw [Nat.add_assoc]
        have := List.rel_append i1 i2
        dsimp only at this
        rwa [← info_append (by rw [hf1]; simp), List.take_append_drop, ← hr] at this
      · by_cases h : i < 2 ^ d
        · rw [List.getD_append _ _ _ _ (by rw [List.length_zipWith, len1, len2]; omega), getD_zipWith' (da := H.one) (db := H.one) (by omega) (by omega), polar_low h]
          have := N.qmul _ _ _ _ (hpsym d _ i h) (hpsym d _ i h) (v1 i h) (v2 i h)
          simpa only [Nat.add_assoc] using this
        · obtain ⟨j, rfl⟩ : ∃ j, i = 2 ^ d + j := ⟨i - 2 ^ d, by omega⟩
          have hj : j < 2 ^ d := by omega
          rw [List.getD_append_right _ _ _ _ (by simp [len1, len2]), show (List.zipWith H.qmul hd hd').length = 2 ^ d by simp [len1, len2], Nat.add_sub_cancel_left, polar_high hj]
          simpa only [Nat.add_assoc] using v2 j hj
    refine ⟨?_, fun _ => node⟩
    unfold childF
    by_cases c0 : d + 1 ≤ 5 ∧ f.all (fun b => b) = true
    · rw [if_pos c0]
      have hz : ∀ i, i < 2 ^ (d + 1) → fr (n * 2 ^ (d + 1) + i) := fun i hi => by
        rw [← hfr i hi, ← getElem_eq_getD (by omega)]
        exact List.all_eq_true.1 c0.2 _ (List.getElem_mem _)
      have hu1 : ∀ i, i < 2 ^ (d + 1) → u (n * 2 ^ (d + 1) + i) = 1 := fun i hi => D.frozen _ (by omega) (hz i hi)
      refine ⟨[], List.replicate (2 ^ (d + 1)) H.one, by simp [scN, put_nil], (cnt_all c0.2).symm, by rw [info_all_true _ c0.2]; exact List.Forall₂.nil, by simp, fun i hi => ?_⟩
      rw [getD_replicate' _ _ _ hi]
      unfold polar
      rw [Finset.prod_eq_one fun j hj => hu1 j (by simpa using (Finset.mem_filter.1 hj).1)]
      exact N.one
    rw [if_neg c0]
    by_cases c1 : (d + 1 = 0 ∨ d + 1 ≤ 5 ∧ (scWalk H).sc1 = true) ∧ f.all (fun b => !b) = true
    · rw [if_pos c1]
      have hff : ∀ i, i < 2 ^ (d + 1) → f.getD i false = false := fun i hi => by
        rw [← getElem_eq_getD (by omega)]
        simpa using List.all_eq_true.1 c1.2 _ (List.getElem_mem (by omega))
      have hfree : ∀ i, i < 2 ^ (d + 1) → ¬ fr (n * 2 ^ (d + 1) + i) := fun i hi h => by
        have := (hfr i hi).2 h
        rw [hff i hi] at this
        cases this
      have hB := rate1_block LA D hσ (d + 1) t n hM hn hfree
      have hcnt : cnt f = 2 ^ (d + 1) := by
        unfold cnt
        rw [List.filter_eq_self.2 fun b hb => List.all_eq_true.1 c1.2 b hb, hf]
      have hsl : (s.map H.signum).length = 2 ^ (d + 1) := by simp [hs]
      have hv : ∀ i, i < 2 ^ (d + 1) → Hd ((s.map H.signum).getD i H.one) (polar (d + 1) (fun j => u (n * 2 ^ (d + 1) + j)) i) := fun i hi => by
        rw [getD_map' _ _ H.one H.one (by omega), ← (hB i hi).2]
        exact N.signum _ _ (hso i hi) (hB i hi).1
      set m := (List.range (2 ^ (d + 1))).map (polar (d + 1) (fun j => u (n * 2 ^ (d + 1) + j))) with hm
      have hml : m.length = 2 ^ (d + 1) := by simp [hm]
      have hms : ∀ x ∈ m, Sym x := fun x hx => by
        obtain ⟨i, hi, rfl⟩ := List.mem_map.1 hx
        exact hpsym _ _ i (List.mem_range.1 hi)
      obtain ⟨T1, -⟩ := T_proj N (d + 1) _ m hms (forall2_getD H.one 1 (by rw [hsl, hml]) fun i hi => by
        rw [hml] at hi
        rw [hm, getD_range_map _ _ hi]
        exact hv i hi)
      have Tl := T_length H.qmul (d + 1) _ hsl
      refine ⟨T H.qmul (d + 1) (s.map H.signum), s.map H.signum, ?_, by rw [Tl, hcnt], ?_, hsl, hv⟩
      · simp only [scN]
        rw [if_pos (by omega), Tl]
      · rw [info_range_true hf hff]
        have : T PolarHelper.qmulV (d + 1) m = (List.range (2 ^ (d + 1))).map fun i => u (n * 2 ^ (d + 1) + i) := by
          refine ext_getD 1 (by rw [T_length _ _ _ hml]; simp) fun i hi => ?_
          rw [T_length _ _ _ hml] at hi
          rw [T_polar hml hms (u := polar (d + 1) (fun j => u (n * 2 ^ (d + 1) + j)))
            (fun i hi => by rw [hm, getD_range_map _ _ hi]) hi, getD_range_map _ _ hi]
          have h1 := P_invol (d + 1) (fun j => u (n * 2 ^ (d + 1) + j)) (fun j => (D.sym _).sq) i hi
          rw [P_prod _ _ i hi] at h1
          rw [← h1]
          unfold polar
          refine Finset.prod_congr rfl fun j hj => ?_
          rw [P_prod _ _ j (by simpa using (Finset.mem_filter.1 hj).1)]
        rwa [this] at T1
    · rw [if_neg c1]
      exact node

end Verif.Polar
