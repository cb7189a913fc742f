import Verif.Polar.PropsSc
/- The SC decoder on soft values some of which are erased (0). -/
namespace Verif.Polar
open PolarHelper (t8 I8 sgn)
open Verif.RS (sb)
open Verif (Ok)
variable {τ : Type}

/-- What the arithmetic does with erased values: `Er` says that a soft value is erased, `Z` that a decision was made on one. -/
structure ELaws (H : PH τ) (Hard : τ → Prop) (Sg : τ → τ → Prop) (Er Z : τ → Prop) : Prop extends Laws H Hard Sg where
  prod_l : ∀ a b y, Er a → Er b ∨ Sg b y → Er (H.prod a b)
  prod_r : ∀ a b y, Er b → Er a ∨ Sg a y → Er (H.prod a b)
  madd_l : ∀ a b x y, Hard x → Hard y → Er a → Sg b y → Sg (H.madd x a b) y
  madd_r : ∀ a b x y, Hard x → Hard y → Sg a (H.qmul x y) → Er b → Sg (H.madd x a b) y
  madd_e : ∀ a b x, Hard x → Er a → Er b → Er (H.madd x a b)
  signum_e : ∀ s, Er s → Z (H.signum s)
  z_l : ∀ a b, Z a → Z b ∨ Hard b → Z (H.qmul a b)
  z_r : ∀ a b, Z b → Z a ∨ Hard a → Z (H.qmul a b)
  z_not : ∀ a, Z a → ¬ Hard a

/-- An erased or right soft value. -/
def RelE (Sg : τ → τ → Prop) (Er : τ → Prop) (e : Bool) (s x : τ) : Prop := if e then Er s else Sg s x

/-- Which positions cannot be decided: from the flags of the erased symbols of a codeword of length `2 ^ M`, branch by branch. -/
def lostL : Nat → List Bool → List Bool
  | 0, e => e
  | M + 1, e => lostL M (List.zipWith (· || ·) (e.take (2 ^ M)) (e.drop (2 ^ M))) ++ lostL M (List.zipWith (· && ·) (e.take (2 ^ M)) (e.drop (2 ^ M)))

/-- Some position that is not frozen is lost. -/
def badL (f g : List Bool) : Bool := (List.zipWith (fun a b => !a && b) f g).any id

theorem lostL_length : ∀ (M : Nat) (e : List Bool), e.length = 2 ^ M → (lostL M e).length = 2 ^ M := by
  intro M
  induction M with
  | zero => intro e h; exact h
  | succ M ih =>
    intro e h
    have e' := two_pow_succ' M
    rw [lostL, List.length_append, ih _ (by simp [h, e']), ih _ (by simp [h, e']), ← e']

theorem badL_append {f g1 g2 : List Bool} {n : Nat} (h : g1.length = n) (hn : n ≤ f.length) : badL f (g1 ++ g2) = (badL (f.take n) g1 || badL (f.drop n) g2) := by
  unfold badL
  conv_lhs => rw [← List.take_append_drop n f]
  rw [List.zipWith_append (by simp [h, hn]), List.any_append]

theorem badL_frozen {f g : List Bool} (h : f.all (fun b => b) = true) : badL f g = false := by
  unfold badL
  rw [List.any_eq_false]
  intro x hx
  obtain ⟨i, hi, rfl⟩ := List.mem_iff_getElem.1 hx
  rw [List.getElem_zipWith]
  have := List.all_eq_true.1 h _ (List.getElem_mem (l := f) (n := i) (by simp at hi; omega))
  simp [this]

theorem badL_free : ∀ {f g : List Bool}, f.length = g.length → f.all (fun b => !b) = true → badL f g = g.any id := by
  intro f
  induction f with
  | nil => intro g h _; cases g with | nil => rfl | cons _ _ => simp at h
  | cons b f ih =>
    intro g h ha
    cases g with
    | nil => simp at h
    | cons c g =>
      rw [List.all_cons, Bool.and_eq_true] at ha
      have := ih (by simpa using h) ha.2
      unfold badL at this ⊢
      rw [List.zipWith_cons_cons, List.any_cons, List.any_cons, this, ha.1]
      rfl

/-- Something is lost exactly if something is erased. -/
theorem lostL_any : ∀ (M : Nat) (e : List Bool), e.length = 2 ^ M → (lostL M e).any id = e.any id := by
  intro M
  induction M with
  | zero => intro e _; rfl
  | succ M ih =>
    intro e h
    have e' := two_pow_succ' M
    have a1 : (e.take (2 ^ M)).length = 2 ^ M := by simp [h, e']
    have a2 : (e.drop (2 ^ M)).length = 2 ^ M := by simp [h, e']
    rw [lostL, List.any_append, ih _ (by simp [a1, a2]), ih _ (by simp [a1, a2])]
    conv_rhs => rw [← List.take_append_drop (2 ^ M) e, List.any_append]
    generalize e.take (2 ^ M) = a at *
    generalize e.drop (2 ^ M) = b at *
    have hl : a.length = b.length := by omega
    clear a1 a2 ih h e'
    induction a generalizing b with
    | nil => cases b with | nil => rfl | cons _ _ => simp at hl
    | cons x a ih =>
      cases b with
      | nil => simp at hl
      | cons y b =>
        have := ih b (by simpa using hl)
        simp only [List.zipWith_cons_cons, List.any_cons, id_eq] at this ⊢
        generalize (List.zipWith (· || ·) a b).any id = p at *
        generalize (List.zipWith (· && ·) a b).any id = q at *
        generalize a.any id = r at *
        generalize b.any id = t at *
        clear ih hl
        revert this
        revert p q r t x y
        decide

section
variable {H : PH τ} {Hard : τ → Prop} {Sg : τ → τ → Prop} {Er Z : τ → Prop}

theorem T_z (L : ELaws H Hard Sg Er Z) : ∀ (M : Nat) (l : List τ), l.length = 2 ^ M → (∀ x ∈ l, Z x ∨ Hard x) →
    (∀ x ∈ T H.qmul M l, Z x ∨ Hard x) ∧ ((∃ x ∈ l, Z x) → Z ((T H.qmul M l).getD 0 H.one)) := by
  intro M
  induction M with
  | zero =>
    intro l hl h
    obtain ⟨a, rfl⟩ := List.length_eq_one_iff.1 hl
    exact ⟨h, by rintro ⟨x, hx, hz⟩; rw [List.mem_singleton] at hx; subst hx; exact hz⟩
  | succ M ih =>
    intro l hl h
    have e := two_pow_succ' M
    have h0 : 0 < 2 ^ M := Nat.two_pow_pos M
    have a1 : (l.take (2 ^ M)).length = 2 ^ M := by simp [hl, e]
    have a2 : (l.drop (2 ^ M)).length = 2 ^ M := by simp [hl, e]
    obtain ⟨i1, i2⟩ := ih _ a1 fun x hx => h x (List.mem_of_mem_take hx)
    obtain ⟨j1, j2⟩ := ih _ a2 fun x hx => h x (List.mem_of_mem_drop hx)
    have t1 := T_length H.qmul M _ a1
    have t2 := T_length H.qmul M _ a2
    have hq : ∀ a b, Z a ∨ Hard a → Z b ∨ Hard b → Z (H.qmul a b) ∨ Hard (H.qmul a b) := by
      rintro a b (ha | ha) hb
      · exact .inl (L.z_l a b ha hb)
      · rcases hb with hb | hb
        · exact .inl (L.z_r a b hb (.inr ha))
        · exact .inr (L.q_hard a b ha hb)
    refine ⟨fun x hx => ?_, ?_⟩
    · rw [T, List.mem_append] at hx
      rcases hx with hx | hx
      · obtain ⟨i, hi, rfl⟩ := List.mem_iff_getElem.1 hx
        rw [List.getElem_zipWith]
        exact hq _ _ (i1 _ (List.getElem_mem _)) (j1 _ (List.getElem_mem _))
      · exact j1 x hx
    · rintro ⟨x, hx, hz⟩
      rw [T, List.getD_append _ _ _ _ (by simp [t1, t2]), getD_zipWith' (da := H.one) (db := H.one) (by omega) (by omega)]
      have m1 : Z ((T H.qmul M (l.take (2 ^ M))).getD 0 H.one) ∨ Hard ((T H.qmul M (l.take (2 ^ M))).getD 0 H.one) := by
        rw [← getElem_eq_getD (by omega)]; exact i1 _ (List.getElem_mem _)
      have m2 : Z ((T H.qmul M (l.drop (2 ^ M))).getD 0 H.one) ∨ Hard ((T H.qmul M (l.drop (2 ^ M))).getD 0 H.one) := by
        rw [← getElem_eq_getD (by omega)]; exact j1 _ (List.getElem_mem _)
      rw [← List.take_append_drop (2 ^ M) l, List.mem_append] at hx
      rcases hx with hx | hx
      · exact L.z_l _ _ (i2 ⟨x, hx, hz⟩) m2
      · exact L.z_r _ _ (j2 ⟨x, hx, hz⟩) m1

/-- What is shown of a node: if nothing needed is lost, it is decoded; otherwise the decision on an erased value is written. -/
def Outcome (H : PH τ) (Z : τ → Prop) (M : Nat) (f : List Bool) (x : Msg τ) (u : List τ) (e : List Bool) (r : Msg τ × List τ × Unit) : Prop :=
  r.2.1.length = 2 ^ M ∧ r.1.p = x.p + (info f u).length ∧ ∃ l, l.length = (info f u).length ∧ r.1.msg = put x.msg x.p l ∧
    (badL f (lostL M e) = true → ∃ z ∈ l, Z z) ∧ (badL f (lostL M e) = false → l = info f u ∧ r.2.1 = T H.qmul M u)

theorem erase_node (L : ELaws H Hard Sg Er Z) (M : Nat)
    (ih : ∀ (f : List Bool) (x : Msg τ) (s u : List τ) (e : List Bool),
      f.length = 2 ^ M → Obeys H.one f u → (∀ z ∈ u, Hard z) → e.length = 2 ^ M → s.length = 2 ^ M →
      (∀ i, i < 2 ^ M → RelE Sg Er (e.getD i false) (s.getD i H.one) ((T H.qmul M u).getD i H.one)) → x.p + (info f u).length ≤ x.msg.length →
      Ok (childF (scWalk H) (scN H) (fun M => treeF (scWalk H) (scN H) M) M f x s) (Outcome H Z M f x u e))
    (f : List Bool) (x : Msg τ) (s u : List τ) (e : List Bool) (hf : f.length = 2 ^ (M + 1)) (ho : Obeys H.one f u)
    (hh : ∀ z ∈ u, Hard z) (he : e.length = 2 ^ (M + 1)) (hs : s.length = 2 ^ (M + 1))
    (ha : ∀ i, i < 2 ^ (M + 1) → RelE Sg Er (e.getD i false) (s.getD i H.one) ((T H.qmul (M + 1) u).getD i H.one)) (hp : x.p + (info f u).length ≤ x.msg.length) :
    Ok (treeF (scWalk H) (scN H) (M + 1) f x s) (Outcome H Z (M + 1) f x u e) := by
  have e' := two_pow_succ' M
  have hu : u.length = 2 ^ (M + 1) := by rw [← ho.1, hf]
  set u1 := u.take (2 ^ M) with hu1
  set u2 := u.drop (2 ^ M) with hu2
  have l1 : u1.length = 2 ^ M := by simp [hu1, hu, e']
  have l2 : u2.length = 2 ^ M := by simp [hu2, hu, e']
  have hh1 : ∀ z ∈ u1, Hard z := fun z hz => hh z (List.mem_of_mem_take hz)
  have hh2 : ∀ z ∈ u2, Hard z := fun z hz => hh z (List.mem_of_mem_drop hz)
  have t1 := T_length H.qmul M u1 l1
  have t2 := T_length H.qmul M u2 l2
  have tz : (List.zipWith H.qmul (T H.qmul M u1) (T H.qmul M u2)).length = 2 ^ M := by simp [t1, t2]
  have hT : T H.qmul (M + 1) u = List.zipWith H.qmul (T H.qmul M u1) (T H.qmul M u2) ++ T H.qmul M u2 := rfl
  have hd1 : ∀ i, i < 2 ^ M → Hard ((T H.qmul M u1).getD i H.one) := fun i hi => by
    rw [← getElem_eq_getD (by omega)]; exact T_hard L.toLaws M u1 hh1 _ (List.getElem_mem _)
  have hd2 : ∀ i, i < 2 ^ M → Hard ((T H.qmul M u2).getD i H.one) := fun i hi => by
    rw [← getElem_eq_getD (by omega)]; exact T_hard L.toLaws M u2 hh2 _ (List.getElem_mem _)
  have sa : ∀ i, i < 2 ^ M → RelE Sg Er (e.getD i false) (s.getD i H.one) (H.qmul ((T H.qmul M u1).getD i H.one) ((T H.qmul M u2).getD i H.one)) := by
    intro i hi
    have := ha i (by omega)
    rwa [hT, List.getD_append _ _ _ _ (by omega), getD_zipWith' (da := H.one) (db := H.one) (by omega) (by omega)] at this
  have sb' : ∀ i, i < 2 ^ M → RelE Sg Er (e.getD (2 ^ M + i) false) (s.getD (2 ^ M + i) H.one) ((T H.qmul M u2).getD i H.one) := by
    intro i hi
    have := ha (2 ^ M + i) (by omega)
    rwa [hT, List.getD_append_right _ _ _ _ (by omega), tz, Nat.add_sub_cancel_left] at this
  have hinfo := info_split (2 ^ M) ho.1
  rw [← hu1, ← hu2] at hinfo
  have hf1 : (f.take (2 ^ M)).length = 2 ^ M := by simp [hf, e']
  have hf2 : (f.drop (2 ^ M)).length = 2 ^ M := by simp [hf, e']
  have es1 : (s.take (2 ^ M)).length = 2 ^ M := by simp [hs, e']
  have es2 : (s.drop (2 ^ M)).length = 2 ^ M := by simp [hs, e']
  have ee1 : (e.take (2 ^ M)).length = 2 ^ M := by simp [he, e']
  have ee2 : (e.drop (2 ^ M)).length = 2 ^ M := by simp [he, e']
  have hbad : badL f (lostL (M + 1) e) = (badL (f.take (2 ^ M)) (lostL M (List.zipWith (· || ·) (e.take (2 ^ M)) (e.drop (2 ^ M)))) ||
      badL (f.drop (2 ^ M)) (lostL M (List.zipWith (· && ·) (e.take (2 ^ M)) (e.drop (2 ^ M))))) := by
    rw [lostL, badL_append (lostL_length M _ (by simp [ee1, ee2])) (by omega)]
  unfold Outcome
  rw [hbad, hinfo]
  rw [hinfo, List.length_append] at hp
  rw [treeF]
  refine Ok.bind' (ih (f.take (2 ^ M)) x (List.zipWith H.prod (s.take (2 ^ M)) (s.drop (2 ^ M))) u1 (List.zipWith (· || ·) (e.take (2 ^ M)) (e.drop (2 ^ M))) hf1 (ho.take _) hh1
    (by simp [ee1, ee2]) (by simp [es1, es2]) (fun i hi => ?_) (by omega)) ?_
  · rw [getD_zipWith' (da := H.one) (db := H.one) (by omega) (by omega), getD_zipWith' (da := false) (db := false) (by omega) (by omega), getD_take_lt hi, getD_take_lt hi, getD_drop', getD_drop']
    have p1 := sa i hi
    have p2 := sb' i hi
    unfold RelE at p1 p2 ⊢
    cases q1 : e.getD i false <;> cases q2 : e.getD (2 ^ M + i) false <;> rw [q1] at p1 <;> rw [q2] at p2 <;>
      simp only [Bool.false_eq_true, if_false, if_true, Bool.or_false, Bool.or_true] at p1 p2 ⊢
    · exact L.prod _ _ _ _ (hd1 i hi) (hd2 i hi) p1 p2
    · exact L.prod_r _ _ _ p2 (.inr p1)
    · exact L.prod_l _ _ _ p1 (.inr p2)
    · exact L.prod_l _ _ H.one p1 (.inl p2)
  rintro ⟨⟨ml, pl⟩, hl, ⟨⟩⟩ ⟨a1, a2, la, a3, a4, a5, a6⟩
  dsimp only at a1 a2 a4 a6
  subst a2 a4
  have hmap : ∀ l : List τ, l.map (fun v => (scWalk H).vshuf v ()) = l := fun l => List.map_id l
  dsimp only
  rw [hmap, hmap]
  by_cases hb1 : badL (f.take (2 ^ M)) (lostL M (List.zipWith (· || ·) (e.take (2 ^ M)) (e.drop (2 ^ M)))) = true
  · -- the first half is wrong; the second half does something
    refine Ok.bind' (sc_total H M (f.drop (2 ^ M)) _ _ hf2 ?_ ?_) ?_
    · rw [zip3_length, es1, es2, a1]; simp
    · dsimp only
      rw [put_length (by omega)]
      rw [info_length (u := u2) (by omega)] at hp
      omega
    · rintro ⟨⟨ml', pl'⟩, hl', ⟨⟩⟩ ⟨b1, b2, lb, b3, b4⟩
      dsimp only at b1 b2 b4
      have hi2 := info_length (f := f.drop (2 ^ M)) (u := u2) (by omega)
      refine Ok.some ⟨by simp [a1, b2, e'], by simp only [List.length_append]; omega, la ++ lb, by simp [a3, b3, hi2], ?_, fun _ => ?_, fun hc => ?_⟩
      · dsimp only
        rw [b4, ← a3, put_put (by omega)]
      · obtain ⟨z, hz, hZ⟩ := a5 hb1
        exact ⟨z, List.mem_append_left _ hz, hZ⟩
      · rw [hb1] at hc; simp at hc
  · rw [Bool.not_eq_true] at hb1
    obtain ⟨c1, c2⟩ := a6 hb1
    subst c1
    rw [c2]
    refine Ok.bind' (ih (f.drop (2 ^ M)) _ (zip3 H.madd (T H.qmul M u1) (s.take (2 ^ M)) (s.drop (2 ^ M))) u2 (List.zipWith (· && ·) (e.take (2 ^ M)) (e.drop (2 ^ M))) hf2 (ho.drop _) hh2
      (by simp [ee1, ee2]) (by simp [zip3_length, es1, es2, t1]) (fun i hi => ?_) (by dsimp only; rw [put_length (by omega)]; omega)) ?_
    · unfold zip3
      rw [getD_zipWith' (da := (H.one, H.one)) (db := H.one) (by simp [t1, es1]; omega) (by omega), getD_zipWith' (da := false) (db := false) (by omega) (by omega)]
      have : ((T H.qmul M u1).zip (s.take (2 ^ M))).getD i (H.one, H.one) = ((T H.qmul M u1).getD i H.one, s.getD i H.one) := by
        rw [← getElem_eq_getD (by simp [t1, es1]; omega), List.getElem_zip, getElem_eq_getD _ H.one, getElem_eq_getD _ H.one, getD_take_lt hi]
      rw [this, getD_drop', getD_drop', getD_take_lt hi]
      have p1 := sa i hi
      have p2 := sb' i hi
      unfold RelE at p1 p2 ⊢
      cases q1 : e.getD i false <;> cases q2 : e.getD (2 ^ M + i) false <;> rw [q1] at p1 <;> rw [q2] at p2 <;>
        simp only [Bool.false_eq_true, if_false, if_true, Bool.and_false, Bool.and_true, Bool.false_and] at p1 p2 ⊢
      · exact L.madd _ _ _ _ (hd1 i hi) (hd2 i hi) p1 p2
      · exact L.madd_r _ _ _ _ (hd1 i hi) (hd2 i hi) p1 p2
      · exact L.madd_l _ _ _ _ (hd1 i hi) (hd2 i hi) p1 p2
      · exact L.madd_e _ _ _ (hd1 i hi) p1 p2
    · rintro ⟨⟨ml', pl'⟩, hl', ⟨⟩⟩ ⟨b1, b2, lb, b3, b4, b5, b6⟩
      dsimp only at b1 b2 b4 b6
      refine Ok.some ⟨by simp [t1, b1, e'], by simp only [List.length_append]; omega, info (f.take (2 ^ M)) u1 ++ lb, by simp [b3], ?_, fun hc => ?_, fun hc => ?_⟩
      · dsimp only
        rw [b4, put_put (by omega)]
      · rw [hb1, Bool.false_or] at hc
        obtain ⟨z, hz, hZ⟩ := b5 hc
        exact ⟨z, List.mem_append_right _ hz, hZ⟩
      · rw [hb1, Bool.false_or] at hc
        obtain ⟨d1, d2⟩ := b6 hc
        dsimp only
        rw [d1, d2, hmap]
        exact ⟨rfl, rfl⟩

theorem erase_child (L : ELaws H Hard Sg Er Z) : ∀ (M : Nat) (f : List Bool) (x : Msg τ) (s u : List τ) (e : List Bool),
      f.length = 2 ^ M → Obeys H.one f u → (∀ z ∈ u, Hard z) → e.length = 2 ^ M → s.length = 2 ^ M →
      (∀ i, i < 2 ^ M → RelE Sg Er (e.getD i false) (s.getD i H.one) ((T H.qmul M u).getD i H.one)) → x.p + (info f u).length ≤ x.msg.length →
      Ok (childF (scWalk H) (scN H) (fun M => treeF (scWalk H) (scN H) M) M f x s) (Outcome H Z M f x u e) := by
  intro M
  -- what a block without frozen positions does
  have rate1 : ∀ (M : Nat) (f : List Bool) (x : Msg τ) (s u : List τ) (e : List Bool),
      f.length = 2 ^ M → Obeys H.one f u → (∀ z ∈ u, Hard z) → e.length = 2 ^ M → s.length = 2 ^ M →
      (∀ i, i < 2 ^ M → RelE Sg Er (e.getD i false) (s.getD i H.one) ((T H.qmul M u).getD i H.one)) → x.p + (info f u).length ≤ x.msg.length →
      f.all (fun b => !b) = true → Ok ((scN H).r1 M x s) (Outcome H Z M f x u e) := by
    intro M f x s u e hf ho hh he hs ha hp hfree
    have hu : u.length = 2 ^ M := by rw [← ho.1, hf]
    have hi := info_all_false ho.1 hfree
    have tu := T_length H.qmul M u hu
    unfold Outcome
    rw [hi] at hp ⊢
    rw [hu] at hp ⊢
    simp only [scN]
    rw [if_pos hp]
    have hsl : (s.map H.signum).length = 2 ^ M := by simpa using hs
    rw [badL_free (by rw [lostL_length M e he, hf]) hfree, lostL_any M e he]
    refine Ok.some ⟨hsl, rfl, T H.qmul M (s.map H.signum), T_length _ _ _ hsl, rfl, fun hany => ?_, fun hnone => ?_⟩
    · -- something is erased
      have hall : ∀ z ∈ s.map H.signum, Z z ∨ Hard z := by
        intro z hz
        obtain ⟨i, hi, rfl⟩ := List.mem_iff_getElem.1 hz
        rw [List.getElem_map]
        have hi' : i < 2 ^ M := by rw [hsl] at hi; exact hi
        have := ha i hi'
        rw [getElem_eq_getD (a := s) _ H.one]
        unfold RelE at this
        split at this
        · exact .inl (L.signum_e _ this)
        · rw [L.signum _ _ this, ← getElem_eq_getD (by omega)]
          exact .inr (T_hard L.toLaws M u hh _ (List.getElem_mem _))
      have hex : ∃ z ∈ s.map H.signum, Z z := by
        rw [List.any_eq_true] at hany
        obtain ⟨b, hb, hb'⟩ := hany
        obtain ⟨i, hi, rfl⟩ := List.mem_iff_getElem.1 hb
        have := ha i (by omega)
        rw [← getElem_eq_getD hi] at this
        unfold RelE at this
        rw [if_pos (by simpa using hb')] at this
        refine ⟨H.signum (s.getD i H.one), List.mem_map.2 ⟨_, ?_, rfl⟩, L.signum_e _ this⟩
        rw [← getElem_eq_getD (by omega)]
        exact List.getElem_mem _
      have hz := (T_z L M _ hsl hall).2 hex
      rw [← getElem_eq_getD (by rw [T_length _ _ _ hsl]; exact Nat.two_pow_pos M)] at hz
      exact ⟨_, List.getElem_mem _, hz⟩
    · have hsg : s.map H.signum = T H.qmul M u := by
        refine ext_getD H.one (by rw [hsl, tu]) fun i hi => ?_
        rw [hsl] at hi
        rw [getD_map' _ _ H.one H.one (by omega)]
        have := ha i hi
        have hef : e.getD i false = false := by
          rw [← getElem_eq_getD (by omega)]
          have := List.any_eq_false.1 hnone _ (List.getElem_mem (l := e) (n := i) (by omega))
          simpa using this
        unfold RelE at this
        rw [hef] at this
        exact L.signum _ _ this
      dsimp only
      rw [hsg, L.toLaws.invol _ _ hu hh]
      exact ⟨rfl, rfl⟩
  have rate0 : ∀ (M : Nat) (f : List Bool) (x : Msg τ) (s u : List τ) (e : List Bool), f.length = 2 ^ M → Obeys H.one f u → s.length = 2 ^ M →
      f.all (fun b => b) = true → Ok ((scN H).r0 M x s) (Outcome H Z M f x u e) := by
    intro M f x s u e hf ho hs hfr
    have hu : u.length = 2 ^ M := by rw [← ho.1, hf]
    unfold Outcome
    rw [info_all_true u hfr, badL_frozen hfr]
    refine Ok.some ⟨by simp, rfl, [], rfl, (put_nil _ _).symm, by simp, fun _ => ⟨rfl, ?_⟩⟩
    rw [ho.all hfr, hu, L.toLaws.T_one]
  induction M with
  | zero =>
    intro f x s u e hf ho hh he hs ha hp
    obtain ⟨b, hb⟩ : ∃ b, f = [b] := List.length_eq_one_iff.1 hf
    unfold childF
    cases b with
    | true =>
      rw [if_pos (by simp [hb])]
      exact rate0 0 f x s u e hf ho hs (by simp [hb])
    | false =>
      rw [if_neg (by simp [hb]), if_pos (by simp [hb])]
      exact rate1 0 f x s u e hf ho hh he hs ha hp (by simp [hb])
  | succ M ih =>
    intro f x s u e hf ho hh he hs ha hp
    unfold childF
    by_cases c0 : M + 1 ≤ 5 ∧ f.all (fun b => b) = true
    · rw [if_pos c0]
      exact rate0 _ f x s u e hf ho hs c0.2
    rw [if_neg c0]
    by_cases c1 : (M + 1 = 0 ∨ M + 1 ≤ 5 ∧ (scWalk H).sc1 = true) ∧ f.all (fun b => !b) = true
    · rw [if_pos c1]
      exact rate1 _ f x s u e hf ho hh he hs ha hp c1.2
    rw [if_neg c1]
    exact erase_node L M ih f x s u e hf ho hh he hs ha hp
end

end Verif.Polar
