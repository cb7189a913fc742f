import Verif.Polar.Sc
/- The successive cancellation decoder on a received word and on the same word with a codeword
applied to it.  Used by C82. -/
namespace Verif.Polar
open Verif.RS (sb)
variable {τ : Type}

/-- What the decoder needs to know: `Hard x`: `x` is a symbol; `S x a a'`: `a'` is the soft value `a` with the symbol `x` applied;
`D x a a'`: the same for decisions. -/
structure ShiftLaws (H : PH τ) (Hard : τ → Prop) (S D : τ → τ → τ → Prop) : Prop where
  one : Hard H.one
  q_hard : ∀ x y, Hard x → Hard y → Hard (H.qmul x y)
  prod : ∀ x y a a' b b', Hard x → Hard y → S (H.qmul x y) a a' → S y b b' → S x (H.prod a b) (H.prod a' b')
  madd : ∀ x y h h' a a' b b', Hard x → Hard y → D x h h' → S (H.qmul x y) a a' → S y b b' → S y (H.madd h a b) (H.madd h' a' b')
  signum : ∀ x s s', Hard x → S x s s' → D x (H.signum s) (H.signum s')
  qmul : ∀ x y a a' b b', Hard x → Hard y → D x a a' → D y b b' → D (H.qmul x y) (H.qmul a b) (H.qmul a' b')
  done : D H.one H.one H.one
  medial : ∀ x y z w, Hard x → Hard y → Hard z → Hard w → H.qmul (H.qmul x y) (H.qmul z w) = H.qmul (H.qmul x z) (H.qmul y w)
  cancel : ∀ x y, Hard x → Hard y → H.qmul (H.qmul x y) y = x
  one_one : H.qmul H.one H.one = H.one

theorem ShiftLaws.laws {H : PH τ} {Hard : τ → Prop} {S D : τ → τ → τ → Prop} (L : ShiftLaws H Hard S D) : Laws H Hard (fun _ _ => False) where
  one := L.one
  q_hard := L.q_hard
  signum _ _ h := h.elim
  prod _ _ _ _ _ _ h := h.elim
  madd _ _ _ _ _ _ h := h.elim
  medial := L.medial
  cancel := L.cancel
  one_one := L.one_one

/-- Position by position. -/
def All3 (d : τ) (R : τ → τ → τ → Prop) (a b c : List τ) : Prop :=
  b.length = a.length ∧ c.length = a.length ∧ ∀ i, i < a.length → R (a.getD i d) (b.getD i d) (c.getD i d)

theorem All3.append {d : τ} {R : τ → τ → τ → Prop} {a b c a' b' c' : List τ} (h : All3 d R a b c) (h' : All3 d R a' b' c') :
    All3 d R (a ++ a') (b ++ b') (c ++ c') := by
  obtain ⟨h1, h2, h3⟩ := h
  obtain ⟨k1, k2, k3⟩ := h'
  refine ⟨by simp; omega, by simp; omega, fun i hi => ?_⟩
  rw [List.length_append] at hi
  by_cases hc : i < a.length
  · rw [List.getD_append _ _ _ _ hc, List.getD_append _ _ _ _ (by omega), List.getD_append _ _ _ _ (by omega)]; exact h3 i hc
  · rw [List.getD_append_right _ _ _ _ (by omega), List.getD_append_right _ _ _ _ (by omega), List.getD_append_right _ _ _ _ (by omega), h1, h2]
    exact k3 _ (by omega)

theorem All3.left {d : τ} {R : τ → τ → τ → Prop} {a a' b c : List τ} {n : Nat} (hn : a.length = n) (h : All3 d R (a ++ a') b c) :
    All3 d R a (b.take n) (c.take n) := by
  obtain ⟨h1, h2, h3⟩ := h
  rw [List.length_append] at h1 h2 h3
  refine ⟨by simp; omega, by simp; omega, fun i hi => ?_⟩
  rw [getD_take_lt (by omega), getD_take_lt (by omega)]
  have := h3 i (by omega)
  rwa [List.getD_append _ _ _ _ hi] at this

theorem All3.right {d : τ} {R : τ → τ → τ → Prop} {a a' b c : List τ} {n : Nat} (hn : a.length = n) (h : All3 d R (a ++ a') b c) :
    All3 d R a' (b.drop n) (c.drop n) := by
  obtain ⟨h1, h2, h3⟩ := h
  rw [List.length_append] at h1 h2 h3
  refine ⟨by simp; omega, by simp; omega, fun i hi => ?_⟩
  rw [getD_drop', getD_drop']
  have := h3 (n + i) (by omega)
  rwa [List.getD_append_right _ _ _ _ (by omega), hn, Nat.add_sub_cancel_left] at this

theorem all3_replicate {d a b c : τ} {R : τ → τ → τ → Prop} (h : R a b c) (n : Nat) : All3 d R (List.replicate n a) (List.replicate n b) (List.replicate n c) := by
  refine ⟨by simp, by simp, fun i hi => ?_⟩
  rw [List.length_replicate] at hi
  rw [getD_replicate' _ _ _ hi, getD_replicate' _ _ _ hi, getD_replicate' _ _ _ hi]; exact h

theorem all3_qmul {H : PH τ} {Hard : τ → Prop} {S D : τ → τ → τ → Prop} (L : ShiftLaws H Hard S D) {d : τ} {a b c a' b' c' : List τ} (hl : a'.length = a.length)
    (ha : ∀ z ∈ a, Hard z) (ha' : ∀ z ∈ a', Hard z) (h : All3 d D a b c) (h' : All3 d D a' b' c') :
    All3 d D (List.zipWith H.qmul a a') (List.zipWith H.qmul b b') (List.zipWith H.qmul c c') := by
  obtain ⟨h1, h2, h3⟩ := h
  obtain ⟨k1, k2, k3⟩ := h'
  refine ⟨by simp; omega, by simp; omega, fun i hi => ?_⟩
  rw [List.length_zipWith] at hi
  rw [getD_zipWith' (da := d) (db := d) (by omega) (by omega), getD_zipWith' (da := d) (db := d) (by omega) (by omega),
    getD_zipWith' (da := d) (db := d) (by omega) (by omega)]
  refine L.qmul _ _ _ _ _ _ ?_ ?_ (h3 i (by omega)) (k3 i (by omega))
  · rw [← getElem_eq_getD (by omega)]; exact ha _ (List.getElem_mem _)
  · rw [← getElem_eq_getD (by omega)]; exact ha' _ (List.getElem_mem _)

/-- The transform of the decisions. -/
theorem T_shift {H : PH τ} {Hard : τ → Prop} {S D : τ → τ → τ → Prop} (L : ShiftLaws H Hard S D) {d : τ} : ∀ (M : Nat) (a b c : List τ), a.length = 2 ^ M →
    (∀ z ∈ a, Hard z) → All3 d D a b c → All3 d D (T H.qmul M a) (T H.qmul M b) (T H.qmul M c) := by
  intro M
  induction M with
  | zero => intro a b c _ _ h; exact h
  | succ M ih =>
    intro a b c ha hh h
    have e := two_pow_succ' M
    have a1 : (a.take (2 ^ M)).length = 2 ^ M := by simp [ha, e]
    have a2 : (a.drop (2 ^ M)).length = 2 ^ M := by simp [ha, e]
    have h1 : ∀ x ∈ a.take (2 ^ M), Hard x := fun x hx => hh x (List.mem_of_mem_take hx)
    have h2 : ∀ x ∈ a.drop (2 ^ M), Hard x := fun x hx => hh x (List.mem_of_mem_drop hx)
    rw [← List.take_append_drop (2 ^ M) a] at h
    have t1 := ih _ _ _ a1 h1 (h.left a1)
    have t2 := ih _ _ _ a2 h2 (h.right a1)
    rw [T, T, T]
    exact (all3_qmul L (by rw [T_length _ _ _ a1, T_length _ _ _ a2]) (T_hard L.laws _ _ h1) (T_hard L.laws _ _ h2) t1 t2).append t2

/-- What the decoder does in a subtree, on the soft values `s` and on `s'`. -/
def Same (H : PH τ) (D : τ → τ → τ → Prop) (M : Nat) (f : List Bool) (u : List τ) (r r' : Msg τ → Option (Msg τ × List τ × Unit)) : Prop :=
  ∃ l l' h h', All3 H.one D (info f u) l l' ∧ All3 H.one D (T H.qmul M u) h h' ∧
    ∀ x : Msg τ, x.p + (info f u).length ≤ x.msg.length →
      r x = some (⟨put x.msg x.p l, x.p + l.length⟩, h, ()) ∧ r' x = some (⟨put x.msg x.p l', x.p + l'.length⟩, h', ())

theorem node_eq (H : PH τ) (M : Nat) (f : List Bool) (x : Msg τ) (s h1 h2 l1 l2 : List τ)
    (e1 : childF (scWalk H) (scN H) (fun M => treeF (scWalk H) (scN H) M) M (f.take (2 ^ M)) x
      (List.zipWith H.prod (s.take (2 ^ M)) (s.drop (2 ^ M))) = some (⟨put x.msg x.p l1, x.p + l1.length⟩, h1, ()))
    (e2 : childF (scWalk H) (scN H) (fun M => treeF (scWalk H) (scN H) M) M (f.drop (2 ^ M)) ⟨put x.msg x.p l1, x.p + l1.length⟩
      (zip3 H.madd h1 (s.take (2 ^ M)) (s.drop (2 ^ M))) = some (⟨put (put x.msg x.p l1) (x.p + l1.length) l2, x.p + l1.length + l2.length⟩, h2, ()))
    (hl : x.p + l1.length + l2.length ≤ x.msg.length) :
    treeF (scWalk H) (scN H) (M + 1) f x s = some (⟨put x.msg x.p (l1 ++ l2), x.p + (l1 ++ l2).length⟩, List.zipWith H.qmul h1 h2 ++ h2, ()) := by
  have hmap : ∀ l : List τ, l.map (fun v => (scWalk H).vshuf v ()) = l := fun l => List.map_id l
  rw [treeF]
  have e1' : childF (scWalk H) (scN H) (fun _ => treeF (scWalk H) (scN H) M) M (f.take (2 ^ M)) x
      (List.zipWith (scWalk H).prod (s.take (2 ^ M)) (s.drop (2 ^ M))) = some (⟨put x.msg x.p l1, x.p + l1.length⟩, h1, ()) := e1
  rw [e1', sb]
  dsimp only
  rw [hmap, hmap]
  have e2' : childF (scWalk H) (scN H) (fun _ => treeF (scWalk H) (scN H) M) M (f.drop (2 ^ M)) ⟨put x.msg x.p l1, x.p + l1.length⟩
      (zip3 (scWalk H).madd h1 (s.take (2 ^ M)) (s.drop (2 ^ M))) =
      some (⟨put (put x.msg x.p l1) (x.p + l1.length) l2, x.p + l1.length + l2.length⟩, h2, ()) := e2
  rw [e2', sb]
  dsimp only
  rw [hmap, put_put hl, List.length_append, add_assoc]
  rfl

theorem zip3_getD (g : τ → τ → τ → τ) (d : τ) {h a b : List τ} {i n : Nat} (h1 : h.length = n) (h2 : a.length = n) (h3 : b.length = n) (hi : i < n) :
    (zip3 g h a b).getD i d = g (h.getD i d) (a.getD i d) (b.getD i d) := by
  unfold zip3
  rw [getD_zipWith' (da := (d, d)) (db := d) (by rw [List.length_zip]; omega) (by omega)]
  have : (h.zip a).getD i (d, d) = (h.getD i d, a.getD i d) := by
    rw [← getElem_eq_getD (by rw [List.length_zip]; omega), List.getElem_zip, getElem_eq_getD _ d, getElem_eq_getD _ d]
  rw [this]

set_option maxHeartbeats 1000000 in
theorem shift_node {H : PH τ} {Hard : τ → Prop} {S D : τ → τ → τ → Prop} (L : ShiftLaws H Hard S D) (M : Nat)
    (ih : ∀ (f : List Bool) (s s' u : List τ), f.length = 2 ^ M → Obeys H.one f u → (∀ z ∈ u, Hard z) → All3 H.one S (T H.qmul M u) s s' →
      Same H D M f u (childF (scWalk H) (scN H) (fun M => treeF (scWalk H) (scN H) M) M f · s)
        (childF (scWalk H) (scN H) (fun M => treeF (scWalk H) (scN H) M) M f · s'))
    (f : List Bool) (s s' u : List τ) (hf : f.length = 2 ^ (M + 1)) (ho : Obeys H.one f u) (hh : ∀ z ∈ u, Hard z)
    (ha : All3 H.one S (T H.qmul (M + 1) u) s s') :
    Same H D (M + 1) f u (treeF (scWalk H) (scN H) (M + 1) f · s) (treeF (scWalk H) (scN H) (M + 1) f · s') := by
  have e := two_pow_succ' M
  have hu : u.length = 2 ^ (M + 1) := by rw [← ho.1, hf]
  set u1 := u.take (2 ^ M) with hu1
  set u2 := u.drop (2 ^ M) with hu2
  have l1 : u1.length = 2 ^ M := by simp [hu1, hu, e]
  have l2 : u2.length = 2 ^ M := by simp [hu2, hu, e]
  have hh1 : ∀ z ∈ u1, Hard z := fun z hz => hh z (List.mem_of_mem_take hz)
  have hh2 : ∀ z ∈ u2, Hard z := fun z hz => hh z (List.mem_of_mem_drop hz)
  have t1 := T_length H.qmul M u1 l1
  have t2 := T_length H.qmul M u2 l2
  have tz : (List.zipWith H.qmul (T H.qmul M u1) (T H.qmul M u2)).length = 2 ^ M := by simp [t1, t2]
  have hT : T H.qmul (M + 1) u = List.zipWith H.qmul (T H.qmul M u1) (T H.qmul M u2) ++ T H.qmul M u2 := rfl
  rw [hT] at ha
  obtain ⟨sl, sl', sa⟩ := ha.left tz
  obtain ⟨sr, sr', sb'⟩ := ha.right tz
  rw [tz] at sl sl' sa
  rw [t2] at sr sr' sb'
  have hd1 : ∀ i, i < 2 ^ M → Hard ((T H.qmul M u1).getD i H.one) := fun i hi => by
    rw [← getElem_eq_getD (by omega)]; exact T_hard L.laws M u1 hh1 _ (List.getElem_mem _)
  have hd2 : ∀ i, i < 2 ^ M → Hard ((T H.qmul M u2).getD i H.one) := fun i hi => by
    rw [← getElem_eq_getD (by omega)]; exact T_hard L.laws M u2 hh2 _ (List.getElem_mem _)
  have sa' : ∀ i, i < 2 ^ M → S (H.qmul ((T H.qmul M u1).getD i H.one) ((T H.qmul M u2).getD i H.one)) ((s.take (2 ^ M)).getD i H.one) ((s'.take (2 ^ M)).getD i H.one) := by
    intro i hi
    have := sa i hi
    rwa [getD_zipWith' (da := H.one) (db := H.one) (by omega) (by omega)] at this
  have hf1 : (f.take (2 ^ M)).length = 2 ^ M := by simp [hf, e]
  have hf2 : (f.drop (2 ^ M)).length = 2 ^ M := by simp [hf, e]
  have hinfo := info_split (2 ^ M) ho.1
  rw [← hu1, ← hu2] at hinfo
  obtain ⟨la, la', ha1, ha1', A1, A2, A3⟩ := ih (f.take (2 ^ M)) (List.zipWith H.prod (s.take (2 ^ M)) (s.drop (2 ^ M)))
    (List.zipWith H.prod (s'.take (2 ^ M)) (s'.drop (2 ^ M))) u1 hf1 (ho.take _) hh1 ⟨by rw [List.length_zipWith]; omega, by rw [List.length_zipWith]; omega, fun i hi => by
      rw [t1] at hi
      rw [getD_zipWith' (da := H.one) (db := H.one) (by omega) (by omega), getD_zipWith' (da := H.one) (db := H.one) (by omega) (by omega)]
      exact L.prod _ _ _ _ _ _ (hd1 i hi) (hd2 i hi) (sa' i hi) (sb' i hi)⟩
  obtain ⟨A21, A22, A23⟩ := A2
  rw [t1] at A21 A22 A23
  obtain ⟨lb, lb', hb1, hb1', B1, B2, B3⟩ := ih (f.drop (2 ^ M)) (zip3 H.madd ha1 (s.take (2 ^ M)) (s.drop (2 ^ M)))
    (zip3 H.madd ha1' (s'.take (2 ^ M)) (s'.drop (2 ^ M))) u2 hf2 (ho.drop _) hh2 ⟨by rw [zip3_length]; omega, by rw [zip3_length]; omega, fun i hi => by
      rw [t2] at hi
      rw [zip3_getD _ _ A21 sl sr hi, zip3_getD _ _ A22 sl' sr' hi]
      exact L.madd _ _ _ _ _ _ _ _ (hd1 i hi) (hd2 i hi) (A23 i hi) (sa' i hi) (sb' i hi)⟩
  refine ⟨la ++ lb, la' ++ lb', List.zipWith H.qmul ha1 hb1 ++ hb1, List.zipWith H.qmul ha1' hb1' ++ hb1', ?_, ?_, ?_⟩
  · rw [hinfo]; exact A1.append B1
  · rw [hT]
    exact (all3_qmul L (by omega) (T_hard L.laws _ _ hh1) (T_hard L.laws _ _ hh2) ⟨by omega, by omega, fun i hi => A23 i (by omega)⟩ B2).append B2
  · intro x hx
    rw [hinfo, List.length_append] at hx
    obtain ⟨r1, r1'⟩ := A3 x (by omega)
    have la1 := A1.1
    have la2 := A1.2.1
    have lb1 := B1.1
    have lb2 := B1.2.1
    have r2 := (B3 ⟨put x.msg x.p la, x.p + la.length⟩ (by dsimp only; rw [put_length (by omega)]; omega)).1
    have r2' := (B3 ⟨put x.msg x.p la', x.p + la'.length⟩ (by dsimp only; rw [put_length (by omega)]; omega)).2
    exact ⟨node_eq H M f x s ha1 hb1 la lb r1 r2 (by omega), node_eq H M f x s' ha1' hb1' la' lb' r1' r2' (by omega)⟩

theorem sc_shift {H : PH τ} {Hard : τ → Prop} {S D : τ → τ → τ → Prop} (L : ShiftLaws H Hard S D) : ∀ (M : Nat) (f : List Bool) (s s' u : List τ),
    f.length = 2 ^ M → Obeys H.one f u → (∀ z ∈ u, Hard z) → All3 H.one S (T H.qmul M u) s s' →
      Same H D M f u (childF (scWalk H) (scN H) (fun M => treeF (scWalk H) (scN H) M) M f · s)
        (childF (scWalk H) (scN H) (fun M => treeF (scWalk H) (scN H) M) M f · s') := by
  intro M
  -- the case of a subtree without frozen positions, at any depth
  have rate1 : ∀ (M : Nat) (f : List Bool) (s s' u : List τ), f.length = 2 ^ M → Obeys H.one f u → (∀ z ∈ u, Hard z) → All3 H.one S (T H.qmul M u) s s' →
      f.all (fun b => !b) = true → Same H D M f u (fun x => (scN H).r1 M x s) (fun x => (scN H).r1 M x s') := by
    intro M f s s' u hf ho hh ha hc
    have hu : u.length = 2 ^ M := by rw [← ho.1, hf]
    have hTl := T_length H.qmul M u hu
    have hD : All3 H.one D (T H.qmul M u) (s.map H.signum) (s'.map H.signum) := by
      obtain ⟨h1, h2, h3⟩ := ha
      refine ⟨by simpa using h1, by simpa using h2, fun i hi => ?_⟩
      rw [getD_map' _ _ H.one H.one (by omega), getD_map' _ _ H.one H.one (by omega)]
      refine L.signum _ _ _ ?_ (h3 i hi)
      rw [← getElem_eq_getD hi]; exact T_hard L.laws M u hh _ (List.getElem_mem _)
    have hD' := T_shift L M _ _ _ hTl (T_hard L.laws M u hh) hD
    rw [L.laws.invol M u hu hh] at hD'
    refine ⟨T H.qmul M (s.map H.signum), T H.qmul M (s'.map H.signum), s.map H.signum, s'.map H.signum, ?_, hD, fun x hx => ?_⟩
    · rw [info_all_false ho.1 hc]; exact hD'
    · rw [info_all_false ho.1 hc, hu] at hx
      simp only [scN]
      rw [if_pos hx, if_pos hx, hD'.1, hD'.2.1, hu]
      exact ⟨rfl, rfl⟩
  have rate0 : ∀ (M : Nat) (f : List Bool) (s s' u : List τ), f.length = 2 ^ M → Obeys H.one f u →
      f.all (fun b => b) = true → Same H D M f u (fun x => (scN H).r0 M x s) (fun x => (scN H).r0 M x s') := by
    intro M f s s' u hf ho hc
    have hu : u.length = 2 ^ M := by rw [← ho.1, hf]
    have := ho.all hc
    refine ⟨[], [], List.replicate (2 ^ M) H.one, List.replicate (2 ^ M) H.one, ?_, ?_, fun x _ => ?_⟩
    · rw [info_all_true u hc]; exact ⟨rfl, rfl, fun i hi => absurd hi (by simp)⟩
    · rw [this, hu, L.laws.T_one]; exact all3_replicate L.done _
    · rw [put_nil]; exact ⟨rfl, rfl⟩
  induction M with
  | zero =>
    intro f s s' u hf ho hh ha
    obtain ⟨b, rfl⟩ : ∃ b, f = [b] := List.length_eq_one_iff.1 hf
    unfold childF
    cases b with
    | true =>
      simp only [Nat.zero_le, List.all_cons, List.all_nil, Bool.and_self, and_self, if_true]
      exact rate0 0 _ s s' u hf ho rfl
    | false =>
      simp only [Nat.zero_le, List.all_cons, List.all_nil, Bool.and_true, Bool.false_eq_true, and_false, if_false, Bool.not_false, true_or, true_and, and_self, if_true]
      exact rate1 0 _ s s' u hf ho hh ha rfl
  | succ M ih =>
    intro f s s' u hf ho hh ha
    unfold childF
    by_cases c0 : M + 1 ≤ 5 ∧ f.all (fun b => b) = true
    · simp only [if_pos c0]
      exact rate0 _ _ s s' u hf ho c0.2
    simp only [if_neg c0]
    by_cases c1 : (M + 1 = 0 ∨ M + 1 ≤ 5 ∧ (scWalk H).sc1 = true) ∧ f.all (fun b => !b) = true
    · simp only [if_pos c1]
      exact rate1 _ _ s s' u hf ho hh ha c1.2
    simp only [if_neg c1]
    exact shift_node L M ih f s s' u hf ho hh ha

end Verif.Polar
