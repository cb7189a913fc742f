import Verif.Polar.Lists
/- The successive cancellation decoder. -/
namespace Verif.Polar
open Verif.RS (sb)
variable {τ : Type}

/-- The node functions of polar_decoder.hh on lists. -/
def scN (H : PH τ) : Nodes τ Unit (Msg τ) where
  r0 M x _ := some (x, List.replicate (2 ^ M) H.one, ())
  r1 M x s := if x.p + 2 ^ M ≤ x.msg.length then
    some (⟨put x.msg x.p (T H.qmul M (s.map H.signum)), x.p + 2 ^ M⟩, s.map H.signum, ()) else none

theorem upd_refl_len {d : τ} {a a' : List τ} {o : Nat} {l : List τ} (h : Upd d a a' o l) : a'.length = a.length := h.1

/-- A loop that writes `g i` to `a[o + i]`. -/
theorem fill_upd {d : τ} {a : List τ} {o n : Nat} {l : List τ} (hl : l.length = n) (h : o + n ≤ a.length) {body : Nat → List τ → Option (List τ)}
    (hb : ∀ i a', i < n → a'.length = a.length → body i a' = wr a' (o + i) (l.getD i d)) :
    Ok (forUp 0 n a body) (fun a' => Upd d a a' o l) := by
  refine Ok.mono (forUp_inv (fun j (a' : List τ) => a'.length = a.length ∧ ∀ i, a'.getD i d = if o ≤ i ∧ i < o + j then l.getD (i - o) d else a.getD i d)
    (Nat.zero_le _) ⟨rfl, fun i => by rw [if_neg (by omega)]⟩ ?_) ?_
  · rintro j a' _ hj ⟨a1, a2⟩
    rw [hb j a' hj a1, wr_of_lt (by omega)]
    refine Ok.some ⟨by rw [List.length_set, a1], fun i => ?_⟩
    rw [getD_set]
    by_cases h3 : o + j = i
    · subst h3
      rw [if_pos ⟨rfl, by omega⟩, if_pos (by omega), Nat.add_sub_cancel_left]
    · rw [if_neg (by tauto), a2]
      by_cases h4 : o ≤ i ∧ i < o + j
      · rw [if_pos h4, if_pos (by omega)]
      · rw [if_neg h4, if_neg (by omega)]
  · rintro a' ⟨a1, a2⟩
    refine ⟨a1, fun i => ?_⟩
    rw [a2, hl]

theorem upd_put {d : τ} {a : List τ} {o : Nat} {l : List τ} (h : o + l.length ≤ a.length) : Upd d a (put a o l) o l :=
  ⟨put_length h, put_getD d h⟩

theorem upd_eq_put {d : τ} {a a' : List τ} {o : Nat} {l : List τ} (h : o + l.length ≤ a.length) (hu : Upd d a a' o l) : a' = put a o l := by
  refine ext_getD d (by rw [put_length h, hu.1]) fun i _ => ?_
  rw [hu.2, put_getD d h]

theorem trans_ok {H : PH τ} {M : Nat} {out inp : List τ} {o i : Nat} {l : List τ} (d : τ) (hM : 1 ≤ M) (hl : l.length = 2 ^ M)
    (ho : o + 2 ^ M ≤ out.length) (hi : Has d inp i l) : trans H M out o inp i = some (put out o (T H.qmul M l)) := by
  rw [← Ok.eq_some]
  have hT := T_length H.qmul M l hl
  obtain ⟨hi1, hi2⟩ := hi
  rw [hl] at hi1 hi2
  have he := even_pow hM
  unfold trans
  have hhalf : (2 ^ M + 1) / 2 = 2 ^ (M - 1) := by omega
  refine Ok.bind' (forUp_inv (fun h (a : List τ) => a.length = out.length ∧ ∀ t, a.getD t d = if o ≤ t ∧ t < o + 2 * h
    then P H.qmul 1 (fun j => l.getD j d) (t - o) else out.getD t d) (Nat.zero_le _)
    ⟨rfl, fun t => by rw [if_neg (by omega)]⟩ ?_) ?_
  · rintro h a _ hh ⟨a1, a2⟩
    rw [rd_of_lt (by omega), sb, getElem_eq_getD _ d, rd_of_lt (by omega), sb, getElem_eq_getD _ d, wr_of_lt (by omega), sb, sb,
      wr_of_lt (by rw [List.length_set]; omega), hi2 _ (by omega), hi2 _ (by omega)]
    refine Ok.some ⟨by rw [List.length_set, List.length_set, a1], ?_⟩
    exact layer_step (u := fun j => l.getD j d) (n := 2 ^ M) ho (by omega) a1 a2
  · rintro a ⟨a1, a2⟩
    refine Ok.mono (stages_ok (u := fun j => l.getD j d) d hM (by omega) fun j hj => ?_) ?_
    · rw [a2, if_pos (by omega), Nat.add_sub_cancel_left]
    · rintro b ⟨b1, b2, b3⟩
      refine upd_eq_put (d := d) (by omega) ⟨by omega, fun t => ?_⟩
      rw [hT]
      by_cases ht : o ≤ t ∧ t < o + 2 ^ M
      · obtain ⟨k, rfl⟩ : ∃ k, t = o + k := ⟨t - o, by omega⟩
        rw [if_pos ht, b2 k (by omega), Nat.add_sub_cancel_left, T_getD _ d M l hl k (by omega)]
      · rw [if_neg ht, b3 t (by omega), a2, if_neg (by omega)]

theorem getD_replicate' (n : Nat) (a d : τ) {i : Nat} (h : i < n) : (List.replicate n a).getD i d = a := by
  rw [← getElem_eq_getD (by simpa using h)]; simp

theorem getD_map' {α β : Type} (g : α → β) (l : List α) (da : α) (db : β) {i : Nat} (h : i < l.length) : (l.map g).getD i db = g (l.getD i da) := by
  rw [← getElem_eq_getD (by simpa using h), ← getElem_eq_getD h]; simp

theorem scAgree (H : PH τ) (d : τ) : Agree d (scWalk H) (scN H) where
  len0 := by
    intro M x s r hs h; cases h; simp
  len1 := by
    intro M x s r hs h
    simp only [scN] at h
    split at h
    · cases h; simpa using hs
    · cases h
  eff0 := by
    intro M off m s r hM hs hH hh h
    cases h
    show Ok (scRate0 H M off m) _
    unfold scRate0
    refine Ok.bind' (fill_upd (d := d) (l := List.replicate (2 ^ M) H.one) (by simp) hh fun i a' hi _ => ?_) fun a' ha => ?_
    · rw [getD_replicate' _ _ _ hi]
    · exact Ok.some ⟨rfl, rfl, ha, rfl, fun i _ => rfl⟩
  eff1 := by
    intro M off m s r hM _ hs hH hh h
    simp only [scN] at h
    split at h
    case isFalse => cases h
    case isTrue hp =>
    cases h
    obtain ⟨h1, h2⟩ := hH
    rw [hs] at h1 h2
    show Ok (scRate1 H M off m) _
    cases M with
    | zero =>
      obtain ⟨v, rfl⟩ : ∃ v, s = [v] := List.length_eq_one_iff.1 hs
      have hv : m.soft.getD 1 d = v := h2 0 (by omega)
      unfold scRate1
      dsimp only
      rw [rd_of_lt (by omega), sb, getElem_eq_getD _ d, hv, wr_of_lt (by omega), sb, rd_of_lt (by rw [List.length_set]; omega), sb,
        wr_of_lt (by omega), sb]
      refine Ok.some ⟨?_, rfl, ⟨by simp, fun i => ?_⟩, rfl, fun i _ => rfl⟩
      · simp only [List.getElem_set_self]
        congr 1
        refine upd_eq_put (d := d) hp ⟨by simp, fun i => ?_⟩
        rw [getD_set]
        by_cases hi : m.x.p = i
        · subst hi; rw [if_pos ⟨rfl, by omega⟩, if_pos (by simp [T])]; simp [T]
        · rw [if_neg (by tauto), if_neg (by simp [T]; omega)]
      · dsimp only
        rw [getD_set]
        by_cases hi : off = i
        · subst hi; rw [if_pos ⟨rfl, by omega⟩, if_pos (by simp)]; simp
        · rw [if_neg (by tauto), if_neg (by simp; omega)]
    | succ M =>
      unfold scRate1
      dsimp only
      refine Ok.bind' (fill_upd (d := d) (l := s.map H.signum) (by simpa using hs) hh fun i a' hi _ => ?_) fun a' ha => ?_
      · rw [rd_of_lt (by omega), sb, getElem_eq_getD _ d, add_comm i, h2 i hi, getD_map' _ _ d d (by omega)]
      · have hlen : (s.map H.signum).length = 2 ^ (M + 1) := by simpa using hs
        rw [trans_ok (l := s.map H.signum) d (by omega) hlen hp ⟨by rw [hlen, ha.1]; exact hh, fun i hi => ?_⟩]
        · exact Ok.some ⟨rfl, rfl, ha, rfl, fun i _ => rfl⟩
        · rw [ha.2, if_pos (by omega), Nat.add_sub_cancel_left]

/-- What the decoder needs to know about the arithmetic: `Hard x`: `x` is a symbol; `Sg s x`: the soft
value `s` stands for the symbol `x`. -/
structure Laws (H : PH τ) (Hard : τ → Prop) (Sg : τ → τ → Prop) : Prop where
  one : Hard H.one
  q_hard : ∀ x y, Hard x → Hard y → Hard (H.qmul x y)
  signum : ∀ s x, Sg s x → H.signum s = x
  prod : ∀ a b x y, Hard x → Hard y → Sg a (H.qmul x y) → Sg b y → Sg (H.prod a b) x
  madd : ∀ a b x y, Hard x → Hard y → Sg a (H.qmul x y) → Sg b y → Sg (H.madd x a b) y
  medial : ∀ x y z w, Hard x → Hard y → Hard z → Hard w → H.qmul (H.qmul x y) (H.qmul z w) = H.qmul (H.qmul x z) (H.qmul y w)
  cancel : ∀ x y, Hard x → Hard y → H.qmul (H.qmul x y) y = x
  one_one : H.qmul H.one H.one = H.one

/-- Position by position. -/
def All2 (d : τ) (R : τ → τ → Prop) (a b : List τ) : Prop := a.length = b.length ∧ ∀ i, i < a.length → R (a.getD i d) (b.getD i d)

theorem T_hard {H : PH τ} {Hard : τ → Prop} {Sg : τ → τ → Prop} (L : Laws H Hard Sg) : ∀ (M : Nat) (l : List τ), (∀ x ∈ l, Hard x) → ∀ x ∈ T H.qmul M l, Hard x := by
  intro M
  induction M with
  | zero => intro l h; exact h
  | succ M ih =>
    intro l h x hx
    have h1 := ih (l.take (2 ^ M)) fun x hx => h x (List.mem_of_mem_take hx)
    have h2 := ih (l.drop (2 ^ M)) fun x hx => h x (List.mem_of_mem_drop hx)
    rw [T, List.mem_append] at hx
    rcases hx with hx | hx
    · obtain ⟨i, hi, rfl⟩ := List.mem_iff_getElem.1 hx
      rw [List.getElem_zipWith]
      exact L.q_hard _ _ (h1 _ (List.getElem_mem _)) (h2 _ (List.getElem_mem _))
    · exact h2 x hx

theorem zipWith_hard {H : PH τ} {Hard : τ → Prop} {Sg : τ → τ → Prop} (L : Laws H Hard Sg) {a b : List τ} (ha : ∀ x ∈ a, Hard x) (hb : ∀ x ∈ b, Hard x) :
    ∀ x ∈ List.zipWith H.qmul a b, Hard x := by
  intro x hx
  obtain ⟨i, hi, rfl⟩ := List.mem_iff_getElem.1 hx
  rw [List.getElem_zipWith]
  exact L.q_hard _ _ (ha _ (List.getElem_mem _)) (hb _ (List.getElem_mem _))

theorem zip_medial {H : PH τ} {Hard : τ → Prop} {Sg : τ → τ → Prop} (L : Laws H Hard Sg) {a b c d : List τ} (ha : ∀ x ∈ a, Hard x) (hb : ∀ x ∈ b, Hard x)
    (hc : ∀ x ∈ c, Hard x) (hd : ∀ x ∈ d, Hard x) (e1 : a.length = b.length) (e2 : c.length = a.length) (e3 : d.length = a.length) :
    List.zipWith H.qmul (List.zipWith H.qmul a b) (List.zipWith H.qmul c d) =
      List.zipWith H.qmul (List.zipWith H.qmul a c) (List.zipWith H.qmul b d) := by
  refine List.ext_getElem (by simp; omega) fun i h1 h2 => ?_
  simp only [List.getElem_zipWith]
  exact L.medial _ _ _ _ (ha _ (List.getElem_mem _)) (hb _ (List.getElem_mem _)) (hc _ (List.getElem_mem _)) (hd _ (List.getElem_mem _))

theorem T_zip {H : PH τ} {Hard : τ → Prop} {Sg : τ → τ → Prop} (L : Laws H Hard Sg) : ∀ (M : Nat) (a b : List τ), a.length = 2 ^ M → b.length = 2 ^ M →
    (∀ x ∈ a, Hard x) → (∀ x ∈ b, Hard x) → T H.qmul M (List.zipWith H.qmul a b) = List.zipWith H.qmul (T H.qmul M a) (T H.qmul M b) := by
  intro M
  induction M with
  | zero => intro a b _ _ _ _; rfl
  | succ M ih =>
    intro a b ha hb hha hhb
    have e := two_pow_succ' M
    have a1 : (a.take (2 ^ M)).length = 2 ^ M := by simp [ha, e]
    have a2 : (a.drop (2 ^ M)).length = 2 ^ M := by simp [ha, e]
    have b1 : (b.take (2 ^ M)).length = 2 ^ M := by simp [hb, e]
    have b2 : (b.drop (2 ^ M)).length = 2 ^ M := by simp [hb, e]
    have ha1 : ∀ x ∈ a.take (2 ^ M), Hard x := fun x hx => hha x (List.mem_of_mem_take hx)
    have ha2 : ∀ x ∈ a.drop (2 ^ M), Hard x := fun x hx => hha x (List.mem_of_mem_drop hx)
    have hb1 : ∀ x ∈ b.take (2 ^ M), Hard x := fun x hx => hhb x (List.mem_of_mem_take hx)
    have hb2 : ∀ x ∈ b.drop (2 ^ M), Hard x := fun x hx => hhb x (List.mem_of_mem_drop hx)
    rw [T, T, T, List.take_zipWith, List.drop_zipWith, ih _ _ a1 b1 ha1 hb1, ih _ _ a2 b2 ha2 hb2,
      List.zipWith_append (by simp [T_length _ _ _ a1, T_length _ _ _ a2, T_length _ _ _ b1, T_length _ _ _ b2])]
    congr 1
    exact zip_medial L (T_hard L _ _ ha1) (T_hard L _ _ hb1) (T_hard L _ _ ha2) (T_hard L _ _ hb2)
      (by rw [T_length _ _ _ a1, T_length _ _ _ b1]) (by rw [T_length _ _ _ a1, T_length _ _ _ a2]) (by rw [T_length _ _ _ a1, T_length _ _ _ b2])

theorem Laws.invol {H : PH τ} {Hard : τ → Prop} {Sg : τ → τ → Prop} (L : Laws H Hard Sg) : ∀ (M : Nat) (l : List τ), l.length = 2 ^ M →
    (∀ x ∈ l, Hard x) → T H.qmul M (T H.qmul M l) = l := by
  intro M
  induction M with
  | zero => intro l _ _; rfl
  | succ M ih =>
    intro l hl hh
    have e := two_pow_succ' M
    have a1 : (l.take (2 ^ M)).length = 2 ^ M := by simp [hl, e]
    have a2 : (l.drop (2 ^ M)).length = 2 ^ M := by simp [hl, e]
    have h1 : ∀ x ∈ l.take (2 ^ M), Hard x := fun x hx => hh x (List.mem_of_mem_take hx)
    have h2 : ∀ x ∈ l.drop (2 ^ M), Hard x := fun x hx => hh x (List.mem_of_mem_drop hx)
    have t1 := T_length H.qmul M _ a1
    have t2 := T_length H.qmul M _ a2
    have tz : (List.zipWith H.qmul (T H.qmul M (l.take (2 ^ M))) (T H.qmul M (l.drop (2 ^ M)))).length = 2 ^ M := by simp [t1, t2]
    conv_lhs => rw [T, T, List.take_left' tz, List.drop_left' tz]
    rw [T_zip L M _ _ t1 t2 (T_hard L _ _ h1) (T_hard L _ _ h2), ih _ a1 h1, ih _ a2 h2]
    have : List.zipWith H.qmul (List.zipWith H.qmul (l.take (2 ^ M)) (l.drop (2 ^ M))) (l.drop (2 ^ M)) = l.take (2 ^ M) := by
      refine List.ext_getElem (by rw [List.length_zipWith, List.length_zipWith, a1, a2]; simp) fun i i1 i2 => ?_
      simp only [List.getElem_zipWith]
      exact L.cancel _ _ (h1 _ (List.getElem_mem _)) (h2 _ (List.getElem_mem _))
    rw [this, List.take_append_drop]

theorem Laws.T_one {H : PH τ} {Hard : τ → Prop} {Sg : τ → τ → Prop} (L : Laws H Hard Sg) : ∀ (M : Nat),
    T H.qmul M (List.replicate (2 ^ M) H.one) = List.replicate (2 ^ M) H.one := by
  intro M
  induction M with
  | zero => rfl
  | succ M ih =>
    have e := two_pow_succ' M
    rw [T, e, List.take_replicate, List.drop_replicate, min_eq_left (Nat.le_add_right _ _), Nat.add_sub_cancel, ih, List.zipWith_replicate, min_self, L.one_one,
      List.replicate_append_replicate]

/-- The symbols are 1 at the frozen positions. -/
def Obeys (one : τ) (f : List Bool) (u : List τ) : Prop := f.length = u.length ∧ ∀ i, f.getD i false = true → u.getD i one = one

theorem Obeys.take {one : τ} {f : List Bool} {u : List τ} (h : Obeys one f u) (n : Nat) : Obeys one (f.take n) (u.take n) := by
  refine ⟨by simp [h.1], fun i hi => ?_⟩
  by_cases hn : i < n
  · rw [getD_take_lt hn] at hi ⊢; exact h.2 i hi
  · rw [List.getD_eq_default _ _ (by simp; omega)]

theorem Obeys.drop {one : τ} {f : List Bool} {u : List τ} (h : Obeys one f u) (n : Nat) : Obeys one (f.drop n) (u.drop n) := by
  refine ⟨by simp [h.1], fun i hi => ?_⟩
  rw [getD_drop'] at hi ⊢; exact h.2 _ hi

theorem Obeys.all {one : τ} {f : List Bool} {u : List τ} (h : Obeys one f u) (hf : f.all (fun b => b) = true) : u = List.replicate u.length one := by
  refine ext_getD one (by simp) fun i hi => ?_
  rw [getD_replicate' _ _ _ hi]
  apply h.2
  have hi' : i < f.length := by rw [h.1]; exact hi
  rw [← getElem_eq_getD hi']
  exact List.all_eq_true.1 hf _ (List.getElem_mem _)

/-- The step: a node from its children. -/
theorem sc_node {H : PH τ} {Hard : τ → Prop} {Sg : τ → τ → Prop} (L : Laws H Hard Sg) (M : Nat)
    (ih : ∀ (f : List Bool) (x : Msg τ) (s u : List τ),
      f.length = 2 ^ M → Obeys H.one f u → (∀ z ∈ u, Hard z) → All2 H.one Sg s (T H.qmul M u) → x.p + (info f u).length ≤ x.msg.length →
      childF (scWalk H) (scN H) (fun M => treeF (scWalk H) (scN H) M) M f x s =
        some (⟨put x.msg x.p (info f u), x.p + (info f u).length⟩, T H.qmul M u, ()))
    (f : List Bool) (x : Msg τ) (s u : List τ) (hf : f.length = 2 ^ (M + 1)) (ho : Obeys H.one f u)
    (hh : ∀ z ∈ u, Hard z) (ha : All2 H.one Sg s (T H.qmul (M + 1) u)) (hp : x.p + (info f u).length ≤ x.msg.length) :
    treeF (scWalk H) (scN H) (M + 1) f x s =
      some (⟨put x.msg x.p (info f u), x.p + (info f u).length⟩, T H.qmul (M + 1) u, ()) := by
  have e := two_pow_succ' M
  have hu : u.length = 2 ^ (M + 1) := by rw [← ho.1, hf]
  have hTl := T_length H.qmul (M + 1) u hu
  have hs : s.length = 2 ^ (M + 1) := by rw [ha.1, hTl]
  set u1 := u.take (2 ^ M) with hu1
  set u2 := u.drop (2 ^ M) with hu2
  have l1 : u1.length = 2 ^ M := by simp [hu1, hu, e]
  have l2 : u2.length = 2 ^ M := by simp [hu2, hu, e]
  have hh1 : ∀ z ∈ u1, Hard z := fun z hz => hh z (List.mem_of_mem_take hz)
  have hh2 : ∀ z ∈ u2, Hard z := fun z hz => hh z (List.mem_of_mem_drop hz)
  have t1 := T_length H.qmul M u1 l1
  have t2 := T_length H.qmul M u2 l2
  have tz : (List.zipWith H.qmul (T H.qmul M u1) (T H.qmul M u2)).length = 2 ^ M := by simp [t1, t2]
  have hT : T H.qmul (M + 1) u = List.zipWith H.qmul (T H.qmul M u1) (T H.qmul M u2) ++ T H.qmul M u2 := rfl
  have hd1 : ∀ i, i < 2 ^ M → Hard ((T H.qmul M u1).getD i H.one) := fun i hi => by
    rw [← getElem_eq_getD (by omega)]; exact T_hard L M u1 hh1 _ (List.getElem_mem _)
  have hd2 : ∀ i, i < 2 ^ M → Hard ((T H.qmul M u2).getD i H.one) := fun i hi => by
    rw [← getElem_eq_getD (by omega)]; exact T_hard L M u2 hh2 _ (List.getElem_mem _)
  have sa : ∀ i, i < 2 ^ M → Sg (s.getD i H.one) (H.qmul ((T H.qmul M u1).getD i H.one) ((T H.qmul M u2).getD i H.one)) := by
    intro i hi
    have := ha.2 i (by omega)
    rwa [hT, List.getD_append _ _ _ _ (by omega), getD_zipWith' (da := H.one) (db := H.one) (by omega) (by omega)] at this
  have sb' : ∀ i, i < 2 ^ M → Sg (s.getD (2 ^ M + i) H.one) ((T H.qmul M u2).getD i H.one) := by
    intro i hi
    have := ha.2 (2 ^ M + i) (by omega)
    rwa [hT, List.getD_append_right _ _ _ _ (by omega), tz, Nat.add_sub_cancel_left] at this
  have hinfo := info_split (2 ^ M) ho.1
  rw [← hu1, ← hu2] at hinfo
  rw [hinfo, List.length_append] at hp
  have hf1 : (f.take (2 ^ M)).length = 2 ^ M := by simp [hf, e]
  have hf2 : (f.drop (2 ^ M)).length = 2 ^ M := by simp [hf, e]
  have es1 : (s.take (2 ^ M)).length = 2 ^ M := by simp [hs, e]
  have es2 : (s.drop (2 ^ M)).length = 2 ^ M := by simp [hs, e]
  rw [treeF]
  have r1 := ih (f.take (2 ^ M)) x (List.zipWith H.prod (s.take (2 ^ M)) (s.drop (2 ^ M))) u1 hf1 (ho.take _) hh1
    ⟨by simp [es1, es2, t1], fun i hi => by
      have hi : i < 2 ^ M := by simpa [es1, es2] using hi
      rw [getD_zipWith' (da := H.one) (db := H.one) (by omega) (by omega), getD_take_lt hi, getD_drop']
      exact L.prod _ _ _ _ (hd1 i hi) (hd2 i hi) (sa i hi) (sb' i hi)⟩ (by omega)
  have e1 : childF (scWalk H) (scN H) (fun _ => treeF (scWalk H) (scN H) M) M (f.take (2 ^ M)) x
      (List.zipWith (scWalk H).prod (s.take (2 ^ M)) (s.drop (2 ^ M))) =
      childF (scWalk H) (scN H) (fun M => treeF (scWalk H) (scN H) M) M (f.take (2 ^ M)) x (List.zipWith H.prod (s.take (2 ^ M)) (s.drop (2 ^ M))) := rfl
  rw [e1, r1, sb]
  dsimp only
  have hmap : ∀ l : List τ, l.map (fun v => (scWalk H).vshuf v ()) = l := fun l => List.map_id l
  rw [hmap, hmap]
  have r2 := ih (f.drop (2 ^ M)) ⟨put x.msg x.p (info (f.take (2 ^ M)) u1), x.p + (info (f.take (2 ^ M)) u1).length⟩
    (zip3 H.madd (T H.qmul M u1) (s.take (2 ^ M)) (s.drop (2 ^ M))) u2 hf2 (ho.drop _) hh2
    ⟨by simp [zip3_length, es1, es2, t1, t2], fun i hi => by
      have hi : i < 2 ^ M := by simpa [zip3_length, es1, es2, t1] using hi
      unfold zip3
      rw [getD_zipWith' (da := (H.one, H.one)) (db := H.one) (by simp [t1, es1]; omega) (by omega)]
      have : ((T H.qmul M u1).zip (s.take (2 ^ M))).getD i (H.one, H.one) = ((T H.qmul M u1).getD i H.one, s.getD i H.one) := by
        rw [← getElem_eq_getD (by simp [t1, es1]; omega), List.getElem_zip, getElem_eq_getD _ H.one, getElem_eq_getD _ H.one, getD_take_lt hi]
      rw [this, getD_drop']
      exact L.madd _ _ _ _ (hd1 i hi) (hd2 i hi) (sa i hi) (sb' i hi)⟩
    (by dsimp only; rw [put_length (by omega)]; omega)
  have e2 : childF (scWalk H) (scN H) (fun _ => treeF (scWalk H) (scN H) M) M (f.drop (2 ^ M))
      ⟨put x.msg x.p (info (f.take (2 ^ M)) u1), x.p + (info (f.take (2 ^ M)) u1).length⟩
      (zip3 (scWalk H).madd (T H.qmul M u1) (s.take (2 ^ M)) (s.drop (2 ^ M))) =
      childF (scWalk H) (scN H) (fun M => treeF (scWalk H) (scN H) M) M (f.drop (2 ^ M)) ⟨put x.msg x.p (info (f.take (2 ^ M)) u1), x.p + (info (f.take (2 ^ M)) u1).length⟩ (zip3 H.madd (T H.qmul M u1) (s.take (2 ^ M)) (s.drop (2 ^ M))) := rfl
  rw [e2, r2, sb]
  dsimp only
  rw [hmap, put_put (by omega), ← hinfo, hT, hinfo, List.length_append, add_assoc]
  rfl

/-- The decoder on an input whose signs are right. -/
theorem sc_pure {H : PH τ} {Hard : τ → Prop} {Sg : τ → τ → Prop} (L : Laws H Hard Sg) : ∀ (M : Nat) (f : List Bool) (x : Msg τ) (s u : List τ),
    f.length = 2 ^ M → Obeys H.one f u → (∀ z ∈ u, Hard z) → All2 H.one Sg s (T H.qmul M u) → x.p + (info f u).length ≤ x.msg.length →
    childF (scWalk H) (scN H) (fun M => treeF (scWalk H) (scN H) M) M f x s =
      some (⟨put x.msg x.p (info f u), x.p + (info f u).length⟩, T H.qmul M u, ()) := by
  intro M
  induction M with
  | zero =>
    intro f x s u hf ho hh ha hp
    obtain ⟨b, rfl⟩ : ∃ b, f = [b] := List.length_eq_one_iff.1 hf
    obtain ⟨v, rfl⟩ : ∃ v, u = [v] := List.length_eq_one_iff.1 (by rw [← ho.1]; rfl)
    obtain ⟨w, rfl⟩ : ∃ w, s = [w] := List.length_eq_one_iff.1 (by rw [ha.1]; rfl)
    unfold childF
    cases b with
    | true =>
      have := ho.2 0 rfl
      have : v = H.one := this
      subst this
      rw [if_pos (by simp)]
      simp [scN, info, put_nil, T]
    | false =>
      rw [if_neg (by simp), if_pos (by simp)]
      have hsg := L.signum _ _ (ha.2 0 (by simp))
      have : H.signum w = v := hsg
      have hp' : x.p + 1 ≤ x.msg.length := hp
      simp [scN, info, T, this, hp']
  | succ M ih =>
    intro f x s u hf ho hh ha hp
    have e := two_pow_succ' M
    have hu : u.length = 2 ^ (M + 1) := by rw [← ho.1, hf]
    have hTl := T_length H.qmul (M + 1) u hu
    have hs : s.length = 2 ^ (M + 1) := by rw [ha.1, hTl]
    unfold childF
    by_cases c0 : M + 1 ≤ 5 ∧ f.all (fun b => b) = true
    · rw [if_pos c0, info_all_true u c0.2, put_nil]
      have := ho.all c0.2
      rw [this, hu, L.T_one]
      rfl
    rw [if_neg c0]
    by_cases c1 : (M + 1 = 0 ∨ M + 1 ≤ 5 ∧ (scWalk H).sc1 = true) ∧ f.all (fun b => !b) = true
    · rw [if_pos c1, info_all_false ho.1 c1.2]
      rw [info_all_false ho.1 c1.2, hu] at hp
      have hsg : s.map H.signum = T H.qmul (M + 1) u := by
        refine ext_getD H.one (by simp [ha.1]) fun i hi => ?_
        rw [List.length_map] at hi
        rw [getD_map' _ _ H.one H.one hi]
        exact L.signum _ _ (ha.2 i hi)
      simp only [scN]
      rw [if_pos hp, hsg, L.invol _ _ hu hh, hu]
    rw [if_neg c1]
    exact sc_node L M ih f x s u hf ho hh ha hp

theorem sc_total_node (H : PH τ) (M : Nat)
    (ih : ∀ (f : List Bool) (x : Msg τ) (s : List τ), f.length = 2 ^ M → s.length = 2 ^ M →
    x.p + (f.filter fun b => !b).length ≤ x.msg.length →
    Ok (childF (scWalk H) (scN H) (fun M => treeF (scWalk H) (scN H) M) M f x s)
      (fun r => r.1.p = x.p + (f.filter fun b => !b).length ∧ r.2.1.length = 2 ^ M ∧
        ∃ l, l.length = (f.filter fun b => !b).length ∧ r.1.msg = put x.msg x.p l))
    (f : List Bool) (x : Msg τ) (s : List τ) (hf : f.length = 2 ^ (M + 1)) (hs : s.length = 2 ^ (M + 1))
    (hp : x.p + (f.filter fun b => !b).length ≤ x.msg.length) :
    Ok (treeF (scWalk H) (scN H) (M + 1) f x s)
      (fun r => r.1.p = x.p + (f.filter fun b => !b).length ∧ r.2.1.length = 2 ^ (M + 1) ∧
        ∃ l, l.length = (f.filter fun b => !b).length ∧ r.1.msg = put x.msg x.p l) := by
  have e := two_pow_succ' M
  have hf1 : (f.take (2 ^ M)).length = 2 ^ M := by simp [hf, e]
  have hf2 : (f.drop (2 ^ M)).length = 2 ^ M := by simp [hf, e]
  have es1 : (s.take (2 ^ M)).length = 2 ^ M := by simp [hs, e]
  have es2 : (s.drop (2 ^ M)).length = 2 ^ M := by simp [hs, e]
  have hcount : (f.filter fun b => !b).length = ((f.take (2 ^ M)).filter fun b => !b).length + ((f.drop (2 ^ M)).filter fun b => !b).length := by
    rw [← List.length_append, ← List.filter_append, List.take_append_drop]
  rw [hcount] at hp ⊢
  rw [treeF]
  refine Ok.bind' (ih (f.take (2 ^ M)) x (List.zipWith H.prod (s.take (2 ^ M)) (s.drop (2 ^ M))) hf1 (by simp [es1, es2]) (by omega)) ?_
  rintro ⟨⟨ml, pl⟩, hl, ⟨⟩⟩ ⟨a1, a2, l1, a3, a4⟩
  dsimp only at a1 a2 a4
  subst a1 a4
  refine Ok.bind' (ih (f.drop (2 ^ M)) _ _ hf2 ?_ ?_) ?_
  · rw [zip3_length, List.length_map, List.length_map, es1, es2, a2]; simp
  · dsimp only; rw [put_length (by omega)]; omega
  · rintro ⟨⟨ml', pl'⟩, hl', ⟨⟩⟩ ⟨b1, b2, l2, b3, b4⟩
    dsimp only at b1 b2 b4
    refine Ok.some ⟨by dsimp only; omega, by simp [a2, b2, e], l1 ++ l2, by simp [a3, b3], ?_⟩
    dsimp only
    rw [b4, ← a3, put_put (by omega)]

/-- The decoder on any input: what it does to the message array. -/
theorem sc_total (H : PH τ) : ∀ (M : Nat) (f : List Bool) (x : Msg τ) (s : List τ), f.length = 2 ^ M → s.length = 2 ^ M →
    x.p + (f.filter fun b => !b).length ≤ x.msg.length →
    Ok (childF (scWalk H) (scN H) (fun M => treeF (scWalk H) (scN H) M) M f x s)
      (fun r => r.1.p = x.p + (f.filter fun b => !b).length ∧ r.2.1.length = 2 ^ M ∧
        ∃ l, l.length = (f.filter fun b => !b).length ∧ r.1.msg = put x.msg x.p l) := by
  intro M
  induction M with
  | zero =>
    intro f x s hf hs hp
    obtain ⟨b, rfl⟩ : ∃ b, f = [b] := List.length_eq_one_iff.1 hf
    obtain ⟨w, rfl⟩ : ∃ w, s = [w] := List.length_eq_one_iff.1 hs
    unfold childF
    cases b with
    | true =>
      rw [if_pos (by simp)]
      exact Ok.some ⟨rfl, by simp, [], rfl, (put_nil _ _).symm⟩
    | false =>
      rw [if_neg (by simp), if_pos (by simp)]
      have hp' : x.p + 1 ≤ x.msg.length := hp
      simp only [scN]
      rw [if_pos (show x.p + 2 ^ 0 ≤ _ from hp')]
      exact Ok.some ⟨rfl, rfl, [H.signum w], rfl, rfl⟩
  | succ M ih =>
    intro f x s hf hs hp
    have e := two_pow_succ' M
    unfold childF
    by_cases c0 : M + 1 ≤ 5 ∧ f.all (fun b => b) = true
    · have h0 : (f.filter fun b => !b) = [] := by
        rw [List.filter_eq_nil_iff]; intro b hb; simp [List.all_eq_true.1 c0.2 b hb]
      rw [if_pos c0, h0]
      exact Ok.some ⟨rfl, by simp, [], rfl, (put_nil _ _).symm⟩
    rw [if_neg c0]
    by_cases c1 : (M + 1 = 0 ∨ M + 1 ≤ 5 ∧ (scWalk H).sc1 = true) ∧ f.all (fun b => !b) = true
    · have h0 : (f.filter fun b => !b) = f := List.filter_eq_self.2 fun b hb => List.all_eq_true.1 c1.2 b hb
      rw [h0, hf] at hp ⊢
      rw [if_pos c1]
      simp only [scN]
      rw [if_pos hp]
      exact Ok.some ⟨rfl, by simp [hs], _, T_length _ _ _ (by simpa using hs), rfl⟩
    rw [if_neg c1]
    exact sc_total_node H M ih f x s hf hs hp

end Verif.Polar
