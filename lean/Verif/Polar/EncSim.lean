import Verif.Polar.PropsPar
/- The encoders for any type whose values stand for ±1 symbols do what the encoders for `int8_t` do. -/
namespace Verif.Polar
open Verif.RS (sb)
variable {τ : Type}

/-- `V a x`: the value `a` stands for the symbol `x`; `one` stands for 1 and products of symbols for products. -/
structure Hom (H : PH τ) (V : τ → Int → Prop) : Prop where
  one : V H.one 1
  qmul : ∀ a b x y, Sym x → Sym y → V a x → V b y → V (H.qmul a b) (x * y)

theorem forN_sim {σ σ' : Type} {f : Nat → σ → Option σ} {g : Nat → σ' → Option σ'} (P : Nat → σ → σ' → Prop) :
    ∀ (n i : Nat) (s : σ) (s' r' : σ'), (∀ j, i ≤ j → j < i + n → ∀ s s' r', P j s s' → g j s' = some r' → Verif.Ok (f j s) (P (j + 1) · r')) → P i s s' →
      forN n i s' g = some r' → Verif.Ok (forN n i s f) (P (i + n) · r') := by
  intro n
  induction n with
  | zero => intro i s s' r' _ h e; cases e; exact Ok.some h
  | succ n ih =>
    intro i s s' r' hf h e
    obtain ⟨t', h1, h2⟩ := Option.bind_eq_some_iff.1 e
    refine Ok.bind (hf _ (by omega) (by omega) _ _ _ h h1) fun t ht => ?_
    have := ih (i + 1) t t' r' (fun j h3 h4 => hf j (by omega) (by omega)) ht h2
    rwa [show i + 1 + n = i + (n + 1) by omega] at this

theorem forUp_sim {σ σ' : Type} {f : Nat → σ → Option σ} {g : Nat → σ' → Option σ'} (P : Nat → σ → σ' → Prop) {lo hi : Nat} (hl : lo ≤ hi) {s : σ} {s' r' : σ'}
    (hf : ∀ j, lo ≤ j → j < hi → ∀ s s' r', P j s s' → g j s' = some r' → Verif.Ok (f j s) (P (j + 1) · r')) (h : P lo s s')
    (e : forUp lo hi s' g = some r') : Verif.Ok (forUp lo hi s f) (P hi · r') := by
  have := forN_sim P (hi - lo) lo s s' r' (fun j h1 h2 => hf j h1 (by omega)) h e
  rwa [show lo + (hi - lo) = hi by omega] at this

theorem bind_some' {α β : Type} {o : Option α} {f : α → Option β} {b : β} (h : (o >>= f) = some b) : ∃ a, o = some a ∧ f a = some b := Option.bind_eq_some_iff.1 h

theorem wr_some' {α : Type} {a r : List α} {i : Nat} {v : α} (h : wr a i v = some r) : i < a.length ∧ r = a.set i v := by
  unfold wr at h
  split at h
  · cases h; exact ⟨by assumption, rfl⟩
  · cases h

theorem rd_some' {α : Type} {a : List α} {i : Nat} {v : α} (d : α) (h : rd a i = some v) : i < a.length ∧ a.getD i d = v := by
  unfold rd at h
  obtain ⟨h1, h2⟩ := List.getElem?_eq_some_iff.1 h
  exact ⟨h1, by rw [← getElem_eq_getD h1]; exact h2⟩

/-- `a` stands for the symbol `x`. -/
def VS (V : τ → Int → Prop) (a : τ) (x : Int) : Prop := V a x ∧ Sym x

/-- The cells below `n` stand for symbols. -/
structure CwRel (V : τ → Int → Prop) (d : τ) (n : Nat) (c : List τ) (c' : List Int) : Prop where
  len : c.length = c'.length
  val : ∀ i, i < n → VS V (c.getD i d) (c'.getD i 0)

/-- The message holds at least the symbols of the other one. -/
structure MsgRel (V : τ → Int → Prop) (d : τ) (m : List τ) (m' : List Int) : Prop where
  len : m'.length ≤ m.length
  val : ∀ i, i < m'.length → VS V (m.getD i d) (m'.getD i 0)

variable {H : PH τ} {V : τ → Int → Prop} {d : τ}

theorem VS.mul (h : Hom H V) {a b : τ} {x y : Int} (ha : VS V a x) (hb : VS V b y) : VS V (H.qmul a b) (ph8.qmul x y) := by
  have e : ph8.qmul x y = x * y := qmul_sym ha.2 hb.2
  rw [e]
  exact ⟨h.qmul _ _ _ _ ha.2 hb.2 ha.1 hb.1, ha.2.mul hb.2⟩

theorem VS.one (h : Hom H V) : VS V H.one 1 := ⟨h.one, Or.inl rfl⟩

theorem CwRel.set {n n' i : Nat} {c : List τ} {c' : List Int} (h : CwRel V d n c c') (hi : i < c'.length) {a : τ} {x : Int} (ha : VS V a x)
    (hn : n' ≤ n ∨ n' = n + 1 ∧ i = n) : CwRel V d n' (c.set i a) (c'.set i x) := by
  refine ⟨by simp [h.len], fun j hj => ?_⟩
  have hl := h.len
  rw [getD_set, getD_set]
  by_cases e : i = j
  · rw [if_pos ⟨e, by omega⟩, if_pos ⟨e, hi⟩]; exact ha
  · rw [if_neg (by tauto), if_neg (by tauto)]; exact h.val j (by omega)

theorem nextSym_sim (h : Hom H V) {m : List τ} {m' : List Int} (hm : MsgRel V d m m') {b : Bool} {p : Nat} {r' : Int × Nat} (e : nextSym ph8 b m' p = some r') :
    Verif.Ok (nextSym H b m p) fun r => VS V r.1 r'.1 ∧ r.2 = r'.2 := by
  unfold nextSym at e ⊢
  cases b with
  | true => cases e; exact Ok.some ⟨VS.one h, rfl⟩
  | false =>
    simp only [Bool.false_eq_true, if_false] at e ⊢
    obtain ⟨v, hv, e⟩ := bind_some' e
    cases e
    obtain ⟨h1, rfl⟩ := rd_some' 0 hv
    have := hm.len
    rw [rd_of_lt (by omega), sb, getElem_eq_getD _ d]
    exact Ok.some ⟨hm.val p h1, rfl⟩

theorem parSym_sim (h : Hom H V) {m : List τ} {m' : List Int} (hm : MsgRel V d m m') {b : Bool} {stride : Nat} {s : PState τ} {s' : PState Int}
    (hs : s.p = s'.p ∧ s.count = s'.count ∧ VS V s.parity s'.parity) {r' : Int × PState Int} (e : parSym ph8 b m' stride s' = some r') :
    Verif.Ok (parSym H b m stride s) fun r => VS V r.1 r'.1 ∧ r.2.p = r'.2.p ∧ r.2.count = r'.2.count ∧ VS V r.2.parity r'.2.parity := by
  obtain ⟨s1, s2, s3⟩ := hs
  unfold parSym at e ⊢
  cases b with
  | true => cases e; exact Ok.some ⟨VS.one h, s1, s2, s3⟩
  | false =>
    simp only [Bool.false_eq_true, if_false] at e ⊢
    rw [s2]
    split at e
    · rename_i hc
      rw [if_pos hc]
      obtain ⟨v, hv, e⟩ := bind_some' e
      cases e
      obtain ⟨h1, rfl⟩ := rd_some' 0 hv
      have := hm.len
      rw [s1, rd_of_lt (by omega), sb, getElem_eq_getD _ d]
      have hv := hm.val _ h1
      exact Ok.some ⟨hv, rfl, rfl, VS.mul h s3 hv⟩
    · rename_i hc
      rw [if_neg hc]
      cases e
      exact Ok.some ⟨s3, s1, rfl, VS.one h⟩

/-- The two writes of a step of the first layer. -/
theorem pair_sim (h : Hom H V) {j : Nat} {c : List τ} {c' t' u' : List Int} (hc : CwRel V d (2 * j) c c') {a b : τ} {x y : Int} (ha : VS V a x) (hb : VS V b y)
    (e1 : wr c' (2 * j) (ph8.qmul x y) = some t') (e2 : wr t' (2 * j + 1) y = some u') :
    Verif.Ok (do
      let c ← wr c (2 * j) (H.qmul a b)
      wr c (2 * j + 1) b) fun u => CwRel V d (2 * (j + 1)) u u' ∧ ∀ i, 2 * (j + 1) ≤ i → u.getD i d = c.getD i d := by
  obtain ⟨i1, rfl⟩ := wr_some' e1
  obtain ⟨i2, rfl⟩ := wr_some' e2
  have hl := hc.len
  rw [List.length_set] at i2
  rw [wr_of_lt (by omega), sb, wr_of_lt (by rw [List.length_set]; omega)]
  refine Ok.some ⟨(hc.set i1 (VS.mul h ha hb) (Or.inr ⟨rfl, rfl⟩)).set (by rw [List.length_set]; exact i2) hb (Or.inr ⟨by ring, rfl⟩), fun i hi => ?_⟩
  rw [getD_set, if_neg (by omega), getD_set, if_neg (by omega)]

theorem encFirst_sim (h : Hom H V) {m : List τ} {m' : List Int} (hm : MsgRel V d m m') {frozen : List Nat} {N : Nat} (hN : N % 2 = 0) {c : List τ} {c' r' : List Int}
    (hl : c.length = c'.length) (e : encFirst ph8 m' frozen N c' = some r') :
    Verif.Ok (encFirst H m frozen N c) fun r => CwRel V d N r r' ∧ ∀ i, N ≤ i → r.getD i d = c.getD i d := by
  unfold encFirst at e ⊢
  obtain ⟨t', ef, e'⟩ := bind_some' e
  cases e'
  refine Ok.bind' (forUp_sim (fun j (s : List τ × Nat) (s' : List Int × Nat) => CwRel V d (2 * j) s.1 s'.1 ∧ s.2 = s'.2 ∧ ∀ i, 2 * j ≤ i → s.1.getD i d = c.getD i d) (Nat.zero_le _)
    ?_ ⟨⟨hl, fun i hi => by omega⟩, rfl, fun _ _ => rfl⟩ ef) ?_
  · rintro j - hj ⟨s, p⟩ ⟨s', p'⟩ r' ⟨h1, h2, h3⟩ e
    dsimp only at h1 h2 h3 e ⊢
    subst h2
    obtain ⟨b0, e0, e⟩ := bind_some' e
    obtain ⟨m0, e1, e⟩ := bind_some' e
    obtain ⟨b1, e2, e⟩ := bind_some' e
    obtain ⟨m1, e3, e⟩ := bind_some' e
    obtain ⟨c0, e4, e⟩ := bind_some' e
    obtain ⟨c1, e5, e⟩ := bind_some' e
    cases e
    rw [e0, sb]
    refine Ok.bind' (nextSym_sim h hm e1) ?_
    rintro ⟨n0, p0⟩ ⟨n1, n2⟩
    dsimp only at n1 n2 ⊢
    subst n2
    rw [e2, sb]
    refine Ok.bind' (nextSym_sim h hm e3) ?_
    rintro ⟨n3, p3⟩ ⟨n4, n5⟩
    dsimp only at n4 n5 ⊢
    obtain ⟨u, eu, u1, u2⟩ := pair_sim h h1 n1 n4 e4 e5
    obtain ⟨w, ew, eu⟩ := bind_some' eu
    rw [ew, sb, eu, sb]
    exact Ok.some ⟨u1, n5, fun i hi => by rw [u2 i hi, h3 i (by omega)]⟩
  · rintro ⟨s, p⟩ ⟨h1, -, h3⟩
    have : 2 * ((N + 1) / 2) = N := by omega
    rw [this] at h1 h3
    exact Ok.some ⟨h1, h3⟩

theorem parFirst_sim (h : Hom H V) {m : List τ} {m' : List Int} (hm : MsgRel V d m m') {frozen : List Nat} {N stride first : Nat} (hN : N % 2 = 0) {c : List τ} {c' r' : List Int}
    (hl : c.length = c'.length) (e : parFirst ph8 m' frozen N stride first c' = some r') :
    Verif.Ok (parFirst H m frozen N stride first c) fun r => CwRel V d N r r' ∧ ∀ i, N ≤ i → r.getD i d = c.getD i d := by
  unfold parFirst at e ⊢
  obtain ⟨t', ef, e'⟩ := bind_some' e
  cases e'
  refine Ok.bind' (forUp_sim (fun j (s : List τ × PState τ) (s' : List Int × PState Int) => CwRel V d (2 * j) s.1 s'.1 ∧
    (s.2.p = s'.2.p ∧ s.2.count = s'.2.count ∧ VS V s.2.parity s'.2.parity) ∧ ∀ i, 2 * j ≤ i → s.1.getD i d = c.getD i d) (Nat.zero_le _)
    ?_ ⟨⟨hl, fun i hi => by omega⟩, ⟨rfl, rfl, VS.one h⟩, fun _ _ => rfl⟩ ef) ?_
  · rintro j - hj ⟨s, p⟩ ⟨s', p'⟩ r' ⟨h1, h2, h3⟩ e
    dsimp only at h1 h2 h3 e ⊢
    obtain ⟨b0, e0, e⟩ := bind_some' e
    obtain ⟨m0, e1, e⟩ := bind_some' e
    obtain ⟨b1, e2, e⟩ := bind_some' e
    obtain ⟨m1, e3, e⟩ := bind_some' e
    obtain ⟨c0, e4, e⟩ := bind_some' e
    obtain ⟨c1, e5, e⟩ := bind_some' e
    cases e
    rw [e0, sb]
    refine Ok.bind' (parSym_sim h hm h2 e1) ?_
    rintro ⟨n0, p0⟩ ⟨n1, n2⟩
    dsimp only at n1 n2 ⊢
    rw [e2, sb]
    refine Ok.bind' (parSym_sim h hm n2 e3) ?_
    rintro ⟨n3, p3⟩ ⟨n4, n5⟩
    dsimp only at n4 n5 ⊢
    obtain ⟨u, eu, u1, u2⟩ := pair_sim h h1 n1 n4 e4 e5
    obtain ⟨w, ew, eu⟩ := bind_some' eu
    rw [ew, sb, eu, sb]
    exact Ok.some ⟨u1, n5, fun i hi => by rw [u2 i hi, h3 i (by omega)]⟩
  · rintro ⟨s, p⟩ ⟨h1, -, h3⟩
    have : 2 * ((N + 1) / 2) = N := by omega
    rw [this] at h1 h3
    exact Ok.some ⟨h1, h3⟩

theorem sysMask_sim (h : Hom H V) {frozen : List Nat} {N : Nat} (hN : N % 2 = 0) {c : List τ} {c' r' : List Int} (hc : CwRel V d N c c') (e : sysMask ph8 frozen N c' = some r') :
    Verif.Ok (sysMask H frozen N c) fun r => CwRel V d N r r' ∧ ∀ i, N ≤ i → r.getD i d = c.getD i d := by
  unfold sysMask at e ⊢
  refine Ok.mono (forUp_sim (fun j (s : List τ) (s' : List Int) => CwRel V d N s s' ∧ ∀ i, N ≤ i → s.getD i d = c.getD i d) (Nat.zero_le _)
    ?_ ⟨hc, fun _ _ => rfl⟩ e) fun _ h => h
  rintro j - hj s s' r' ⟨h1, h3⟩ e
  obtain ⟨b0, e0, e⟩ := bind_some' e
  obtain ⟨x0, e1, e⟩ := bind_some' e
  obtain ⟨b1, e2, e⟩ := bind_some' e
  obtain ⟨x1, e3, e⟩ := bind_some' e
  obtain ⟨c0, e4, e⟩ := bind_some' e
  obtain ⟨i1, rfl⟩ := rd_some' 0 e1
  obtain ⟨i2, rfl⟩ := rd_some' 0 e3
  obtain ⟨-, rfl⟩ := wr_some' e4
  obtain ⟨-, rfl⟩ := wr_some' e
  have hl := h1.len
  rw [e0, sb, rd_of_lt (by omega), sb, getElem_eq_getD _ d]
  dsimp only
  rw [e2, sb, rd_of_lt (by omega), sb, getElem_eq_getD _ d, wr_of_lt (by omega), sb, wr_of_lt (by rw [List.length_set]; omega)]
  have sel : ∀ (b : Bool) i, i < N → VS V (if b then H.one else s.getD i d) (if b then ph8.one else s'.getD i 0) := fun b i hi => by
    cases b with
    | true => exact VS.one h
    | false => exact h1.val i hi
  have v0 := sel b0 (2 * j) (by omega)
  have v1 := sel b1 (2 * j + 1) (by omega)
  refine Ok.some ⟨(h1.set i1 (VS.mul h v0 v1) (Or.inl le_rfl)).set (by rw [List.length_set]; exact i2) v1 (Or.inl le_rfl), fun i hi => ?_⟩
  rw [getD_set, if_neg (by omega), getD_set, if_neg (by omega), h3 i hi]

theorem stages_sim (h : Hom H V) {level : Nat} (hk : 1 ≤ level) {c : List τ} {c' r' : List Int} (hc : CwRel V d (2 ^ level) c c') (e : stages ph8 0 level c' = some r') :
    Verif.Ok (stages H 0 level c) fun r => CwRel V d (2 ^ level) r r' ∧ ∀ i, 2 ^ level ≤ i → r.getD i d = c.getD i d := by
  unfold stages at e ⊢
  refine Ok.mono (forUp_sim (fun _ (s : List τ) (s' : List Int) => CwRel V d (2 ^ level) s s' ∧ ∀ i, 2 ^ level ≤ i → s.getD i d = c.getD i d) hk
    ?_ ⟨hc, fun _ _ => rfl⟩ e) fun _ h => h
  intro j hj1 hj s s' r' hs e
  unfold stage at e ⊢
  refine Ok.mono (forUp_sim (fun _ (s : List τ) (s' : List Int) => CwRel V d (2 ^ level) s s' ∧ ∀ i, 2 ^ level ≤ i → s.getD i d = c.getD i d) (Nat.zero_le _)
    ?_ hs e) fun _ h => h
  intro b _ hb s s' r' hs e
  have e1 : 2 ^ level = 2 * 2 ^ j * 2 ^ (level - j - 1) := by rw [← pow_succ', ← pow_add]; congr 1; omega
  have h0 : 0 < 2 * 2 ^ j := by positivity
  have hb' : b < 2 ^ (level - j - 1) := by rwa [e1, Nat.mul_div_cancel_left _ h0] at hb
  have hb2 : 2 * 2 ^ j * (b + 1) ≤ 2 ^ level := by rw [e1]; exact Nat.mul_le_mul_left _ hb'
  rw [Nat.mul_add, Nat.mul_one] at hb2
  refine Ok.mono (forUp_sim (fun _ (s : List τ) (s' : List Int) => CwRel V d (2 ^ level) s s' ∧ ∀ i, 2 ^ level ≤ i → s.getD i d = c.getD i d) (by omega)
    ?_ hs e) fun _ h => h
  rintro i h1 h2 s s' r' ⟨s1, s2⟩ e
  unfold butterfly at e ⊢
  obtain ⟨x, ex, e⟩ := bind_some' e
  obtain ⟨y, ey, e⟩ := bind_some' e
  obtain ⟨i1, rfl⟩ := rd_some' 0 ex
  obtain ⟨i2, rfl⟩ := rd_some' 0 ey
  obtain ⟨-, rfl⟩ := wr_some' e
  have hl := s1.len
  rw [rd_of_lt (by omega), sb, getElem_eq_getD _ d, rd_of_lt (by omega), sb, getElem_eq_getD _ d, wr_of_lt (by omega)]
  refine Ok.some ⟨s1.set i1 (VS.mul h (s1.val _ (by omega)) (s1.val _ (by omega))) (Or.inl le_rfl), fun k hk => ?_⟩
  rw [getD_set, if_neg (by omega), s2 k hk]

theorem two_pow_even {level : Nat} (hl : 1 ≤ level) : 2 ^ level % 2 = 0 := by
  obtain ⟨k, rfl⟩ : ∃ k, level = k + 1 := ⟨level - 1, by omega⟩
  rw [pow_succ]; omega

theorem encode_sim (h : Hom H V) {m : List τ} {m' : List Int} (hm : MsgRel V d m m') {frozen : List Nat} {level : Nat} (hk : 1 ≤ level) {c : List τ} {c' r' : List Int}
    (hl : c.length = c'.length) (e : encode ph8 c' m' frozen level = some r') :
    Verif.Ok (encode H c m frozen level) fun r => CwRel V d (2 ^ level) r r' ∧ ∀ i, 2 ^ level ≤ i → r.getD i d = c.getD i d := by
  unfold encode at e ⊢
  obtain ⟨t', e1, e⟩ := bind_some' e
  refine Ok.bind' (encFirst_sim h hm (two_pow_even hk) hl e1) ?_
  rintro t ⟨t1, t2⟩
  exact Ok.mono (stages_sim h hk t1 e) fun r hr => ⟨hr.1, fun i hi => by rw [hr.2 i hi, t2 i hi]⟩

theorem parEncode_sim (h : Hom H V) {m : List τ} {m' : List Int} (hm : MsgRel V d m m') {frozen : List Nat} {level stride first : Nat} (hk : 1 ≤ level) {c : List τ} {c' r' : List Int}
    (hl : c.length = c'.length) (e : parEncode ph8 c' m' frozen level stride first = some r') :
    Verif.Ok (parEncode H c m frozen level stride first) fun r => CwRel V d (2 ^ level) r r' ∧ ∀ i, 2 ^ level ≤ i → r.getD i d = c.getD i d := by
  unfold parEncode at e ⊢
  obtain ⟨t', e1, e⟩ := bind_some' e
  refine Ok.bind' (parFirst_sim h hm (two_pow_even hk) hl e1) ?_
  rintro t ⟨t1, t2⟩
  exact Ok.mono (stages_sim h hk t1 e) fun r hr => ⟨hr.1, fun i hi => by rw [hr.2 i hi, t2 i hi]⟩

theorem sysEncode_sim (h : Hom H V) {m : List τ} {m' : List Int} (hm : MsgRel V d m m') {frozen : List Nat} {level : Nat} (hk : 1 ≤ level) {c : List τ} {c' r' : List Int}
    (hl : c.length = c'.length) (e : sysEncode ph8 c' m' frozen level = some r') :
    Verif.Ok (sysEncode H c m frozen level) fun r => CwRel V d (2 ^ level) r r' ∧ ∀ i, 2 ^ level ≤ i → r.getD i d = c.getD i d := by
  unfold sysEncode at e ⊢
  obtain ⟨t', e1, e⟩ := bind_some' e
  obtain ⟨u', e2, e⟩ := bind_some' e
  obtain ⟨v', e3, e⟩ := bind_some' e
  refine Ok.bind' (encFirst_sim h hm (two_pow_even hk) hl e1) ?_
  rintro t ⟨t1, t2⟩
  refine Ok.bind' (stages_sim h hk t1 e2) ?_
  rintro u ⟨u1, u2⟩
  refine Ok.bind' (sysMask_sim h (two_pow_even hk) u1 e3) ?_
  rintro v ⟨v1, v2⟩
  exact Ok.mono (stages_sim h hk v1 e) fun r hr => ⟨hr.1, fun i hi => by rw [hr.2 i hi, v2 i hi, u2 i hi, t2 i hi]⟩

theorem Hom.triv (H : PH τ) : Hom H (fun _ _ => True) := ⟨trivial, fun _ _ _ _ _ _ _ _ => trivial⟩

theorem MsgRel.of {m : List τ} {m' : List Int} (h : List.Forall₂ V m m') (hs : ∀ x ∈ m', Sym x) : MsgRel V d m m' := by
  refine ⟨h.length_eq.symm.le, fun i hi => ?_⟩
  have hi' : i < m.length := by rw [h.length_eq]; exact hi
  rw [← getElem_eq_getD hi, ← getElem_eq_getD hi']
  exact ⟨List.forall₂_iff_get.1 h |>.2 i hi' hi, hs _ (List.getElem_mem _)⟩

theorem MsgRel.ones (d : τ) (m : List τ) : MsgRel (fun _ _ => True) d m (List.replicate m.length 1) := by
  refine ⟨by simp, fun i hi => ⟨trivial, ?_⟩⟩
  have hi' : i < m.length := by simpa using hi
  rw [getD_replicate' _ _ _ hi']; exact Or.inl rfl

theorem ones_sym (n : Nat) : ∀ x ∈ List.replicate n (1 : Int), x = 1 ∨ x = -1 := fun x hx => Or.inl (List.eq_of_mem_replicate hx)

theorem drop_of_getD {α : Type} {a b : List α} {n : Nat} (d : α) (hl : a.length = b.length) (h : ∀ i, n ≤ i → a.getD i d = b.getD i d) : a.drop n = b.drop n := by
  refine List.ext_getElem (by simp [hl]) fun i h1 h2 => ?_
  rw [List.getElem_drop, List.getElem_drop, getElem_eq_getD _ d, getElem_eq_getD _ d, h _ (by omega)]

/-- `PolarEncoder<TYPE>`: every reading of the values as symbols gives the polar transform. -/
theorem enc_hom (H : PH τ) (d : τ) (codeword message : List τ) (frozen : List Nat) (level : Nat) (hl : 1 ≤ level)
    (hf : 2 ^ level ≤ 32 * frozen.length) (hm : freeBelow frozen (2 ^ level) ≤ message.length) (hc : 2 ^ level ≤ codeword.length) :
    ∃ cw, encode H codeword message frozen level = some cw ∧ cw.length = codeword.length ∧ cw.drop (2 ^ level) = codeword.drop (2 ^ level) ∧
      ∀ (V : τ → Int → Prop) (m : List Int), Hom H V → (∀ x ∈ m, x = 1 ∨ x = -1) → List.Forall₂ V message m →
        ∀ j, j < 2 ^ level → V (cw.getD j d) (polar level (symbolAt frozen m) j) := by
  obtain ⟨c1, e1, -, -⟩ := C35_hard (List.replicate codeword.length 0) (List.replicate message.length 1) frozen level hl hf (by simpa using hm) (by simpa using hc) (ones_sym _)
  obtain ⟨cw, e, h1, h2⟩ := encode_sim (c := codeword) (Hom.triv H) (MsgRel.ones d message) hl (by simp) e1
  have hlen : cw.length = codeword.length := by
    obtain ⟨c2, e2, w2, -⟩ := C35_hard (List.replicate codeword.length 0) (List.replicate message.length 1) frozen level hl hf (by simpa using hm) (by simpa using hc) (ones_sym _)
    rw [e1] at e2; cases e2
    rw [h1.len, w2.1, List.length_replicate]
  refine ⟨cw, e, hlen, drop_of_getD d hlen h2, fun V m hV hs hr j hj => ?_⟩
  obtain ⟨c2, e2, w2, -⟩ := C35_hard (List.replicate codeword.length 0) m frozen level hl hf (by rw [← hr.length_eq]; exact hm) (by simpa using hc) hs
  obtain ⟨cw', e', h1', -⟩ := encode_sim (c := codeword) hV (MsgRel.of (d := d) hr hs) hl (by simp) e2
  rw [e] at e'; cases e'
  have := (h1'.val j hj).1
  rwa [w2.2 j, if_pos hj] at this

/-- `PolarParityEncoder<TYPE>` likewise. -/
theorem par_hom (H : PH τ) (d : τ) (codeword message : List τ) (frozen : List Nat) (level stride first : Nat) (hl : 1 ≤ level)
    (hf : 2 ^ level ≤ 32 * frozen.length) (hm : dataBelow first stride (freeBelow frozen (2 ^ level)) ≤ message.length) (hc : 2 ^ level ≤ codeword.length) :
    ∃ cw, parEncode H codeword message frozen level stride first = some cw ∧ cw.length = codeword.length ∧ cw.drop (2 ^ level) = codeword.drop (2 ^ level) ∧
      ∀ (V : τ → Int → Prop) (m : List Int), Hom H V → (∀ x ∈ m, x = 1 ∨ x = -1) → List.Forall₂ V message m →
        ∀ j, j < 2 ^ level → V (cw.getD j d) (polar level (symbolAt frozen (withParity first stride m (freeBelow frozen (2 ^ level)))) j) := by
  obtain ⟨c1, e1, -, w1, -⟩ := C39_encode (List.replicate codeword.length 0) (List.replicate message.length 1) frozen level stride first hl hf (by simpa using hm) (by simpa using hc) (ones_sym _)
  obtain ⟨cw, e, h1, h2⟩ := parEncode_sim (c := codeword) (Hom.triv H) (MsgRel.ones d message) hl (by simp) e1
  have hlen : cw.length = codeword.length := by rw [h1.len, w1.1, List.length_replicate]
  refine ⟨cw, e, hlen, drop_of_getD d hlen h2, fun V m hV hs hr j hj => ?_⟩
  obtain ⟨c2, e2, -, w2, -⟩ := C39_encode (List.replicate codeword.length 0) m frozen level stride first hl hf (by rw [← hr.length_eq]; exact hm) (by simpa using hc) hs
  obtain ⟨cw', e', h1', -⟩ := parEncode_sim (c := codeword) hV (MsgRel.of (d := d) hr hs) hl (by simp) e2
  rw [e] at e'; cases e'
  have := (h1'.val j hj).1
  rwa [w2.2 j, if_pos hj] at this

/-- `PolarSysEnc<TYPE>` likewise: the message symbols are found at the positions that are not frozen, and the codeword is that of some
message. -/
theorem sys_hom (H : PH τ) (d : τ) (codeword message : List τ) (frozen : List Nat) (level : Nat) (hl : 1 ≤ level)
    (hf : 2 ^ level ≤ 32 * frozen.length) (hm : freeBelow frozen (2 ^ level) ≤ message.length) (hc : 2 ^ level ≤ codeword.length) (hcl : Closed frozen level) :
    ∃ cw, sysEncode H codeword message frozen level = some cw ∧ cw.length = codeword.length ∧ cw.drop (2 ^ level) = codeword.drop (2 ^ level) ∧
      ∀ (V : τ → Int → Prop) (m : List Int), Hom H V → (∀ x ∈ m, x = 1 ∨ x = -1) → List.Forall₂ V message m →
        (∀ i, i < 2 ^ level → ¬ Frozen frozen i → V (cw.getD i d) (m.getD (freeBelow frozen i) 0)) ∧
        ∃ m' : List Int, m'.length = freeBelow frozen (2 ^ level) ∧ (∀ x ∈ m', x = 1 ∨ x = -1) ∧ ∀ j, j < 2 ^ level → V (cw.getD j d) (polar level (symbolAt frozen m') j) := by
  obtain ⟨c1, e1, w1, -⟩ := C36_systematic (List.replicate codeword.length 0) (List.replicate message.length 1) frozen level hl hf (by simpa using hm) (by simpa using hc) (ones_sym _) hcl
  obtain ⟨cw, e, h1, h2⟩ := sysEncode_sim (c := codeword) (Hom.triv H) (MsgRel.ones d message) hl (by simp) e1
  have hlen : cw.length = codeword.length := by rw [h1.len, w1, List.length_replicate]
  refine ⟨cw, e, hlen, drop_of_getD d hlen h2, fun V m hV hs hr => ?_⟩
  obtain ⟨c2, e2, w2, w3, w4, m', q1, q2, q3⟩ := C36_systematic (List.replicate codeword.length 0) m frozen level hl hf (by rw [← hr.length_eq]; exact hm) (by simpa using hc) hs hcl
  obtain ⟨cw', e', h1', -⟩ := sysEncode_sim (c := codeword) hV (MsgRel.of (d := d) hr hs) hl (by simp) e2
  rw [e] at e'; cases e'
  refine ⟨fun i hi hn => ?_, m', q1, q2, fun j hj => ?_⟩
  · have := (h1'.val i hi).1
    rwa [w3 i hi hn] at this
  · obtain ⟨c3, e3, w5, -⟩ := C35_hard (List.replicate codeword.length 0) m' frozen level hl hf (by omega) (by simpa using hc) q2
    rw [q3] at e3; cases e3
    have := (h1'.val j hj).1
    rwa [w5.2 j, if_pos hj] at this

end Verif.Polar
