import Verif.Trials.Model
import Verif.Cauchy.PropsBytes
/- What a completed series of strikes has done. -/
namespace Verif.Trials
open Verif.GF (forUp_some_inv)
open Verif.RS (sb)

variable {D : Type}

theorem bind_some {α β : Type} {x : Option α} {f : α → Option β} {b : β} (h : (x >>= f) = some b) : ∃ a, x = some a ∧ f a = some b := by
  cases x with
  | none => cases h
  | some a => exact ⟨a, rfl, h⟩

theorem forN_snoc {σ : Type} {f : Nat → σ → Option σ} : ∀ (n i : Nat) (s : σ), forN (n + 1) i s f = (forN n i s f >>= f (i + n)) := by
  intro n
  induction n with
  | zero =>
    intro i s
    show (f i s).bind some = f i s
    cases f i s <;> rfl
  | succ n ih =>
    intro i s
    rw [forN, forN]
    cases f i s with
    | none => rfl
    | some t =>
      show forN (n + 1) (i + 1) t f = (forN n (i + 1) t f >>= f (i + (n + 1)))
      rw [ih, show i + 1 + n = i + (n + 1) by omega]

theorem forUp_snoc {σ : Type} {f : Nat → σ → Option σ} (k : Nat) (s : σ) : forUp 0 (k + 1) s f = (forUp 0 k s f >>= f k) := by
  unfold forUp
  rw [Nat.sub_zero, Nat.sub_zero, forN_snoc, Nat.zero_add]

/-- Strikes number `i`, `i + 1`, ... at the given positions. -/
def hits (hit : Nat → Nat → D → Option D) : Nat → List Nat → D → Option D
  | _, [], d => some d
  | i, p :: ps, d => (hit i p d).bind (hits hit (i + 1) ps)

theorem hits_snoc (hit : Nat → Nat → D → Option D) (p : Nat) : ∀ (ps : List Nat) (i : Nat) (d : D),
    hits hit i (ps ++ [p]) d = (hits hit i ps d).bind (hit (i + ps.length) p) := by
  intro ps
  induction ps with
  | nil => intro i d; simp [hits]
  | cons q ps ih =>
    intro i d
    simp only [List.cons_append, hits]
    cases hit i q d with
    | none => rfl
    | some d' =>
      show hits hit (i + 1) (ps ++ [p]) d' = (hits hit (i + 1) ps d').bind _
      rw [ih, List.length_cons, show i + 1 + ps.length = i + (ps.length + 1) by omega]

theorem fresh_some {src : Nat → Nat} {n : Nat} (hsrc : ∀ c, src c < n) {errors : List Nat} {i : Nat} : ∀ (f p j c p' c' : Nat), p < n →
    (∀ k, k < j → errors[k]? ≠ some p) → fresh src errors i f p j c = some (p', c') → p' < n ∧ ∀ k, k < i → errors[k]? ≠ some p' := by
  intro f
  induction f with
  | zero => intro p j c p' c' _ _ h; cases h
  | succ f ih =>
    intro p j c p' c' hp hj h
    rw [fresh] at h
    by_cases hji : j < i
    · rw [if_pos hji] at h
      obtain ⟨e, he, h⟩ := bind_some h
      by_cases hep : e = p
      · rw [if_pos hep] at h
        exact ih _ 0 _ p' c' (hsrc c) (fun k hk => absurd hk (by omega)) h
      · rw [if_neg hep] at h
        refine ih p (j + 1) c p' c' hp (fun k hk => ?_) h
        by_cases hkj : k < j
        · exact hj k hkj
        · obtain rfl : k = j := by omega
          rw [show errors[k]? = some e from he]
          intro hc
          exact hep (Option.some.inj hc)
    · rw [if_neg hji] at h
      obtain ⟨rfl, rfl⟩ := Prod.mk.inj (Option.some.inj h)
      exact ⟨hp, fun k hk => hj k (by omega)⟩

/-- The state after `k` strikes: different positions in the block have been hit, in this order, and are stored. -/
structure Struck (n : Nat) (hit : Nat → Nat → D → Option D) (d0 : D) (k : Nat) (s : D × List Nat × Nat) (ps : List Nat) : Prop where
  length : ps.length = k
  nodup : ps.Nodup
  inside : ∀ p ∈ ps, p < n
  stored : ∀ j, j < k → s.2.1[j]? = ps[j]?
  done : hits hit 0 ps d0 = some s.1

theorem strike_some {w n : Nat} {src : Nat → Nat} (hsrc : ∀ c, src c < n) (hn : n ≤ 2 ^ w) {fuel : Nat} {hit : Nat → Nat → D → Option D} {d0 : D} {i : Nat} {s s' : D × List Nat × Nat}
    {p : Nat} {ps : List Nat} (S : Struck n hit d0 i s ps) (h : strike w src fuel hit i s = some (p, s')) :
    p < n ∧ s'.2.1.length = s.2.1.length ∧ Struck n hit d0 (i + 1) s' (ps ++ [p]) := by
  unfold strike at h
  obtain ⟨⟨q, c⟩, h1, h⟩ := bind_some h
  obtain ⟨errors, h2, h⟩ := bind_some h
  obtain ⟨d, h3, h⟩ := bind_some h
  obtain ⟨rfl, rfl⟩ := Prod.mk.inj (Option.some.inj h)
  obtain ⟨g1, g2⟩ := fresh_some hsrc _ _ 0 _ _ _ (hsrc _) (fun k hk => absurd hk (by omega)) h1
  have hlt : i < s.2.1.length := by
    by_contra hc
    rw [show wr s.2.1 i (q % 2 ^ w) = none from if_neg hc] at h2
    cases h2
  rw [wr_of_lt hlt, Nat.mod_eq_of_lt (by omega)] at h2
  cases h2
  refine ⟨g1, List.length_set .., ?_⟩
  have hnot : q ∉ ps := by
    intro hq
    obtain ⟨j, hj, rfl⟩ := List.mem_iff_getElem.1 hq
    rw [S.length] at hj
    have := S.stored j hj
    rw [show ps[j]? = some ps[j] from List.getElem?_eq_getElem _] at this
    exact g2 j hj this
  constructor
  · rw [List.length_append, S.length]; rfl
  · rw [List.nodup_append]
    exact ⟨S.nodup, by simp, fun a ha b hb => by rintro rfl; rw [List.mem_singleton] at hb; exact hnot (hb ▸ ha)⟩
  · intro x hx
    rcases List.mem_append.1 hx with hx | hx
    · exact S.inside x hx
    · rw [List.mem_singleton.1 hx]; exact g1
  · intro j hj
    dsimp only
    by_cases hji : j < i
    · rw [List.getElem?_set_ne (by omega), List.getElem?_append_left (by rw [S.length]; omega), S.stored j hji]
    · obtain rfl : j = i := by omega
      rw [List.getElem?_set_self hlt, List.getElem?_append_right (by rw [S.length]), S.length, Nat.sub_self]
      rfl
  · rw [hits_snoc, S.done, S.length, Nat.zero_add]
    exact h3

/-- What completed damage is: `NR - count` different positions of the block have been hit, the last `NR - 2 * count` of them are the announced erasures. -/
theorem damage_some {w n : Nat} {src : Nat → Nat} (hsrc : ∀ c, src c < n) (hn : n ≤ 2 ^ w) {fuel : Nat} {hit : Nat → Nat → D → Option D} {NR count : Nat} {d d' : D}
    {errors erasures erasures' : List Nat} (hc : 2 * count ≤ NR) (he : erasures.length = NR - 2 * count) (h : damage w src fuel hit NR count d errors erasures = some (d', erasures')) :
    ∃ ps : List Nat, ps.length = NR - count ∧ ps.Nodup ∧ (∀ p ∈ ps, p < n) ∧ hits hit 0 ps d = some d' ∧ erasures' = ps.drop count := by
  unfold damage at h
  obtain ⟨s, h1, h⟩ := bind_some h
  obtain ⟨⟨s', er⟩, h2, h⟩ := bind_some h
  obtain ⟨rfl, rfl⟩ := Prod.mk.inj (Option.some.inj h)
  obtain ⟨ps, S⟩ := forUp_some_inv (fun i s => ∃ ps, Struck n hit d i s ps) (Nat.zero_le count)
    ⟨[], rfl, List.nodup_nil, fun p hp => (by cases hp), fun j hj => absurd hj (by omega), rfl⟩ h1 (by
      rintro i t t' _ hi ⟨ps, S⟩ ht
      obtain ⟨⟨p, t''⟩, ht, hr⟩ := bind_some ht
      cases hr
      exact ⟨_, (strike_some hsrc hn S ht).2.2⟩)
  obtain ⟨qs, S', hl, hq⟩ := forUp_some_inv (fun i (t : (D × List Nat × Nat) × List Nat) => ∃ qs, Struck n hit d (count + i) t.1 qs ∧ t.2.length = NR - 2 * count ∧
      ∀ j, j < i → t.2[j]? = qs[count + j]?) (Nat.zero_le (NR - 2 * count)) ⟨ps, S, he, fun j hj => absurd hj (by omega)⟩ h2 (by
      rintro i ⟨t, er⟩ ⟨t', er'⟩ _ hi ⟨qs, S, hl, hq⟩ ht
      dsimp only at ht S hl hq ⊢
      obtain ⟨⟨p, t''⟩, hk, hr⟩ := bind_some ht
      obtain ⟨er'', hw, hr⟩ := bind_some hr
      obtain ⟨rfl, rfl⟩ := Prod.mk.inj (Option.some.inj hr)
      obtain ⟨g1, _, g3⟩ := strike_some hsrc hn S hk
      rw [wr_of_lt (by omega), Nat.mod_eq_of_lt (by omega)] at hw
      cases hw
      refine ⟨_, g3, by rw [List.length_set]; exact hl, fun j hj => ?_⟩
      have hsl := S.length
      by_cases hji : j < i
      · rw [List.getElem?_set_ne (by omega), List.getElem?_append_left (by omega), hq j hji]
      · obtain rfl : j = i := by omega
        rw [List.getElem?_set_self (by omega), List.getElem?_append_right (by omega), hsl, Nat.sub_self]
        rfl)
  have hsl := S'.length
  refine ⟨qs, by omega, S'.nodup, S'.inside, S'.done, ?_⟩
  dsimp only at hl hq
  apply List.ext_getElem?
  intro j
  rw [List.getElem?_drop]
  by_cases hj : j < NR - 2 * count
  · exact hq j hj
  · rw [List.getElem?_eq_none (by omega), List.getElem?_eq_none (by omega)]

/-! ### The drawing ends -/

theorem fresh_mono {src : Nat → Nat} {errors : List Nat} {i : Nat} : ∀ (f p j c : Nat) (r : Nat × Nat), fresh src errors i f p j c = some r → fresh src errors i (f + 1) p j c = some r := by
  intro f
  induction f with
  | zero => intro p j c r h; cases h
  | succ f ih =>
    intro p j c r h
    rw [fresh] at h ⊢
    by_cases hji : j < i
    · rw [if_pos hji] at h ⊢
      obtain ⟨e, he, h⟩ := bind_some h
      rw [he, sb]
      by_cases hep : e = p
      · rw [if_pos hep] at h ⊢; exact ih _ _ _ _ h
      · rw [if_neg hep] at h ⊢; exact ih _ _ _ _ h
    · rw [if_neg hji] at h ⊢; exact h

theorem fresh_le {src : Nat → Nat} {errors : List Nat} {i f f' p j c : Nat} {r : Nat × Nat} (h : fresh src errors i f p j c = some r) (hf : f ≤ f') :
    fresh src errors i f' p j c = some r := by
  induction hf with
  | refl => exact h
  | step _ ih => exact fresh_mono _ _ _ _ _ ih

/-- A run of the inner loop with a number that is not stored comes to its end. -/
theorem fresh_good {src : Nat → Nat} {errors : List Nat} {i p c : Nat} (hl : i ≤ errors.length) (hp : ∀ k, k < i → errors[k]? ≠ some p) : ∀ m j, m = i - j → j ≤ i →
    fresh src errors i (m + 1) p j c = some (p, c) := by
  intro m
  induction m with
  | zero => intro j hm hj; rw [fresh, if_neg (by omega)]
  | succ m ih =>
    intro j hm hj
    have hji : j < i := by omega
    rw [fresh, if_pos hji, rd_of_lt (by omega), sb, if_neg]
    · exact ih (j + 1) (by omega) (by omega)
    · intro he
      exact hp j hji (by rw [List.getElem?_eq_getElem (by omega), he])

/-- With one that is stored it draws again. -/
theorem fresh_bad {src : Nat → Nat} {errors : List Nat} {i p c k : Nat} (hl : i ≤ errors.length) (hk : k < i) (hp : errors[k]? = some p) : ∀ m j, m = k - j → j ≤ k →
    ∃ m', ∀ f, fresh src errors i (f + m') p j c = fresh src errors i f (src c) 0 (c + 1) := by
  intro m
  induction m with
  | zero =>
    intro j hm hj
    obtain rfl : j = k := by omega
    refine ⟨1, fun f => ?_⟩
    rw [fresh, if_pos hk, show rd errors j = some p from hp, sb, if_pos rfl]
  | succ m ih =>
    intro j hm hj
    have hji : j < i := by omega
    by_cases he : errors[j]'(by omega) = p
    · refine ⟨1, fun f => ?_⟩
      rw [fresh, if_pos hji, rd_of_lt (by omega), sb, if_pos he]
    · obtain ⟨m', h'⟩ := ih (j + 1) (by omega) (by omega)
      refine ⟨m' + 1, fun f => ?_⟩
      rw [← Nat.add_assoc, fresh, if_pos hji, rd_of_lt (by omega), sb, if_neg he]
      exact h' f

theorem fresh_ends {src : Nat → Nat} {errors : List Nat} {i : Nat} (hl : i ≤ errors.length) {v : Nat} (hv : ∀ k, k < i → errors[k]? ≠ some v) : ∀ m c, src (c + m) = v →
    ∃ f r, fresh src errors i f (src c) 0 (c + 1) = some r := by
  intro m
  induction m with
  | zero =>
    intro c h
    refine ⟨i + 1, (src c, c + 1), fresh_good hl (fun k hk => ?_) i 0 (by omega) (by omega)⟩
    rw [show src c = v from h]; exact hv k hk
  | succ m ih =>
    intro c h
    by_cases hs : ∃ k, k < i ∧ errors[k]? = some (src c)
    · obtain ⟨k, hk, hks⟩ := hs
      obtain ⟨m', h'⟩ := fresh_bad (src := src) (c := c + 1) hl hk hks k 0 (by omega) (by omega)
      obtain ⟨f, r, hr⟩ := ih (c + 1) (by rw [← h]; congr 1; omega)
      exact ⟨f + m', r, by rw [h' f]; exact hr⟩
    · refine ⟨i + 1, (src c, c + 1), fresh_good hl (fun k hk hks => hs ⟨k, hk, hks⟩) i 0 (by omega) (by omega)⟩

/-- Every position is drawn again and again. -/
def Fair (n : Nat) (src : Nat → Nat) : Prop := ∀ v, v < n → ∀ c, ∃ m, src (c + m) = v

theorem strike_ends {w n : Nat} {src : Nat → Nat} (hfair : Fair n src) {hit : Nat → Nat → D → Option D} {d0 : D} {i : Nat} {s : D × List Nat × Nat} {ps : List Nat}
    (S : Struck n hit d0 i s ps) (hi : i < n) (hl : i < s.2.1.length) (hhit : ∀ p, p < n → ∃ d, hit i p s.1 = some d) (hsrc : ∀ c, src c < n) :
    ∃ F r, ∀ fuel, F ≤ fuel → strike w src fuel hit i s = some r := by
  have hex : ∃ v, v < n ∧ v ∉ ps := by
    by_contra hc
    push Not at hc
    have h1 : Finset.range n ⊆ ps.toFinset := fun v hv => List.mem_toFinset.2 (hc v (Finset.mem_range.1 hv))
    have h2 := Finset.card_le_card h1
    have h3 := ps.toFinset_card_le
    rw [Finset.card_range] at h2
    have := S.length
    omega
  obtain ⟨v, hv, hvp⟩ := hex
  obtain ⟨m, hm⟩ := hfair v hv s.2.2
  have hst : ∀ k, k < i → s.2.1[k]? ≠ some v := fun k hk he => by
    rw [S.stored k hk] at he
    exact hvp (List.mem_of_getElem? he)
  obtain ⟨F, ⟨p, c⟩, hr⟩ := fresh_ends (by omega) hst m s.2.2 hm
  have hp := (fresh_some hsrc _ _ 0 _ _ _ (hsrc _) (fun k hk => absurd hk (by omega)) hr).1
  obtain ⟨d, hd⟩ := hhit p hp
  refine ⟨F, (p, (d, s.2.1.set i (p % 2 ^ w), c)), fun fuel hf => ?_⟩
  unfold strike
  rw [fresh_le hr hf, sb]
  dsimp only
  rw [wr_of_lt hl, sb, hd, sb]
  rfl

/-- If every position is drawn again and again and every strike at a position of the block succeeds, the damage is complete after some time. -/
theorem damage_ends {w n : Nat} {src : Nat → Nat} (hsrc : ∀ c, src c < n) (hfair : Fair n src) (hn : n ≤ 2 ^ w) {hit : Nat → Nat → D → Option D} {NR count : Nat} {d : D}
    {errors erasures : List Nat} (hc : 2 * count ≤ NR) (hNR : NR ≤ n) (herr : errors.length = NR) (he : erasures.length = NR - 2 * count)
    (hhit : ∀ ps p e, (∀ q ∈ ps, q < n) → hits hit 0 ps d = some e → p < n → ∃ e', hit ps.length p e = some e') :
    ∃ F r, ∀ fuel, F ≤ fuel → damage w src fuel hit NR count d errors erasures = some r := by
  have h1 : ∀ k, k ≤ count → ∃ F s ps, (∀ fuel, F ≤ fuel → forUp 0 k (d, errors, 0) (fun i s => do
      let (_, s) ← strike w src fuel hit i s
      return s) = some s) ∧ Struck n hit d k s ps ∧ s.2.1.length = NR := by
    intro k
    induction k with
    | zero => intro _; exact ⟨0, _, [], fun _ _ => rfl, ⟨rfl, List.nodup_nil, fun p hp => (by cases hp), fun j hj => absurd hj (by omega), rfl⟩, herr⟩
    | succ k ih =>
      intro hk
      obtain ⟨F, s, ps, g1, g2, g3⟩ := ih (by omega)
      obtain ⟨F', ⟨p, s'⟩, g4⟩ := strike_ends (w := w) hfair g2 (by omega) (by omega) (fun p hp => by
        have := hhit ps p s.1 g2.inside g2.done hp
        rwa [g2.length] at this) hsrc
      have g5 := strike_some hsrc hn g2 (g4 F' le_rfl)
      refine ⟨max F F', s', ps ++ [p], fun fuel hf => ?_, g5.2.2, by rw [g5.2.1, g3]⟩
      rw [forUp_snoc, g1 fuel (by omega), sb, g4 fuel (by omega)]
      rfl
  obtain ⟨F, s, ps, g1, g2, g3⟩ := h1 count le_rfl
  have h2 : ∀ k, k ≤ NR - 2 * count → ∃ F t ps, (∀ fuel, F ≤ fuel → forUp 0 k (s, erasures) (fun i (s, erasures) => do
      let (p, s) ← strike w src fuel hit (count + i) s
      let erasures ← wr erasures i (p % 2 ^ w)
      return (s, erasures)) = some t) ∧ Struck n hit d (count + k) t.1 ps ∧ t.1.2.1.length = NR ∧ t.2.length = NR - 2 * count := by
    intro k
    induction k with
    | zero => intro _; exact ⟨0, _, ps, fun _ _ => rfl, g2, g3, he⟩
    | succ k ih =>
      intro hk
      obtain ⟨F, ⟨s, er⟩, ps, e1, e2, e3, e4⟩ := ih (by omega)
      dsimp only at e2 e3 e4
      obtain ⟨F', ⟨p, s'⟩, g4⟩ := strike_ends (w := w) hfair e2 (by omega) (by omega) (fun p hp => by
        have := hhit ps p s.1 e2.inside e2.done hp
        rwa [e2.length] at this) hsrc
      have g5 := strike_some hsrc hn e2 (g4 F' le_rfl)
      refine ⟨max F F', (s', er.set k (p % 2 ^ w)), ps ++ [p], fun fuel hf => ?_, g5.2.2, by rw [g5.2.1, e3], by rw [List.length_set, e4]⟩
      rw [forUp_snoc, e1 fuel (by omega), sb]
      dsimp only
      rw [g4 fuel (by omega), sb]
      dsimp only
      rw [wr_of_lt (by omega)]
      rfl
  obtain ⟨F', t, qs, e1, _⟩ := h2 _ le_rfl
  refine ⟨max F F', (t.1.1, t.2), fun fuel hf => ?_⟩
  unfold damage
  rw [g1 fuel (by omega), sb, e1 fuel (by omega), sb]
  rfl

/-! ### What the strikes do -/

/-- `sym s q` is symbol `q` of the block; a strike at `p` succeeds, changes no other symbol and keeps `good`. -/
structure Careful (n : Nat) (hit : Nat → Nat → D → Option D) (good : D → Prop) (sym : D → Nat → Nat) : Prop where
  step : ∀ i p s, p < n → good s → ∃ s', hit i p s = some s' ∧ good s' ∧ ∀ q, q ≠ p → sym s' q = sym s q

theorem Careful.hits {n : Nat} {hit : Nat → Nat → D → Option D} {good : D → Prop} {sym : D → Nat → Nat} (C : Careful n hit good sym) : ∀ (ps : List Nat) (i : Nat) (s : D),
    (∀ p ∈ ps, p < n) → good s → ∃ s', hits hit i ps s = some s' ∧ good s' ∧ ∀ q, q ∉ ps → sym s' q = sym s q := by
  intro ps
  induction ps with
  | nil => intro i s _ hg; exact ⟨s, rfl, hg, fun _ _ => rfl⟩
  | cons p ps ih =>
    intro i s hp hg
    obtain ⟨s1, h1, g1, q1⟩ := C.step i p s (hp p (by simp)) hg
    obtain ⟨s2, h2, g2, q2⟩ := ih (i + 1) s1 (fun q hq => hp q (by simp [hq])) g1
    refine ⟨s2, ?_, g2, fun q hq => ?_⟩
    · rw [Trials.hits, h1]; exact h2
    · rw [List.mem_cons, not_or] at hq
      rw [q2 q hq.2, q1 q hq.1]

/-- If a strike always changes the symbol, all symbols that were hit (once) are changed. -/
theorem Careful.flips {n : Nat} {hit : Nat → Nat → D → Option D} {good : D → Prop} {sym : D → Nat → Nat} (C : Careful n hit good sym)
    (hf : ∀ i p s s', p < n → good s → hit i p s = some s' → sym s' p ≠ sym s p) : ∀ (ps : List Nat) (i : Nat) (s s' : D),
    (∀ p ∈ ps, p < n) → good s → ps.Nodup → Trials.hits hit i ps s = some s' → ∀ q, q ∈ ps → sym s' q ≠ sym s q := by
  intro ps
  induction ps with
  | nil => intro i s s' _ _ _ _ q hq; cases hq
  | cons p ps ih =>
    intro i s s' hp hg hn h q hq
    rw [List.nodup_cons] at hn
    obtain ⟨s1, h1, g1, q1⟩ := C.step i p s (hp p (by simp)) hg
    rw [Trials.hits, h1] at h
    have hp' : ∀ q ∈ ps, q < n := fun q hq => hp q (by simp [hq])
    have h : Trials.hits hit (i + 1) ps s1 = some s' := h
    rcases List.mem_cons.1 hq with rfl | hq
    · obtain ⟨s2, h2, _, q2⟩ := C.hits ps (i + 1) s1 hp' g1
      rw [h] at h2
      cases h2
      rw [q2 q hn.1]
      exact hf i q s s1 (hp q (by simp)) hg h1
    · have hne : q ≠ p := fun he => hn.1 (he ▸ hq)
      rw [← q1 q hne]
      exact ih (i + 1) s1 s' hp' g1 hn.2 h q hq

theorem asIndices_ok {M : Nat} : ∀ {l : List Nat}, (∀ p ∈ l, p < 2 ^ M - 1) → ∃ er, asIndices M l = some er ∧ er.map Fin.val = l := by
  intro l
  induction l with
  | nil => intro _; exact ⟨[], rfl, rfl⟩
  | cons p l ih =>
    intro h
    obtain ⟨er, h1, h2⟩ := ih (fun q hq => h q (by simp [hq]))
    have hp := h p (by simp)
    refine ⟨⟨p, hp⟩ :: er, ?_, by rw [List.map_cons, h2]⟩
    unfold asIndices at h1 ⊢
    rw [List.mapM_cons, h1, show RS.toIdx M (some p) = some ⟨p, hp⟩ from dif_pos hp]
    rfl

end Verif.Trials
