import Verif.Trials.Proof
import Verif.RS.Props26
import Verif.BCH.PropsExample
/- C72: the trials of the Reed-Solomon and BCH regression tests. -/
namespace Verif.Trials
open Verif.GF Verif.RS
open Verif.Cauchy (compareAll compareAll_ok as_pos)

variable {w M P NR FCR dl : Nat} {T : Tab}

/-! ### Reed-Solomon -/

theorem blk_getD {data parity : List (Val M)} (hd : data.length = dl) (hp : parity.length = NR) (q : Nat) :
    (blk data parity dl NR).getD q 0 = if q < dl then (data[q]?.map Val.v).getD 0 else (parity[q - dl]?.map Val.v).getD 0 := by
  unfold blk
  rw [List.take_of_length_le (by omega), List.take_of_length_le (by omega), List.getD_eq_getElem?_getD, List.getElem?_map]
  by_cases h : q < dl
  · rw [if_pos h, List.getElem?_append_left (by omega)]
  · rw [if_neg h, List.getElem?_append_right (by omega), hd]

theorem careful_symbol (val : Nat → Val M) : Careful (dl + NR) (hitSymbol dl val) (fun s => s.1.length = dl ∧ s.2.length = NR) (fun s q => (blk s.1 s.2 dl NR).getD q 0) := by
  refine ⟨fun i p s hp hg => ?_⟩
  obtain ⟨h1, h2⟩ := hg
  unfold hitSymbol
  by_cases h : p < dl
  · rw [if_pos h, wr_of_lt (by omega), sb]
    refine ⟨(s.1.set p (val i), s.2), rfl, ⟨by rw [List.length_set]; exact h1, h2⟩, fun q hq => ?_⟩
    dsimp only
    rw [blk_getD (by rw [List.length_set]; exact h1) h2, blk_getD h1 h2, List.getElem?_set_ne (by omega)]
  · rw [if_neg h, wr_of_lt (by omega), sb]
    refine ⟨(s.1, s.2.set (p - dl) (val i)), rfl, ⟨h1, by rw [List.length_set]; exact h2⟩, fun q hq => ?_⟩
    dsimp only
    rw [blk_getD h1 (by rw [List.length_set]; exact h2), blk_getD h1 h2]
    by_cases hq' : q < dl
    · rw [if_pos hq', if_pos hq']
    · rw [if_neg hq', if_neg hq', List.getElem?_set_ne (by omega)]

/-- The arguments of a trial. -/
structure Drawn (n NR cnt : Nat) (src : Nat → Nat) (errors erasures : List Nat) : Prop where
  positions : ∀ c, src c < n
  number : cnt ≤ NR
  errors : errors.length = NR
  erasures : erasures.length = NR - 2 * (cnt / 2)

theorem erased_of {m : Nat} {er : List (Fin m)} {l : List Nat} (h : er.map Fin.val = l) : erased er l.length = l.toFinset ∧ er.take l.length = er := by
  have hl : er.length = l.length := by rw [← h, List.length_map]
  have ht : er.take l.length = er := List.take_of_length_le (by omega)
  exact ⟨by unfold erased; rw [ht, h], ht⟩

/-- What is needed of the damage: the errors outside the erasures are few. -/
theorem few_errors {ps : List Nat} {count : Nat} (hl : ps.length = NR - count) (hc : 2 * count ≤ NR) {X : Finset Nat} (hX : X ⊆ ps.toFinset) :
    2 * (X \ (ps.drop count).toFinset).card + (NR - 2 * count) ≤ NR := by
  have h1 : X \ (ps.drop count).toFinset ⊆ (ps.take count).toFinset := by
    intro x hx
    rw [Finset.mem_sdiff] at hx
    have := hX hx.1
    rw [List.mem_toFinset, ← List.take_append_drop count ps, List.mem_append] at this
    rcases this with h | h
    · exact List.mem_toFinset.2 h
    · exact absurd (List.mem_toFinset.2 h) hx.2
  have h2 := Finset.card_le_card h1
  have h3 := (ps.take count).toFinset_card_le
  rw [List.length_take] at h3
  omega

theorem diffPos_subset {a b : List Nat} {ps : List Nat} (h : ∀ q, q ∉ ps → a.getD q 0 = b.getD q 0) : diffPos a b ⊆ ps.toFinset := by
  intro q hq
  unfold diffPos at hq
  rw [Finset.mem_filter] at hq
  rw [List.mem_toFinset]
  by_contra hc
  exact hq.2 (h q hc)

/-- **C72** A trial of the Reed-Solomon test whose drawing has come to an end passes, except exactly if the erasures and the symbols really changed are one of the pairs of positions
excluded in C26; then it fails. -/
theorem C72_rs (R : Ready w M P T) (hM : 1 < M) (u : Val M) (ui : Fin (2 ^ M - 1)) (p : Params M NR FCR dl) {gen : List (Fin (2 ^ M - 1))} {im : List (Val M)}
    (hgen : encInit (tableOps w M T u ui) NR FCR = some gen) (him : artin (tableOps w M T u ui) = some im) {src : Nat → Nat} {cnt : Nat} {errors erasures : List Nat}
    (D : Drawn (dl + NR) NR cnt src errors erasures) (val : Nat → Val M) {orig par : List (Val M)} (ho : orig.length = dl) (hp : par.length = NR) :
    ∃ parity, encode (tableOps w M T u ui) NR gen orig par dl = some parity ∧ parity.length = NR ∧
      ∀ fuel d er, damage w src fuel (hitSymbol dl val) NR (cnt / 2) (orig, parity) errors erasures = some (d, er) →
        (rsTrial w (tableOps w M T u ui) NR FCR gen im src fuel val cnt orig par errors erasures dl = some () ↔
          ¬ (Excluded P M (dl + NR) (er.toFinset ∪ diffPos (blk d.1 d.2 dl NR) (blk orig parity dl NR)) ∧ blk d.1 d.2 dl NR ≠ blk orig parity dl NR)) := by
  have hlen := p.len
  have hpos := p.pos
  have hw := R.hw
  have hc : 2 * (cnt / 2) ≤ NR := by have := D.number; omega
  obtain ⟨gen', hg, he⟩ := C22_encoder (NR := NR) (FCR := FCR) R hM u ui p.fcr p.nr (by omega)
  rw [hgen] at hg
  cases hg
  obtain ⟨parity, hq, h1, _, h3⟩ := he orig par dl p.pos p.len (by omega) (by omega)
  have hpl : parity.length = NR := by omega
  refine ⟨parity, hq, hpl, fun fuel d er hdam => ?_⟩
  have hpow : 2 ^ M ≤ 2 ^ w := Nat.pow_le_pow_right (by norm_num) hw
  obtain ⟨ps, g1, g2, g3, g4, rfl⟩ := damage_some D.positions (by omega) hc D.erasures hdam
  obtain ⟨s', k1, ⟨k2, k3⟩, k4⟩ := (careful_symbol (NR := NR) val).hits ps 0 (orig, parity) g3 ⟨ho, hpl⟩
  rw [g4] at k1
  cases k1
  have hsub := diffPos_subset k4
  have hdl : (ps.drop (cnt / 2)).length = NR - 2 * (cnt / 2) := by rw [List.length_drop, g1]; omega
  obtain ⟨er, e1, e2⟩ := asIndices_ok (M := M) (l := ps.drop (cnt / 2)) (fun q hq => by have := g3 q (List.mem_of_mem_drop hq); omega)
  obtain ⟨e3, e4⟩ := erased_of e2
  rw [hdl] at e3 e4
  have hnd : er.Nodup := List.Nodup.of_map Fin.val (by rw [e2]; exact g2.sublist (List.drop_sublist _ _))
  have call : Call (tableOps w M T u ui) NR dl im d.1 d.2 er (NR - 2 * (cnt / 2)) := by
    refine ⟨him, by omega, by omega, by omega, ?_, by rw [e4]; exact hnd, fun e he => ?_⟩
    · have : er.length = (er.map Fin.val).length := (List.length_map _).symm
      rw [this, e2, hdl]
    · rw [e4] at he
      have : e.1 ∈ er.map Fin.val := List.mem_map.2 ⟨e, he, rfl⟩
      rw [e2] at this
      exact g3 _ (List.mem_of_mem_drop this)
  have hcap := few_errors g1 hc hsub
  rw [← e3] at hcap
  have hun : ∀ A B : Finset Nat, A ∪ (B \ A) = A ∪ B := fun A B => by ext x; simp
  unfold rsTrial
  rw [hq, sb, hdam, sb]
  dsimp only
  rw [e1, sb]
  by_cases hx : Excluded P M (dl + NR) ((ps.drop (cnt / 2)).toFinset ∪ diffPos (blk d.1 d.2 dl NR) (blk orig parity dl NR)) ∧ blk d.1 d.2 dl NR ≠ blk orig parity dl NR
  · obtain ⟨r, hr, hret⟩ := C26_rejected R hM u ui p call (c := blk orig parity dl NR) (blk_length (by omega) (by omega))
      (by
        intro x hx
        unfold blk at hx
        rw [List.mem_map] at hx
        obtain ⟨v, _, rfl⟩ := hx
        exact v.lt) h3 hcap hx.2 (by rw [hun, e3]; exact hx.1)
    rw [hr, sb, hret]
    constructor
    · intro h; cases h
    · intro h; exact absurd hx h
  · refine ⟨fun _ => hx, fun _ => ?_⟩
    by_cases heq : blk d.1 d.2 dl NR = blk orig parity dl NR
    · have hcode : Codeword P NR FCR (blk d.1 d.2 dl NR) := by rw [heq]; exact h3
      obtain ⟨r, hr, _, c2, _, _, _, _, _, c8⟩ := C25_contract R hM u ui p call
      have h0 := c8 hcode
      obtain ⟨d1, d2⟩ := c2 (by omega)
      rw [hr, sb, as_pos (by omega), sb, d1, d2]
      unfold blk at heq
      rw [List.take_of_length_le (by omega), List.take_of_length_le (by omega), List.take_of_length_le (by omega), List.take_of_length_le (by omega), List.map_append, List.map_append] at heq
      have q1 : d.1 = orig := List.map_injective_iff.2 (fun a b h => Val.ext' h) (List.append_inj_left heq (by simp; omega))
      have q2 : d.2 = parity := List.map_injective_iff.2 (fun a b h => Val.ext' h) (List.append_inj_right heq (by simp; omega))
      rw [q1, q2, compareAll_ok rfl (by omega) (by omega), sb, compareAll_ok rfl (by omega) (by omega)]
    · obtain ⟨r, hr, r1, r2, r3⟩ := C24_roundtrip R hM u ui p hgen ho hp hq k2 k3 call hcap (by
        rw [hun, e3]
        exact fun he => hx ⟨he, heq⟩)
      rw [hr, sb, as_pos (by omega), sb, r1, r2, compareAll_ok rfl (by omega) (by omega), sb, compareAll_ok rfl (by omega) (by omega)]

/-- Three positions or more are never excluded. -/
theorem not_excluded_of_card {n : Nat} {A : Finset Nat} (h : 3 ≤ A.card) : ¬ Excluded P M n A := by
  rintro ⟨a, b, _, rfl, _⟩
  have := Finset.card_le_two (a := a) (b := b)
  omega

/-- **C72** If every position is drawn again and again, the drawing comes to an end, and the trial passes: always in the fields that C26 shows to be unaffected, among them those of the first two
parts of the test, and in every field if there are three erasures. -/
theorem C72_rs_passes (R : Ready w M P T) (hM : 1 < M) (u : Val M) (ui : Fin (2 ^ M - 1)) (p : Params M NR FCR dl) {gen : List (Fin (2 ^ M - 1))} {im : List (Val M)}
    (hgen : encInit (tableOps w M T u ui) NR FCR = some gen) (him : artin (tableOps w M T u ui) = some im) {src : Nat → Nat} {cnt : Nat} {errors erasures : List Nat}
    (D : Drawn (dl + NR) NR cnt src errors erasures) (hfair : Fair (dl + NR) src) (val : Nat → Val M) {orig par : List (Val M)} (ho : orig.length = dl) (hp : par.length = NR)
    (hok : ((M = 4 ∧ P = 0b10011) ∨ (M = 7 ∧ P = 0b10001001) ∨ (M = 8 ∧ P = 0b100011101) ∨ (M = 14 ∧ P = 0b100000000101011)) ∨ 3 ≤ NR - 2 * (cnt / 2)) :
    ∃ F, ∀ fuel, F ≤ fuel → rsTrial w (tableOps w M T u ui) NR FCR gen im src fuel val cnt orig par errors erasures dl = some () := by
  have hlen := p.len
  have hpos := p.pos
  have hQ : 0 < 2 ^ M := by positivity
  have hc : 2 * (cnt / 2) ≤ NR := by have := D.number; omega
  have hpow : 2 ^ M ≤ 2 ^ w := Nat.pow_le_pow_right (by norm_num) R.hw
  obtain ⟨parity, h1, h2, h3⟩ := C72_rs R hM u ui p hgen him D val ho hp
  have C := careful_symbol (dl := dl) (NR := NR) val
  obtain ⟨F, ⟨d, er⟩, hF⟩ := damage_ends (w := w) D.positions hfair (by omega) (hit := hitSymbol dl val) (d := (orig, parity)) hc (by omega) D.errors D.erasures (fun ps q e hps he hq => by
    obtain ⟨e', k1, k2, _⟩ := C.hits ps 0 (orig, parity) hps ⟨ho, h2⟩
    rw [he] at k1
    cases k1
    obtain ⟨s', k3, _⟩ := C.step ps.length q e hq k2
    exact ⟨s', k3⟩)
  refine ⟨F, fun fuel hf => (h3 fuel d er (hF fuel hf)).2 ?_⟩
  rintro ⟨hex, _⟩
  obtain ⟨ps, g1, g2, g3, g4, rfl⟩ := damage_some D.positions (by omega) hc D.erasures (hF fuel hf)
  rcases hok with hok | hok
  · refine C26_unaffected p.len ?_ R hok hex
    intro q hq
    rcases Finset.mem_union.1 hq with hq | hq
    · exact g3 q (List.mem_of_mem_drop (List.mem_toFinset.1 hq))
    · obtain ⟨s', k1, ⟨k2, k3⟩, k4⟩ := C.hits ps 0 (orig, parity) g3 ⟨ho, h2⟩
      rw [g4] at k1
      cases k1
      exact g3 q (List.mem_toFinset.1 (diffPos_subset k4 hq))
  · refine not_excluded_of_card ?_ hex
    refine le_trans ?_ (Finset.card_le_card Finset.subset_union_left)
    rw [List.toFinset_card_of_nodup (g2.sublist (List.drop_sublist _ _)), List.length_drop, g1]
    omega

/-! #### A trial that fails -/

/-- Drawing the elements of a list without repetitions in turn. -/
theorem damage_list {D : Type} {w n : Nat} {ps : List Nat} (hnd : ps.Nodup) (hps : ∀ p ∈ ps, p < n) (hn : n ≤ 2 ^ w) {hit : Nat → Nat → D → Option D} {NR : Nat} {d d' : D}
    {errors : List Nat} (hl : 2 * ps.length = NR) (herr : errors.length = NR) (hd : hits hit 0 ps d = some d') :
    damage w (fun c => ps.getD c 0) (NR + 1) hit NR ps.length d errors [] = some (d', []) := by
  have key : ∀ k, k ≤ ps.length → ∃ s, forUp 0 k (d, errors, 0) (fun i s => do
      let (_, s) ← strike w (fun c => ps.getD c 0) (NR + 1) hit i s
      return s) = some s ∧ s.2.2 = k ∧ s.2.1.length = NR ∧ (∀ j, j < k → s.2.1[j]? = ps[j]?) ∧ hits hit 0 (ps.take k) d = some s.1 := by
    intro k
    induction k with
    | zero => intro _; exact ⟨_, rfl, rfl, herr, fun j hj => absurd hj (by omega), rfl⟩
    | succ k ih =>
      intro hk
      obtain ⟨⟨e, errs, c⟩, h1, h2, h3, h4, h5⟩ := ih (by omega)
      dsimp only at h2 h3 h4 h5
      subst h2
      have hkl : c < ps.length := by omega
      have hg : ps.getD c 0 = ps[c] := (getElem_eq_getD hkl 0).symm
      have hfr : fresh (fun c => ps.getD c 0) errs c (NR + 1) (ps.getD c 0) 0 (c + 1) = some (ps.getD c 0, c + 1) := by
        refine fresh_le (fresh_good (by omega) (fun j hj he => ?_) c 0 (by omega) (by omega)) (by omega)
        rw [h4 j hj, hg, List.getElem?_eq_getElem (by omega)] at he
        have := (List.Nodup.getElem_inj_iff hnd).1 (Option.some.inj he)
        omega
      have hlt := hps ps[c] (List.getElem_mem _)
      have htake : ps.take (c + 1) = ps.take c ++ [ps[c]] := by rw [List.take_succ_eq_append_getElem hkl]
      have hall : ∃ e', hit c ps[c] e = some e' := by
        have : ps = ps.take c ++ [ps[c]] ++ ps.drop (c + 1) := by rw [← htake, List.take_append_drop]
        rw [this] at hd
        have happ : ∀ (a b : List Nat) (i : Nat) (x : D), hits hit i (a ++ b) x = (hits hit i a x).bind (hits hit (i + a.length) b) := by
          intro a
          induction a with
          | nil => intro b i x; rfl
          | cons q a iha =>
            intro b i x
            simp only [List.cons_append, hits]
            cases hit i q x with
            | none => rfl
            | some y =>
              show hits hit (i + 1) (a ++ b) y = (hits hit (i + 1) a y).bind _
              rw [iha, List.length_cons, show i + 1 + a.length = i + (a.length + 1) by omega]
        rw [happ, hits_snoc, h5] at hd
        cases he : hit (0 + (ps.take c).length) ps[c] e with
        | none =>
          rw [show (Option.some e).bind (hit (0 + (ps.take c).length) ps[c]) = hit (0 + (ps.take c).length) ps[c] e from rfl, he] at hd
          cases hd
        | some e' => exact ⟨e', by rw [← he, Nat.zero_add, List.length_take, Nat.min_eq_left (by omega)]⟩
      obtain ⟨e', he'⟩ := hall
      refine ⟨(e', errs.set c (ps[c]), c + 1), ?_, rfl, by rw [List.length_set]; exact h3, fun j hj => ?_, ?_⟩
      · rw [forUp_snoc, h1, sb]
        unfold strike
        dsimp only
        rw [hfr, sb]
        dsimp only
        rw [wr_of_lt (by omega), sb, hg, he', sb, Nat.mod_eq_of_lt (by omega)]
        rfl
      · dsimp only
        by_cases hjc : j < c
        · rw [List.getElem?_set_ne (by omega), h4 j hjc]
        · obtain rfl : j = c := by omega
          rw [List.getElem?_set_self (by omega), List.getElem?_eq_getElem hkl]
      · dsimp only
        rw [htake, hits_snoc, h5, Nat.zero_add, List.length_take, Nat.min_eq_left (by omega)]
        exact he'
  obtain ⟨s, h1, _, _, _, h5⟩ := key _ le_rfl
  rw [List.take_length, hd] at h5
  unfold damage
  rw [h1, sb, show NR - 2 * ps.length = 0 by omega, show (forUp 0 0 (s, ([] : List Nat)) _) = some (s, []) from rfl, sb]
  show some (s.1, []) = some (d', [])
  rw [← Option.some.inj h5]

/-- The symbols that were hit hold the values that were written. -/
theorem hits_symbol (val : Nat → Val M) : ∀ (ps : List Nat) (i : Nat) (s s' : List (Val M) × List (Val M)), (∀ p ∈ ps, p < dl + NR) → ps.Nodup → s.1.length = dl → s.2.length = NR →
    hits (hitSymbol dl val) i ps s = some s' → ∀ k (hk : k < ps.length), (blk s'.1 s'.2 dl NR).getD ps[k] 0 = (val (i + k)).v := by
  intro ps
  induction ps with
  | nil => intro i s s' _ _ _ _ _ k hk; exact absurd hk (by simp)
  | cons p ps ih =>
    intro i s s' hp hn h1 h2 h k hk
    rw [List.nodup_cons] at hn
    have C := careful_symbol (dl := dl) (NR := NR) val
    obtain ⟨s1, e1, ⟨e2, e3⟩, e4⟩ := C.step i p s (hp p (by simp)) ⟨h1, h2⟩
    rw [hits, e1] at h
    have h : hits (hitSymbol dl val) (i + 1) ps s1 = some s' := h
    have hp' : ∀ q ∈ ps, q < dl + NR := fun q hq => hp q (by simp [hq])
    cases k with
    | zero =>
      obtain ⟨s2, f1, _, f3⟩ := C.hits ps (i + 1) s1 hp' ⟨e2, e3⟩
      rw [h] at f1
      cases f1
      rw [List.getElem_cons_zero, f3 p hn.1]
      have hpp := hp p (by simp)
      unfold hitSymbol at e1
      by_cases hq : p < dl
      · rw [if_pos hq, wr_of_lt (by omega), sb] at e1
        cases e1
        dsimp only at e2 e3 ⊢
        rw [blk_getD e2 e3, if_pos hq, List.getElem?_set_self (by omega)]; rfl
      · rw [if_neg hq, wr_of_lt (by omega), sb] at e1
        cases e1
        dsimp only at e2 e3 ⊢
        rw [blk_getD e2 e3, if_neg hq, List.getElem?_set_self (by omega)]; rfl
    | succ k =>
      rw [List.length_cons] at hk
      rw [List.getElem_cons_succ, ih (i + 1) s1 s' hp' hn.2 e2 e3 h k (by omega), show i + 1 + k = i + (k + 1) by omega]

/-- A codeword of zeros, hit at `ps`: ones are written at the first two positions, zeros at the others. -/
theorem zeros_fail (R : Ready w M P T) (hM : 1 < M) (u : Val M) (ui : Fin (2 ^ M - 1)) (p : Params M NR FCR dl) {gen : List (Fin (2 ^ M - 1))} {im : List (Val M)}
    (hgen : encInit (tableOps w M T u ui) NR FCR = some gen) (him : artin (tableOps w M T u ui) = some im) {zero one : Val M} (hz : zero.v = 0) (ho : one.v = 1)
    {a b : Nat} {rest : List Nat} (hpn : (a :: b :: rest).Nodup) (hpi : ∀ x ∈ a :: b :: rest, x < dl + NR) (hl : 2 * (a :: b :: rest).length = NR) (hloc : Excluded P M (dl + NR) {a, b})
    {src : Nat → Nat} (hsrc : src = fun c => (a :: b :: rest).getD c 0) {val : Nat → Val M} (hval : val = fun k => if k < 2 then one else zero) {errors : List Nat} (herr : errors.length = NR) {orig par : List (Val M)} (horig : orig = List.replicate dl zero) (hpar : par = List.replicate NR zero) :
    ∃ d r, encode (tableOps w M T u ui) NR gen orig par dl = some par ∧ damage w src (NR + 1) (hitSymbol dl val) NR (NR / 2) (orig, par) errors [] = some (d, []) ∧
      decode (tableOps w M T u ui) NR FCR im d.1 d.2 [] 0 dl = some r ∧ r.ret = -1 ∧
      rsTrial w (tableOps w M T u ui) NR FCR gen im src (NR + 1) val NR orig par errors [] dl = none := by
  have hlen := p.len
  have hpos := p.pos
  have hQ : 0 < 2 ^ M := by positivity
  have hpow : 2 ^ M ≤ 2 ^ w := Nat.pow_le_pow_right (by norm_num) R.hw
  have hol : orig.length = dl := by rw [horig]; exact List.length_replicate ..
  have hpal : par.length = NR := by rw [hpar]; exact List.length_replicate ..
  have hzb : ∀ q, (blk orig par dl NR).getD q 0 = 0 := by
    intro q
    rw [blk_getD hol hpal, horig, hpar]
    have : ∀ n i : Nat, ((List.replicate n zero)[i]?.map Val.v).getD 0 = 0 := by
      intro n i
      rw [List.getElem?_replicate]
      by_cases h : i < n
      · rw [if_pos h]; exact hz
      · rw [if_neg h]; rfl
    rw [this, this, ite_self]
  have hcode : Codeword P NR FCR (blk orig par dl NR) := by
    intro i _
    unfold polyAt
    refine Finset.sum_eq_zero fun j _ => ?_
    rw [hzb j, toR_zero, zero_mul]
  have henc := (C23_systematic R hM u ui p hgen orig par (by omega) (by omega)).1 hcode
  obtain ⟨s', k1, ⟨k2, k3⟩, k4⟩ := (careful_symbol (dl := dl) (NR := NR) val).hits (a :: b :: rest) 0 (orig, par) hpi ⟨hol, hpal⟩
  have hdam := damage_list (w := w) hpn hpi (by omega) hl herr k1
  rw [← hsrc, show (a :: b :: rest).length = NR / 2 by omega] at hdam
  have hval' := hits_symbol (NR := NR) val (a :: b :: rest) 0 (orig, par) s' hpi hpn hol hpal k1
  have hbl : (blk s'.1 s'.2 dl NR).length = dl + NR := blk_length (by omega) (by omega)
  have hdiff : diffPos (blk s'.1 s'.2 dl NR) (blk orig par dl NR) = {a, b} := by
    ext q
    unfold diffPos
    rw [Finset.mem_filter, Finset.mem_range, hbl, hzb q, Finset.mem_insert, Finset.mem_singleton]
    constructor
    · rintro ⟨_, hne⟩
      by_cases hq : q ∈ a :: b :: rest
      · obtain ⟨k, hk, rfl⟩ := List.mem_iff_getElem.1 hq
        rw [hval' k hk, Nat.zero_add, hval] at hne
        have hk2 : k < 2 := by
          by_contra hc
          exact hne (by dsimp only; rw [if_neg hc, hz])
        have : k = 0 ∨ k = 1 := by omega
        rcases this with rfl | rfl
        · left; rfl
        · right; rfl
      · exact absurd ((k4 q hq).trans (hzb q)) hne
    · intro h
      have ha' := hval' 0 (by simp)
      have hb' := hval' 1 (by simp)
      rw [hval] at ha' hb'
      rcases h with rfl | rfl
      · exact ⟨hpi q (by simp), fun h => by
          have ha' : (blk s'.1 s'.2 dl NR).getD q 0 = one.v := ha'
          omega⟩
      · exact ⟨hpi q (by simp), fun h => by
          have hb' : (blk s'.1 s'.2 dl NR).getD q 0 = one.v := hb'
          omega⟩
  have her : erased ([] : List (Fin (2 ^ M - 1))) 0 = ∅ := rfl
  have call : Call (tableOps w M T u ui) NR dl im s'.1 s'.2 ([] : List (Fin (2 ^ M - 1))) 0 :=
    ⟨him, by omega, by omega, by omega, le_rfl, by simp, by simp⟩
  have h4 : 4 ≤ NR := by rw [List.length_cons, List.length_cons] at hl; omega
  have hcard := Finset.card_le_two (a := a) (b := b)
  obtain ⟨r, hr, hret⟩ := C26_rejected R hM u ui p call (c := blk orig par dl NR) (blk_length (by omega) (by omega))
    (by
      intro x hx
      unfold blk at hx
      rw [List.mem_map] at hx
      obtain ⟨v, _, rfl⟩ := hx
      exact v.lt) hcode (by rw [her, Finset.sdiff_empty, hdiff]; omega)
    (fun he => by
      have : a ∈ diffPos (blk s'.1 s'.2 dl NR) (blk orig par dl NR) := by rw [hdiff]; simp
      rw [he] at this
      unfold diffPos at this
      rw [Finset.mem_filter] at this
      exact this.2 rfl) (by rw [her, Finset.sdiff_empty, Finset.empty_union, hdiff]; exact hloc)
  refine ⟨s', r, henc, hdam, hr, hret, ?_⟩
  unfold rsTrial
  rw [henc, sb, hdam, sb]
  dsimp only
  rw [show asIndices M [] = some [] from rfl, sb, show NR - 2 * (NR / 2) = 0 by omega, hr, sb, hret]
  rfl

/-- Thirty more positions. -/
theorem pad_pair {a b n : Nat} (hab : a ≠ b) (hn : 40 ≤ n) (ha : a < n) (hb : b < n) : ∃ rest : List Nat, (a :: b :: rest).Nodup ∧ (a :: b :: rest).length = 32 ∧ ∀ x ∈ a :: b :: rest, x < n := by
  have hlen : 30 ≤ ((List.range 40).filter (fun x => x ≠ a ∧ x ≠ b)).length := by
    have h1 : (Finset.range 40 \ {a, b}).card = ((List.range 40).filter (fun x => x ≠ a ∧ x ≠ b)).length := by
      rw [← List.toFinset_card_of_nodup (List.nodup_range.filter _)]
      congr 1
      ext x
      simp
    have h2 := Finset.le_card_sdiff {a, b} (Finset.range 40)
    have h3 := Finset.card_le_two (a := a) (b := b)
    rw [Finset.card_range] at h2
    omega
  have hrm : ∀ x ∈ ((List.range 40).filter (fun x => x ≠ a ∧ x ≠ b)).take 30, x < 40 ∧ x ≠ a ∧ x ≠ b := by
    intro x hx
    have := List.mem_of_mem_take hx
    rw [List.mem_filter, List.mem_range] at this
    simpa using this
  refine ⟨((List.range 40).filter (fun x => x ≠ a ∧ x ≠ b)).take 30, ?_, ?_, ?_⟩
  · rw [List.nodup_cons, List.nodup_cons]
    refine ⟨?_, fun h => (hrm b h).2.2 rfl, (List.nodup_range.filter _).sublist (List.take_sublist _ _)⟩
    rw [List.mem_cons, not_or]
    exact ⟨hab, fun h => (hrm a h).2.1 rfl⟩
  · rw [List.length_cons, List.length_cons, List.length_take]; omega
  · intro x hx
    rw [List.mem_cons, List.mem_cons] at hx
    rcases hx with rfl | rfl | hx
    · exact ha
    · exact hb
    · have := hrm x hx; omega

/-- **C72** The third part of the Reed-Solomon test, `ReedSolomonEncoder<64, 1, GaloisField<16, 0b10001000000001011, uint16_t>>`, can fail: there are numbers its distributions may give
(32 errors, 30 of which write the value that is already there) for which the decoder returns -1 and `assert(ret >= 0)` does not hold. -/
theorem C72_rs_can_fail : ∃ T, Ready 16 16 0b10001000000001011 T ∧
    ∀ (u : Val 16) (ui : Fin (2 ^ 16 - 1)) (gen : List (Fin (2 ^ 16 - 1))) (im : List (Val 16)), encInit (tableOps 16 16 T u ui) 64 1 = some gen → artin (tableOps 16 16 T u ui) = some im →
      ∃ (orig par parity : List (Val 16)) (src : Nat → Nat) (val : Nat → Val 16) (errors : List Nat) (d : List (Val 16) × List (Val 16)) (r : DecRes (Val 16) (Fin (2 ^ 16 - 1))),
        orig.length = 65471 ∧ par.length = 64 ∧ Drawn 65535 64 64 src errors [] ∧ encode (tableOps 16 16 T u ui) 64 gen orig par 65471 = some parity ∧
        damage 16 src 65 (hitSymbol 65471 val) 64 32 (orig, parity) errors [] = some (d, []) ∧
        decode (tableOps 16 16 T u ui) 64 1 im d.1 d.2 [] 0 65471 = some r ∧ r.ret = -1 ∧
        rsTrial 16 (tableOps 16 16 T u ui) 64 1 gen im src 65 val 64 orig par errors [] 65471 = none := by
  obtain ⟨T, R⟩ := C18_tests_build.2.2.2.2.2.1
  obtain ⟨z, hz⟩ := C26_affected.2.1
  obtain ⟨A, hA, hex⟩ := (C26_excluded_iff R (by norm_num)).2 ⟨z, hz⟩
  refine ⟨T, R, fun u ui gen im hgen him => ?_⟩
  have hex' := hex
  obtain ⟨a, b, hab, rfl, hloc⟩ := hex
  have ha := hA a (by simp)
  have hb := hA b (by simp)
  have p : Params 16 64 1 65471 := ⟨by norm_num, by norm_num, by norm_num, by norm_num⟩
  obtain ⟨rest, hpn, hpl, hpi⟩ := pad_pair hab (n := 65535) (by norm_num) ha hb
  obtain ⟨zero, hzero⟩ : ∃ v : Val 16, v.v = 0 := ⟨⟨0, by norm_num⟩, rfl⟩
  obtain ⟨one, hone⟩ : ∃ v : Val 16, v.v = 1 := ⟨⟨1, by norm_num⟩, rfl⟩
  obtain ⟨orig, horig⟩ : ∃ l, l = List.replicate 65471 zero := ⟨_, rfl⟩
  obtain ⟨par, hpar⟩ : ∃ l, l = List.replicate 64 zero := ⟨_, rfl⟩
  obtain ⟨d, r, h1, h2, h3, h4, h5⟩ := zeros_fail R (by norm_num) u ui p hgen him hzero hone hpn hpi (by omega) hex' rfl rfl (errors := List.replicate 64 0) (List.length_replicate ..)
    horig hpar
  refine ⟨orig, par, par, fun c => (a :: b :: rest).getD c 0, fun k => if k < 2 then one else zero, List.replicate 64 0, d, r, by rw [horig]; exact List.length_replicate .., by rw [hpar]; exact List.length_replicate .., ?_, h1, h2, h3, h4, h5⟩
  refine ⟨fun c => ?_, le_rfl, List.length_replicate .., rfl⟩
  by_cases hc : c < (a :: b :: rest).length
  · show (a :: b :: rest).getD c 0 < 65535
    rw [← getElem_eq_getD hc 0]; exact hpi _ (List.getElem_mem _)
  · show (a :: b :: rest).getD c 0 < 65535
    rw [List.getD_eq_default _ _ (by omega)]; norm_num

end Verif.Trials
