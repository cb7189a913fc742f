import Verif.BCH.Access
import Verif.RS.Props
/- The BCH decoders over the table-driven field. -/
namespace Verif.BCH
open Verif.RS Verif.GF Finset Polynomial

variable {w M P : Nat} {T : Tab}

/-- All facts about a call, with the block before and after as lists of numbers. -/
structure Facts (P M NR FCR n : Nat) (E : Finset Nat) (b b' : List Nat) (ret : Int) : Prop where
  range : ret = -1 ∨ (0 ≤ ret ∧ ret ≤ NR)
  count : 0 ≤ ret → ret = diff b b'
  clean : Codeword P NR FCR b → ret = 0
  correct : ∀ c : List Nat, c.length = n → (∀ x ∈ c, x ≤ 1) → Codeword P NR FCR c →
    2 * (diffPos b c \ E).card + E.card ≤ NR → ¬ Excluded P M n (E ∪ (diffPos b c \ E)) →
    b' = c ∧ ret = diff b c
  excluded : ∀ c : List Nat, c.length = n → (∀ x ∈ c, x ≤ 1) → Codeword P NR FCR c →
    2 * (diffPos b c \ E).card + E.card ≤ NR → Excluded P M n (E ∪ (diffPos b c \ E)) → b ≠ c → ret = -1
  valid : ¬ Codeword P NR FCR b → 0 ≤ ret → ∃ (A : Finset Nat) (L : Nat), (∀ j ∈ A, j < n) ∧ E ⊆ A ∧
    diffPos b b' ⊆ A ∧ A.card ≤ L ∧ A.card ≤ NR ∧
    Shortest P NR n E (fun i => polyAt P b (xR P ^ (FCR + i))) L ∧
    (Codeword P NR FCR b' ↔ A.card = L)

theorem num_add_bits {R : Ready w M P T} {hM : 1 < M} {x y : Val M} (hx : x.v ≤ 1) (hy : y.v ≤ 1) :
    letI := valField R
    (valGf R hM).num (x + y) ≤ 1 := by
  letI := valField R
  rw [(valGf R hM).num_add]
  show x.v ^^^ y.v ≤ 1
  have h1 : x.v = 0 ∨ x.v = 1 := by omega
  have h2 : y.v = 0 ∨ y.v = 1 := by omega
  rcases h1 with h1 | h1 <;> rcases h2 with h2 | h2 <;> rw [h1, h2] <;> decide

theorem core (R : Ready w M P T) (hM : 1 < M) (u : Val M) (ui : Fin (2 ^ M - 1)) {σ : Type} {A : Access σ (Val M)}
    {NR FCR K NP dl count : Nat} {Inv : σ → (Nat → Val M) → Prop} (hA : letI := valField R; AccOK (valGf R hM) A dl NP Inv)
    {s : σ} {W : Nat → Val M} (hs : Inv s W) (hW1 : ∀ j, j < dl + NP → (W j).v ≤ 1)
    {im : List (Val M)} {er : List (Fin (2 ^ M - 1))}
    (him : artin (tableOps w M T u ui) = some im) (hF : FCR < 2 ^ M - 1) (hNR : 0 < NR) (hNRN : NR < 2 ^ M - 1)
    (hdl : 0 < dl) (hdlK : dl ≤ K) (hK : K + NP = 2 ^ M - 1) (hcount : count ≤ NR) (her : count ≤ er.length)
    (hnd : (er.take count).Nodup) (hin : ∀ e ∈ er.take count, e.1 < dl + NP)
    {b : List Nat} (hbl : b.length = dl + NP) (hb : ∀ j, j < dl + NP → b.getD j 0 = (W j).v) :
    ∃ r, decode (tableOps w M T u ui) A NR FCR K NP im s er count dl = some r ∧ r.erasures.length = er.length ∧
      (r.ret ≤ 0 → r.buf = s) ∧ ∃ W', Inv r.buf W' ∧ (∀ j, j < dl + NP → (W' j).v ≤ 1) ∧
      ∀ b' : List Nat, b'.length = dl + NP → (∀ j, j < dl + NP → b'.getD j 0 = (W' j).v) →
        Facts P M NR FCR (dl + NP) (erased er count) b b' r.ret := by
  letI := valField R
  rw [tableOps_eq R hM] at him ⊢
  have hI : Imap (valGf R hM) im := by
    obtain ⟨im', h, hI⟩ := artin_ok (valGf R hM) u ui
    have h' := h.symm.trans him
    cases h'
    exact hI
  obtain ⟨r, hr, hre, hr0, V, vret, hsem, hV⟩ := decode_ok (valGf R hM) u ui (er := er) (count := count) (FCR := FCR) hA hs hI
    hF hNR hNRN hdl hdlK hK hcount her (by
      unfold posOf
      exact hnd.map (fun a b h => Fin.ext h)) (by
      intro q hq
      unfold posOf at hq
      rw [List.mem_map] at hq
      obtain ⟨e, he, rfl⟩ := hq
      exact hin e he)
  have hE : (posOf (valGf R hM) er count).toFinset = erased er count := rfl
  rw [hE] at hsem
  refine ⟨r, hr, hre, hr0, ?_⟩
  -- the block after the call
  obtain ⟨W', hW', hW'1, hcase⟩ : ∃ W', Inv r.buf W' ∧ (∀ j, j < dl + NP → (W' j).v ≤ 1) ∧
      ((r.ret = -1 ∧ W' = W) ∨ (r.ret ≠ -1 ∧ r.ret = vret ∧ ∀ j, j < dl + NP → W' j = V j)) := by
    by_cases hneg : r.ret = -1
    · refine ⟨W, ?_, hW1, Or.inl ⟨hneg, rfl⟩⟩
      rw [hr0 (by omega)]; exact hs
    · rcases hsem.cases with ⟨h1, h2⟩ | ⟨h1, _⟩
      · refine ⟨V, hV hneg, ?_, Or.inr ⟨hneg, h1, fun _ _ => rfl⟩⟩
        intro j hj
        have h3 := num_add_bits (R := R) (hM := hM) (h2 j hj) (hW1 j hj)
        rw [add_assoc, (valGf R hM).add_self, add_zero] at h3
        exact h3
      · exact absurd h1 hneg
  refine ⟨W', hW', hW'1, ?_⟩
  intro b' hbl' hb'
  have hn : dl + NP ≤ 2 ^ M - 1 := by omega
  have hbcw : Cw (valGf R hM) NR FCR (dl + NP) W ↔ Codeword P NR FCR b := by
    rw [← hbl]; exact cw_iff R hM (fun j hj => hb j (by omega))
  have hlt : ∀ q ∈ erased er count, q < dl + NP := erased_lt hin
  have hdiff : ∀ (c : List Nat) (C : Nat → Val M), c.length = dl + NP → (∀ j, j < dl + NP → c.getD j 0 = (C j).v) →
      ∀ j, j ∈ diffPos b c ↔ j < dl + NP ∧ C j ≠ W j := by
    intro c C hcl hC j
    rw [diffPos, mem_filter, mem_range, hbl]
    refine and_congr_right fun hj => ?_
    rw [hb j hj, hC j hj]
    exact ⟨fun h1 h2 => h1 (by rw [h2]), fun h1 h2 => h1 (Val.ext' h2.symm)⟩
  have hlift : ∀ c : List Nat, c.length = dl + NP → (∀ x ∈ c, x ≤ 1) → Codeword P NR FCR c →
      ∃ C : Nat → Val M, (∀ j, j < dl + NP → c.getD j 0 = (C j).v) ∧ (∀ j, j < dl + NP → (C j).v ≤ 1) ∧
        Cw (valGf R hM) NR FCR (dl + NP) C ∧
        (∀ j, j ∈ diffPos b c \ erased er count ↔ j < dl + NP ∧ j ∉ erased er count ∧ W j ≠ C j) := by
    intro c hcl hcv hc
    obtain ⟨C, hC⟩ := lift_block (M := M) (b := c) (fun x hx => by
      have h4 := Nat.pow_le_pow_right (n := 2) (by norm_num) (show 2 ≤ M by omega)
      have := hcv x hx; omega)
    have hC' : ∀ j, j < dl + NP → c.getD j 0 = (C j).v := fun j hj => hC j (by omega)
    refine ⟨C, hC', ?_, ?_, ?_⟩
    · intro j hj
      rw [← hC' j hj, List.getD_eq_getElem _ _ (by omega)]
      exact hcv _ (List.getElem_mem _)
    · rw [← hcl]; exact (cw_iff R hM hC).2 hc
    · intro j
      rw [mem_sdiff, hdiff c C hcl hC' j]
      constructor
      · rintro ⟨⟨h1, h2⟩, h3⟩; exact ⟨h1, h3, h2.symm⟩
      · rintro ⟨h1, h2, h3⟩; exact ⟨⟨h1, h3.symm⟩, h2⟩
  have hElt : ∀ c, ∀ q ∈ erased er count ∪ (diffPos b c \ erased er count), q < dl + NP := by
    intro c q hq
    rcases Finset.mem_union.1 hq with hq | hq
    · exact hlt q hq
    · have := (mem_sdiff.1 hq).1
      rw [diffPos, mem_filter, mem_range] at this
      omega
  have hcnt : 0 ≤ r.ret → r.ret = diff b b' := by
    intro h0
    obtain ⟨hneg, h1, h2⟩ := hcase.resolve_left (fun h => by omega)
    rw [h1]
    refine hsem.dec.count (by omega) (diffPos b b') ?_
    intro j
    rw [hdiff b' W' hbl' hb' j]
    exact and_congr_right fun hj => by rw [h2 j hj]
  constructor
  · rcases hcase with ⟨h1, _⟩ | ⟨_, h1, _⟩
    · exact Or.inl h1
    · rw [h1]; exact hsem.dec.range
  · exact hcnt
  · intro hc
    have h0 := hsem.dec.clean (hbcw.2 hc)
    rcases hsem.cases with ⟨h1, _⟩ | ⟨h1, j, hj, h2⟩
    · rw [h1, h0]
    · exfalso
      have h3 := hsem.dec.count (by omega) ((range (dl + NP)).filter fun j => V j ≠ W j) (by
        intro j; rw [mem_filter, mem_range])
      rw [h0] at h3
      have h4 : ((range (dl + NP)).filter fun j => V j ≠ W j) = ∅ := Finset.card_eq_zero.1 (by omega)
      rw [Finset.filter_eq_empty_iff] at h4
      have h5 := h4 (mem_range.2 hj)
      rw [not_not] at h5
      rw [h5, (valGf R hM).add_self, (valGf R hM).num_zero] at h2
      omega
  · intro c hcl hcv hc hcap hex
    obtain ⟨C, hC, hC1, hcw, hmem⟩ := hlift c hcl hcv hc
    have key := hsem.dec.cap C _ hcw hmem hcap
    rw [exc'_iff R hM hn (hElt c)] at key
    obtain ⟨hne, hfix⟩ := key.2 hex
    have h1 : r.ret = vret := by
      rcases hsem.cases with ⟨h1, _⟩ | ⟨_, j, hj, h2⟩
      · exact h1
      · exfalso
        rw [hfix j hj] at h2
        have := num_add_bits (R := R) (hM := hM) (hC1 j hj) (hW1 j hj)
        omega
    obtain ⟨hneg, _, h2⟩ := hcase.resolve_left (fun h => hne (by rw [← h1]; exact h.1))
    have hbc : b' = c := by
      refine blk_eq_of hbl' hcl fun j hj => ?_
      rw [hb' j hj, hC j hj, h2 j hj, hfix j hj]
    refine ⟨hbc, ?_⟩
    rw [← hbc]
    have := hsem.dec.range
    exact hcnt (by omega)
  · intro c hcl hcv hc hcap hex hne
    obtain ⟨C, hC, hC1, hcw, hmem⟩ := hlift c hcl hcv hc
    have key := hsem.dec.cap C _ hcw hmem hcap
    rw [exc'_iff R hM hn (hElt c)] at key
    have h0 := key.1 hex (by
      by_contra hcon
      push Not at hcon
      apply hne
      refine blk_eq_of hbl hcl fun j hj => ?_
      rw [hb j hj, hC j hj, hcon j hj])
    rcases hsem.cases with ⟨h1, _⟩ | ⟨h1, _⟩
    · rw [h1, h0]
    · exact h1
  · intro hnc h0
    obtain ⟨hneg, h1, h2⟩ := hcase.resolve_left (fun h => by omega)
    obtain ⟨A, hA1, hA2, hA3, hA4, L, hL, hAL, hiff⟩ := hsem.dec.valid (by omega) (fun h => hnc (hbcw.1 h))
    have hbW : ∀ j, j < b.length → b.getD j 0 = (W j).v := fun j hj => hb j (by omega)
    refine ⟨A, L, hA1, hA2, ?_, hAL, hA3, ?_, ?_⟩
    · intro j hj
      rw [hdiff b' W' hbl' hb' j] at hj
      exact hA4 j hj.1 (by rw [← h2 j hj.1]; exact hj.2)
    · have hrec : ∀ ℓ, Recurs' (valGf R hM) NR (dl + NP) (erased er count)
          (fun i => ev (dl + NP) W ((valGf R hM).al ^ (FCR + i))) ℓ ↔
          Recurrence P NR (dl + NP) (erased er count)
          (fun i => polyAt P b (xR P ^ (FCR + i))) ℓ := by
        intro ℓ
        refine recur_iff R hM ℓ _ _ fun i _ => ?_
        rw [← iso_ev R hM hbW, hbl]
      exact ⟨(hrec L).1 hL.1, fun L' h' => hL.2 ((hrec L').2 h')⟩
    · rw [← hiff, ← hbl', ← cw_iff R hM (W := V) (fun j hj => by rw [hb' j (by omega), h2 j (by omega)]), hbl']

end Verif.BCH
