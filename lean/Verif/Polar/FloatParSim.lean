import Verif.Polar.FloatListSim
import Verif.Polar.PropsScl
/- The lanes of the parity-aided list decoder on floating point numbers are the textbook's list of paths. -/
namespace Verif.Polar
open Verif.RS (sb)
open FlList (FReg LXF PXF)
variable {L : Nat}

/-- In the parity-aided list decoder symbol number `r` of the symbols that are not frozen may be a parity symbol: then it has to be
the product of the symbols since the last parity symbol, otherwise the metric is set to 1000000. -/
noncomputable def parityF (F : Rounding) (first stride : Nat) (fr : Nat → Prop) (w : List Int) (μ : WithTop ℚ) (s : ℚ) (b : Int) : WithTop ℚ :=
  let m := freeSymbols fr w
  if isParity first stride m.length ∧ b ≠ (m.drop (m.length - span first stride m.length)).prod then 1000000 else fadd F μ (penaltyQ s b)

/-- The product of the symbols since the last parity symbol. -/
def sinceProd (first stride : Nat) (m : List Int) : Int := (m.drop (m.length - since first stride m.length)).prod

theorem sinceProd_sym {first stride : Nat} {m : List Int} (hm : ∀ x ∈ m, Sym x) : Sym (sinceProd first stride m) :=
  prod_sym fun x hx => hm x (List.mem_of_mem_drop hx)

theorem sinceProd_snoc {first stride : Nat} {m : List Int} {b : Int} : sinceProd first stride (m ++ [b]) = if cAt first stride m.length ≠ 0 then sinceProd first stride m * b else 1 := by
  have hs := since_succ first stride m.length
  have hle := since_le' first stride m.length
  unfold sinceProd
  rw [List.length_append, List.length_singleton, hs]
  by_cases hc : cAt first stride m.length ≠ 0
  · rw [if_pos hc, if_pos hc, show m.length + 1 - (since first stride m.length + 1) = m.length - since first stride m.length by omega,
      List.drop_append_of_le_length (by omega), List.prod_append, List.prod_singleton]
  · rw [if_neg hc, if_neg hc, Nat.sub_zero, List.drop_of_length_le (by simp)]; rfl

theorem parityF_eq (F : Rounding) (first stride : Nat) (fr : Nat → Prop) (w : List Int) (μ : WithTop ℚ) (s : ℚ) (b : Int) : parityF F first stride fr w μ s b =
    if cAt first stride (freeSymbols fr w).length ≠ 0 ∨ b = sinceProd first stride (freeSymbols fr w) then fadd F μ (penaltyQ s b) else 1000000 := by
  unfold parityF
  have hp := isParity_iff first stride (freeSymbols fr w).length
  by_cases hc : cAt first stride (freeSymbols fr w).length = 0
  · dsimp only
    unfold sinceProd
    rw [since_span first stride hc]
    by_cases hb : b = ((freeSymbols fr w).drop ((freeSymbols fr w).length - span first stride (freeSymbols fr w).length)).prod
    · rw [if_neg (fun h => h.2 hb), if_pos (Or.inr hb)]
    · rw [if_pos ⟨hp.2 hc, hb⟩, if_neg (by tauto)]
  · rw [if_pos (Or.inl hc)]
    dsimp only
    rw [if_neg fun h => hc (hp.1 h.1)]

theorem forbidF_ok {F : Rounding} (h6 : F.rep 1000000) (hh : 1000000 < F.huge) {par : FReg L} {q : Fin L → Int} (hq : ∀ k, par k = flSym (q k)) (hs : ∀ k, Sym (q k)) {f : List Fl} (hf : f.length = 2 * L) :
    ∃ f', FlList.forbid F par f = some f' ∧ f'.length = 2 * L ∧ ∀ i, (hi : i < 2 * L) → f'.getD i .nan =
      if 1 - 2 * ((i % 2 : Nat) : Int) = q ⟨i / 2, by omega⟩ then f.getD i .nan else .fin 1000000 := by
  have e1 : FlList.ofInt F 1000000 = .fin 1000000 := ofInt_int (i := 1000000) (by exact_mod_cast h6) (by rw [abs_of_nonneg (by norm_num)]; exact_mod_cast hh)
  have key : Ok (FlList.forbid F par f) (fun f' => f'.length = 2 * L ∧ ∀ i, (hi : i < 2 * L) → f'.getD i .nan =
      if 1 - 2 * ((i % 2 : Nat) : Int) = q ⟨i / 2, by omega⟩ then f.getD i .nan else .fin 1000000) := by
    unfold FlList.forbid
    rw [e1]
    refine Ok.mono (forUp_inv (fun j (a : List Fl) => a.length = 2 * L ∧ ∀ i, (hi : i < 2 * L) → a.getD i .nan =
      if i / 2 < j ∧ 1 - 2 * ((i % 2 : Nat) : Int) ≠ q ⟨i / 2, by omega⟩ then .fin 1000000 else f.getD i .nan)
      (Nat.zero_le _) ⟨hf, fun i hi => by rw [if_neg (by omega)]⟩ ?_) ?_
    · rintro j a _ hj ⟨a1, a2⟩
      rw [lane_of par hj, sb, hq]
      have hlt : Fl.lt (flSym (q ⟨j, hj⟩)) (.fin 0) = decide (q ⟨j, hj⟩ = -1) := by
        unfold flSym Fl.lt
        rcases hs ⟨j, hj⟩ with e | e <;> rw [e] <;> simp
      rw [hlt]
      have fin : ∀ t, t / 2 = j → t < 2 * L → 1 - 2 * ((t % 2 : Nat) : Int) ≠ q ⟨j, hj⟩ → (∀ t', t' / 2 = j → t' ≠ t → 1 - 2 * ((t' % 2 : Nat) : Int) = q ⟨j, hj⟩) →
          Ok (wr a t (.fin 1000000)) (fun a : List Fl => a.length = 2 * L ∧ ∀ i, (hi : i < 2 * L) → a.getD i .nan =
            if i / 2 < j + 1 ∧ 1 - 2 * ((i % 2 : Nat) : Int) ≠ q ⟨i / 2, by omega⟩ then .fin 1000000 else f.getD i .nan) := by
        intro t ht htl hne hoth
        rw [wr_of_lt (by omega)]
        refine Ok.some ⟨by rw [List.length_set, a1], fun i hi => ?_⟩
        rw [getD_set]
        by_cases h : t = i
        · subst h
          rw [if_pos ⟨rfl, by omega⟩, if_pos ⟨by omega, by simp only [ht]; exact hne⟩]
        · rw [if_neg (by tauto), a2 i hi]
          by_cases h2 : i / 2 = j
          · rw [if_neg (by omega), if_neg (fun h3 => h3.2 (by simp only [h2]; exact hoth i h2 (by omega)))]
          · have : (i / 2 < j) = (i / 2 < j + 1) := by rw [eq_iff_iff]; omega
            simp only [this]
      rcases hs ⟨j, hj⟩ with e | e
      · rw [if_neg (by rw [e]; decide)]
        refine fin (2 * j + 1) (by omega) (by omega) ?_ fun t' h1 h2 => ?_
        · rw [show (2 * j + 1) % 2 = 1 by omega, e]; decide
        · rw [show t' % 2 = 0 by omega, e]; decide
      · rw [if_pos (by rw [e]; decide)]
        refine fin (2 * j) (by omega) (by omega) ?_ fun t' h1 h2 => ?_
        · rw [show 2 * j % 2 = 0 by omega, e]; decide
        · rw [show t' % 2 = 1 by omega, e]; decide
    · rintro a ⟨a1, a2⟩
      refine ⟨a1, fun i hi => ?_⟩
      rw [a2 i hi]
      by_cases h : 1 - 2 * ((i % 2 : Nat) : Int) = q ⟨i / 2, by omega⟩
      · rw [if_neg (fun h' => h'.2 h), if_pos h]
      · rw [if_pos ⟨by omega, h⟩, if_neg h]
  obtain ⟨f', e, h1, h2⟩ := key
  exact ⟨f', e, h1, h2⟩

/-- The state stands for these paths of `p` decisions. -/
def ParRelF [NeZero L] (F : Rounding) (frozen : List Nat) (first stride : Nat) (msg0 : List (FReg L)) (cap p : Nat) (x : PXF L) (ps : List (List Int × WithTop ℚ)) : Prop :=
  MetsP F x.metric ps ∧ x.index = dataBelow first stride (freeBelow frozen p) ∧ x.count = cAt first stride (freeBelow frozen p) ∧
    (∀ k : Fin L, x.parity k = flSym (sinceProd first stride (freeSymbols (Frozen frozen) (word ps k)))) ∧
    Rows msg0 cap x.index (fun k => (dataSymbols first stride (freeSymbols (Frozen frozen) (word ps k))).map flSym) x.message x.maps

theorem mok_phantom {F : Rounding} (h6 : F.rep 1000000) (hh : 1000000 < F.huge) : MOk F 1000000 := by
  intro q hq
  have : (1000000 : ℚ) = q := WithTop.coe_inj.1 (show ((1000000 : ℚ) : WithTop ℚ) = q from hq)
  subst this
  exact ⟨by norm_num, h6, hh⟩

theorem metFl_phantom : metFl 1000000 = .fin 1000000 := rfl

theorem parSimF [NeZero L] {F : Rounding} (h6 : F.rep 1000000) (hh6 : 1000000 < F.huge) {U : Nat} (hU : L ≤ U) {B : ℚ} (hB : F.rep B) {M : Nat} (hh : B * 2 ^ M < F.huge) {frozen : List Nat}
    {first stride : Nat} (hfirst : 1 ≤ first) {msg0 : List (FReg L)} {cap : Nat}
    (h1 : dataBelow first stride (freeBelow frozen (2 ^ M)) ≤ msg0.length) (h2 : dataBelow first stride (freeBelow frozen (2 ^ M)) ≤ cap) :
    Sim (phFV F L) (minSum F.rnd) M (RF F B) (fun a v => a = .fin v) (fun a x => a = flSym x) (Frozen frozen) (fun μ s => fadd F μ (penaltyQ s 1)) (parityF F first stride (Frozen frozen))
      (ParRelF F frozen first stride msg0 cap) (.fin 0) (FlList.parWalk F U L stride) (parNF F U L stride) where
  prod := rfl
  madd := rfl
  qmul := rfl
  vshuf := rfl
  comp := rfl
  sc1 := rfl
  lane k := laneF F hB hh (fun r : FReg L => r k) rfl (fun _ _ => rfl) (fun _ => rfl) (fun _ _ => rfl) (fun _ _ _ => rfl)
  r0 := by
    rintro d p x ps s sf hd hp hfr hs ⟨r1, r2, r3, r4, r5⟩ hps hv
    obtain ⟨m', e, hm'⟩ := chargeNode hs hps (fun k i hi => (hv k i hi).1) r1
    have hw : ∀ k : Fin L, freeSymbols (Frozen frozen) (word (ps.map fun a => (a.1 ++ List.replicate (2 ^ d) 1, ((List.range (2 ^ d)).map (sf a.1)).foldl (fun μ s => fadd F μ (penaltyQ s 1)) a.2)) k) =
        freeSymbols (Frozen frozen) (word ps k) := fun k => by
      rw [map_word (fun a => rfl) (by rw [hps.count]; exact k.isLt), freeSymbols_ones _ _ _ fun i hi => by rw [hps.word_len k]; exact hfr i hi]
    refine ⟨{ x with metric := m' }, ?_, hm', ?_, ?_, fun k => ?_, ?_⟩
    · show (chargeAllF F (2 ^ d) s x.metric >>= fun m => _) = _
      rw [e, sb, idMapF_eq hU]
      rfl
    · rw [freeBelow_frozen frozen p (2 ^ d) hfr]; exact r2
    · rw [freeBelow_frozen frozen p (2 ^ d) hfr]; exact r3
    · rw [hw k]; exact r4 k
    · obtain ⟨i1, i2, i3, i4, i5⟩ := r5
      refine ⟨i1, i2, i3, i4, fun k => ?_⟩
      dsimp only
      rw [i5 k, hw k]
  r1 := by
    rintro p x ps v sf hp hfr ⟨r1, r2, r3, r4, r5⟩ hps hv
    have hL0 : 0 < L := Nat.pos_of_ne_zero (NeZero.ne L)
    have hlen : ∀ k : Fin L, (freeSymbols (Frozen frozen) (word ps k)).length = freeBelow frozen p := fun k => by rw [freeSymbols_length, hps.word_len k]
    have hsym : ∀ k : Fin L, Sym (sinceProd first stride (freeSymbols (Frozen frozen) (word ps k))) := fun k => sinceProd_sym (freeSymbols_sym _ (hps.word_sym k))
    have hlt : freeBelow frozen p + 1 ≤ freeBelow frozen (2 ^ M) := free_lt hp hfr
    have hmono := dataBelow_mono (first := first) (stride := stride) hlt
    have hsucc := dataBelow_succ first stride (freeBelow frozen p)
    obtain ⟨f0, ef0, hf0⟩ := forkNode hps (fun k => (hv k).1) r1
    have hf0l : f0.length = 2 * L := by rw [hf0, List.length_map, forks_length, hps.count]
    obtain ⟨f, ef, hf⟩ : ∃ f, (if x.count = 0 then FlList.forbid F x.parity f0 else some f0) = some f ∧ f = (forks (parityF F first stride (Frozen frozen)) sf ps).map fun a => metFl a.2 := by
      have get : ∀ (c : List Int → WithTop ℚ → ℚ → Int → WithTop ℚ) i, i < 2 * L → ((forks c sf ps).map fun a => metFl a.2).getD i .nan =
          metFl (c (word ps (i / 2)) (ps.getD (i / 2) ([], 0)).2 (sf (word ps (i / 2))) (1 - 2 * ((i % 2 : Nat) : Int))) := by
        intro c i hi
        have hi' : i / 2 < ps.length := by rw [hps.count]; omega
        rw [List.getD_eq_getElem?_getD, List.getElem?_map, forks_get _ _ _ _ hi', Option.map_some, Option.getD_some, word_eq hi', ← getElem_eq_getD hi']
      by_cases hc : x.count = 0
      · obtain ⟨f, e, g1, g2⟩ := forbidF_ok h6 hh6 r4 hsym hf0l
        refine ⟨f, by rw [if_pos hc, e], ext_getD .nan (by rw [g1, List.length_map, forks_length, hps.count]) fun i hi => ?_⟩
        have hi : i < 2 * L := by omega
        have hl := hlen ⟨i / 2, by omega⟩
        dsimp only at hl
        rw [g2 i hi, get _ i hi, parityF_eq, hl, ← r3, hf0, get _ i hi]
        dsimp only
        by_cases hb : 1 - 2 * ((i % 2 : Nat) : Int) = sinceProd first stride (freeSymbols (Frozen frozen) (word ps (i / 2)))
        · rw [if_pos hb, if_pos (Or.inr hb)]
        · rw [if_neg hb, if_neg (by tauto)]; rfl
      · refine ⟨f0, by rw [if_neg hc], ext_getD .nan (by rw [hf0l, List.length_map, forks_length, hps.count]) fun i hi => ?_⟩
        have hi : i < 2 * L := by omega
        have hl := hlen ⟨i / 2, by omega⟩
        dsimp only at hl
        rw [get _ i hi, parityF_eq, hl, ← r3, if_pos (Or.inl hc), hf0, get _ i hi]
    obtain ⟨m', map, hrd, ep, hm', hk⟩ := pruneNode (F := F) (cost := parityF F first stride (Frozen frozen)) hL0 hU hps (r1.mets hps.count).1 hf (fun a ha => by
      obtain ⟨c, hc, b, -, e⟩ := forks_mem ha
      rw [e, parityF_eq]
      split
      · exact (fadd_ok (r1.2 c hc) (penaltyQ_nonneg _ _)).1
      · exact mok_phantom h6 hh6)
    have hmap : ∀ k, map k < L := fun k => (hk k).1
    have hfw : ∀ k : Fin L, ∃ b, Sym b ∧ hrd k = flSym b ∧ freeSymbols (Frozen frozen) (word (bestOf L (forks (parityF F first stride (Frozen frozen)) sf ps)) k) =
        freeSymbols (Frozen frozen) (word ps (map k)) ++ [b] := fun k => by
      obtain ⟨hmk, b, hb, hb', hw⟩ := hk k
      have hl := hps.word_len ⟨map k, hmk⟩
      dsimp only at hl
      exact ⟨b, hb, hb', by rw [hw, (freeSymbols_snoc _ _ _).2 (by rw [hl]; exact hfr)]⟩
    have hlm : ∀ k, (freeSymbols (Frozen frozen) (word ps (map k))).length = freeBelow frozen p := fun k => hlen ⟨map k, hmap k⟩
    have hsm : ∀ k, Sym (sinceProd first stride (freeSymbols (Frozen frozen) (word ps (map k)))) := fun k => hsym ⟨map k, hmap k⟩
    have hpm : ∀ k, x.parity ⟨map k, hmap k⟩ = flSym (sinceProd first stride (freeSymbols (Frozen frozen) (word ps (map k)))) := fun k => r4 ⟨map k, hmap k⟩
    have hpar := isParity_iff first stride (freeBelow frozen p)
    have hfb : freeBelow frozen (p + 1) = freeBelow frozen p + 1 := by rw [freeBelow_succ, if_neg hfr]
    by_cases hc : x.count = 0
    · have hcc : cAt first stride (freeBelow frozen p) = 0 := by rw [← r3]; exact hc
      rw [hcc] at hsucc
      simp only [ne_eq, not_true, if_false, Nat.add_zero] at hsucc
      have hp1 : 1 ≤ freeBelow frozen p := by
        by_contra h
        have h0 : freeBelow frozen p = 0 := by omega
        rw [h0, cAt, if_pos (by omega)] at hcc
        omega
      have hi : 1 ≤ x.index := by rw [r2]; exact dataBelow_pos hfirst hp1
      obtain ⟨n, hn⟩ : ∃ n, x.index = n + 1 := ⟨x.index - 1, by omega⟩
      have hml := r5.1
      have hpl := r5.2.2.1
      refine ⟨⟨m', x.message.set n (shuf (.fin 0) (x.message.getD n (oneF L)) map), x.maps.set n (shuf 0 (x.maps.getD n fun _ => 0) map),
        x.index, (phFV F L).one, stride⟩, hrd, map, ?_, ⟨hm', ?_, ?_, fun k => ?_, ?_⟩, hk⟩
      · show (FlList.parFork F U stride x v >>= fun r => _) = _
        unfold FlList.parFork
        rw [ef0, sb, ef, sb, ep, sb]
        dsimp only
        rw [if_neg (by simp [hc]), rdZ_pred (oneF L) hi (by omega), sb, wrZ_pred hi (by omega), sb, rdZ_pred (fun _ => 0) hi (by omega), sb, wrZ_pred hi (by omega), sb, if_pos hc,
          show x.index - 1 = n by omega]
        rfl
      · dsimp only
        rw [hfb, hsucc, r2]
      · dsimp only
        rw [hfb, cAt_succ, hcc, if_neg (by simp)]
      · obtain ⟨b, hb, hb', hw⟩ := hfw k
        rw [hw, sinceProd_snoc, hlm k, hcc, if_neg (by simp)]
        simp [phFV, flSym]
      · rw [hn] at r5
        have := r5.shuf (map := map) (by omega) (by omega) hmap
        dsimp only
        rw [hn]
        convert this using 1
        funext k
        obtain ⟨b, hb, hb', hw⟩ := hfw k
        show _ = (dataSymbols first stride (freeSymbols (Frozen frozen) (word ps (map k)))).map flSym
        rw [hw, dataSymbols_append, hlm k, if_pos (hpar.2 hcc), List.append_nil]
    · have hcc : cAt first stride (freeBelow frozen p) ≠ 0 := by rw [← r3]; exact hc
      rw [if_pos hcc] at hsucc
      have hml := r5.1
      have hpl := r5.2.2.1
      refine ⟨⟨m', x.message.set x.index hrd, x.maps.set x.index map, x.index + 1, (phFV F L).qmul (shuf (.fin 0) x.parity map) hrd, x.count - 1⟩, hrd, map, ?_, ⟨hm', ?_, ?_, fun k => ?_, ?_⟩, hk⟩
      · show (FlList.parFork F U stride x v >>= fun r => _) = _
        unfold FlList.parFork
        rw [ef0, sb, ef, sb, ep, sb]
        dsimp only
        rw [if_pos hc, wr_of_lt (by omega), sb, wr_of_lt (by omega), sb, if_neg hc]
        rfl
      · dsimp only
        rw [hfb, hsucc, r2]
      · dsimp only
        rw [hfb, cAt_succ, if_pos hcc, r3]
      · obtain ⟨b, hb, hb', hw⟩ := hfw k
        rw [hw, sinceProd_snoc, hlm k, if_pos hcc]
        show Fl.mul F (shuf (.fin 0) x.parity map k) (hrd k) = _
        rw [shuf_of (hmap k), hpm k, hb']
        exact Fl.mul_sym (hsm k) hb
      · have := r5.snoc (hrd := hrd) (by omega) (by omega) hmap
        convert this using 1
        funext k
        obtain ⟨b, hb, hb', hw⟩ := hfw k
        show _ = (dataSymbols first stride (freeSymbols (Frozen frozen) (word ps (map k)))).map flSym ++ [hrd k]
        rw [hw, dataSymbols_append, hlm k, if_neg (fun h => hcc (hpar.1 h)), List.map_append, hb']
        rfl

end Verif.Polar
