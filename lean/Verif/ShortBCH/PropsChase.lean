import Verif.ShortBCH.Props
/- C32: when the Chase search is as good as maximum likelihood decoding. -/
namespace Verif.ShortBCH
open Verif.RS (sb)

/-- The best codeword has been found, or nothing as good; and nothing else is as good. -/
structure Seek (N : Nat) (code : List Int) (c : Nat) (s : Int × Int × Int) : Prop where
  found : (s.1 = c ∧ s.2.1 = met N code c) ∨ s.2.1 < met N code c
  next : s.2.2 < met N code c

theorem Seek.step {N G : Nat} {code : List Int} {c : Nat} {s : Int × Int × Int} {x : Int} (hs : Seek N code c s) (h0 : 0 ≤ met N code c)
    (hlt : ∀ c', IsCW N G c' → c' ≠ c → met N code c' < met N code c) (hx : x = -1 ∨ ∃ c' : Nat, x = c' ∧ IsCW N G c') : Seek N code c (upd s x (metI N code x)) := by
  obtain ⟨h1, h2⟩ := hs
  unfold upd
  split
  · exact ⟨h1, h2⟩
  · rename_i hne
    have hm : x = c ∨ metI N code x < met N code c := by
      rcases hx with rfl | ⟨c', rfl, hc⟩
      · exact Or.inr (show (-1 : Int) < _ by omega)
      · by_cases hcc : c' = c
        · exact Or.inl (by rw [hcc])
        · rw [metI_nat]; exact Or.inr (hlt c' hc hcc)
    rcases hm with rfl | hm
    · rcases h1 with ⟨a, b⟩ | h1
      · exact absurd a.symm hne
      · rw [metI_nat, if_pos (by omega)]
        exact ⟨Or.inl ⟨rfl, rfl⟩, h1⟩
    · split
      · rcases h1 with ⟨a, b⟩ | h1
        · omega
        · exact ⟨Or.inr hm, h1⟩
      · split
        · exact ⟨h1, hm⟩
        · exact ⟨h1, h2⟩

/-- **C32** (Chase, `K > 4`): if one codeword correlates strictly better than all others with the soft values, and the hard decoder produces it from the hard decision with some of the positions
`findWorst` picked flipped (or none), it is returned. -/
theorem C32_chase_best {N K G T c x : Nat} {err par err' par' worst : List Nat} {code : List Int} (h : Params N K G) (hT : 1 ≤ T) (he : err.length = 2 ^ (N - K)) (hp : par.length = 2 ^ K)
    (hK : 4 < K) (hl : code.length = N) (hb : ∀ x ∈ code, -128 ≤ x ∧ x ≤ 127) (hbest : Best N G code c) (hdec : mkDec N K G T err par = some (err', par'))
    (hworst : findWorst N T code = some worst) (hx : ∀ i, x.testBit i ≠ (decide (i < N) && decide (code.getD i 0 < 0)) → i ∈ worst)
    (hhard : hard (N - K) err' par' x = some (c : Int)) : soft N K T err' par' code = some (c : Int) := by
  obtain ⟨d, hdec', hB⟩ := mkDec_ok h hT he hp
  rw [hdec] at hdec'
  cases hdec'
  dsimp only at hB
  have hc : SoftIn N code := ⟨hl, hb⟩
  obtain ⟨cw, hcw, hlt, hsg⟩ := sign_ok hl
  obtain ⟨w, hw, hwc⟩ := hard_cases h hB hlt
  have hmet : ∀ c', IsCW N G c' → c' ≠ c → met N code c' < met N code c := fun c' h1 h2 => corr_lt.1 (hbest.2 c' h1 h2)
  have h0 : 0 ≤ met N code c := by
    by_cases hz : c = 0
    · rw [hz, met_zero]
    · have := hmet 0 ⟨by positivity, Div.zero G⟩ (Ne.symm hz)
      rw [met_zero] at this
      omega
  obtain ⟨worst', hworst', s, hs, hci⟩ := chase_ok h (L := T) hB hc hlt hw
  rw [hworst] at hworst'
  cases hworst'
  obtain ⟨s', hs', hseek⟩ : Ok (chase N (N - K) T err' par' code cw (w, metI N code w, -2)) (Seek N code c) := by
    obtain ⟨worst', hworst', hwl, hwlt⟩ := findWorst_ok h (L := T) hc.len
    unfold chase
    rw [hworst', sb]
    refine Ok.mono (forUp_inv (fun _ s => Seek N code c s) Nat.one_le_two_pow ⟨?_, by dsimp only; omega⟩ ?_) (fun _ h => h)
    · rcases hwc with rfl | ⟨c', rfl, hc'⟩
      · exact Or.inr (show (-1 : Int) < _ by omega)
      · by_cases hcc : c' = c
        · rw [hcc]; exact Or.inl ⟨rfl, metI_nat N code c⟩
        · dsimp only; rw [metI_nat]; exact Or.inr (hmet c' hc' hcc)
    · intro j s _ _ hss
      obtain ⟨p, hp, hp1, _⟩ := pattern_ok h (j := j) hwl hwlt
      obtain ⟨r, hr, hrc⟩ := hard_cases h hB (Nat.xor_lt_two_pow hlt hp1)
      rw [hp, sb, hr, sb, update_eq hc h.n31]
      exact Ok.some (hss.step h0 hmet hrc)
  rw [hs] at hs'
  cases hs'
  have hge : met N code c ≤ s.2.1 := by
    rw [← metI_nat]
    refine hci.all _ ⟨cw ^^^ x, fun b hb => hx b ?_, ?_⟩
    · rw [Nat.testBit_xor] at hb
      by_cases hbN : b < N
      · rw [hsg b hbN] at hb
        simp only [hbN, decide_true, Bool.true_and]
        intro hxx; rw [hxx] at hb; simp at hb
      · rw [Nat.testBit_eq_false_of_lt (lt_of_lt_of_le hlt (Nat.pow_le_pow_right (by norm_num) (by omega)))] at hb
        simp only [Bool.false_bne] at hb
        simp [hbN, hb]
    · rw [← Nat.xor_assoc, Nat.xor_self, Nat.zero_xor]; exact hhard
  have hn := hseek.next
  rcases hseek.found with ⟨h1, h2⟩ | h1
  · unfold soft
    dsimp only at hs ⊢
    rw [hcw, sb, hw, sb, metric_eq hc h.n31, sb, if_pos (by omega), hs, sb, if_neg (by omega), sb, if_neg (by omega), h1]
    rfl
  · omega

/-- **C32** (every `K`): if one codeword correlates strictly better than all others with the soft values and differs from their signs in at most `T` places (a 0 counting as positive), and the
minimum distance is at least `2 * T + 1`, then the soft decoder returns it. -/
theorem C32_radius {N K G T c : Nat} {err par : List Nat} {code : List Int} (h : Params N K G) (hT : 1 ≤ T) (hT3 : T ≤ 3) (he : err.length = 2 ^ (N - K)) (hp : par.length = 2 ^ K)
    (hl : code.length = N) (hb : ∀ x ∈ code, -128 ≤ x ∧ x ≤ 127) (hd : MinDist N G (2 * T + 1)) (hbest : Best N G code c)
    (hr : ((Finset.range N).filter fun i => c.testBit i ≠ decide (code.getD i 0 < 0)).card ≤ T) :
    (mkDec N K G T err par >>= fun d => soft N K T d.1 d.2 code) = some (c : Int) := by
  by_cases hK : K ≤ 4
  · obtain ⟨r, h1, h2, -⟩ := C32_maximum_likelihood h hT he hp hK hl hb
    rw [h1, (h2 c).mpr hbest]
  · obtain ⟨err', par', worst, r, h1, h2, -⟩ := C32_chase h hT he hp (by omega) hl hb
    obtain ⟨cw, hcw, hlt, hsg⟩ := sign_ok hl
    have h3 := C31_corrects h hT hT3 he hp hd hbest.1 hlt (by
      refine le_trans (le_of_eq ?_) hr
      unfold dist
      congr 1
      apply Finset.filter_congr
      intro i hi
      rw [hsg i (Finset.mem_range.mp hi), ne_comm])
    rw [h1, sb] at h3 ⊢
    refine C32_chase_best h hT he hp (by omega) hl hb hbest h1 h2 (x := cw) (fun i hi => ?_) h3
    exfalso
    apply hi
    by_cases hiN : i < N
    · rw [hsg i hiN]; simp [hiN]
    · rw [Nat.testBit_eq_false_of_lt (lt_of_lt_of_le hlt (Nat.pow_le_pow_right (by norm_num) (by omega)))]
      simp [hiN]

/-- **C32** (error correction, every `K`): if every soft value is the sent symbol (-1 for a one) times an amplitude `A`, but at most `T` of them are zero or have the wrong sign, and the minimum
distance is at least `2 * T + 1`, then the soft decoder returns the sent word. -/
theorem C32_corrects {N K G T c : Nat} {A : Int} {err par : List Nat} {code : List Int} (h : Params N K G) (hT : 1 ≤ T) (hT3 : T ≤ 3) (he : err.length = 2 ^ (N - K)) (hp : par.length = 2 ^ K)
    (hl : code.length = N) (hA : 0 < A) (hA' : A ≤ 127) (hd : MinDist N G (2 * T + 1)) (hcw : Codeword N G c)
    (hc : ∀ i, i < N → code.getD i 0 = A * (if c.testBit i then -1 else 1) ∨ code.getD i 0 = 0 ∨ code.getD i 0 = -(A * (if c.testBit i then -1 else 1)))
    (hw : ((Finset.range N).filter fun i => code.getD i 0 ≠ A * (if c.testBit i then -1 else 1)).card ≤ T) :
    (mkDec N K G T err par >>= fun d => soft N K T d.1 d.2 code) = some (c : Int) := by
  have hpm : ∀ i, (if c.testBit i then (-1 : Int) else 1) = 1 ∨ (if c.testBit i then (-1 : Int) else 1) = -1 := fun i => by split <;> simp
  refine C32_radius h hT hT3 he hp hl (fun x hx => ?_) hd ⟨hcw, fun c' hc' hne => ?_⟩ (le_trans (Finset.card_le_card fun i hi => ?_) hw)
  · obtain ⟨i, hi, rfl⟩ := List.mem_iff_getElem.mp hx
    have := hc i (by omega)
    rw [List.getD_eq_getElem?_getD, List.getElem?_eq_getElem hi, Option.getD_some] at this
    rcases hpm i with e | e <;> rw [e] at this <;> omega
  · have hdist := hd c' c hc' hcw hne
    set D := (Finset.range N).filter fun i => c'.testBit i ≠ c.testBit i with hD
    set W := (Finset.range N).filter fun i => code.getD i 0 ≠ A * (if c.testBit i then -1 else 1) with hW
    have e1 : corr N code c - corr N code c' = D.sum fun i => 2 * ((if c.testBit i then (-1 : Int) else 1) * code.getD i 0) := by
      unfold corr
      rw [← Finset.sum_sub_distrib, hD, Finset.sum_filter]
      apply Finset.sum_congr rfl
      intro i _
      cases c.testBit i <;> cases c'.testBit i <;> simp <;> ring
    have e2 : D.sum (fun i => 2 * A * (1 - 2 * (if i ∈ W then 1 else 0))) ≤ D.sum fun i => 2 * ((if c.testBit i then (-1 : Int) else 1) * code.getD i 0) := by
      apply Finset.sum_le_sum
      intro i hi
      have hi' := Finset.mem_range.mp (Finset.mem_filter.mp hi).1
      have hv := hc i hi'
      by_cases hiW : i ∈ W
      · rw [if_pos hiW]
        rcases hpm i with e | e <;> rw [e] at hv ⊢ <;> rcases hv with v | v | v <;> rw [v] <;> nlinarith
      · rw [if_neg hiW]
        have : code.getD i 0 = A * (if c.testBit i then -1 else 1) := by
          by_contra hno
          exact hiW (Finset.mem_filter.mpr ⟨Finset.mem_range.mpr hi', hno⟩)
        rw [this]
        rcases hpm i with e | e <;> rw [e] <;> nlinarith
    have e3 : D.sum (fun i => 2 * A * (1 - 2 * (if i ∈ W then (1 : Int) else 0))) = 2 * A * (D.card - 2 * ((D.filter fun i => i ∈ W).card : Int)) := by
      rw [← Finset.mul_sum, Finset.sum_sub_distrib, ← Finset.mul_sum, Finset.sum_boole]
      simp
    have e4 : (D.filter fun i => i ∈ W).card ≤ T := le_trans (Finset.card_le_card fun i hi => (Finset.mem_filter.mp hi).2) hw
    have e5 : D.card = dist N c' c := rfl
    have e6 : (1 : Int) ≤ D.card - 2 * ((D.filter fun i => i ∈ W).card : Int) := by omega
    nlinarith
  · obtain ⟨h1, h2⟩ := Finset.mem_filter.mp hi
    refine Finset.mem_filter.mpr ⟨h1, fun hv => h2 ?_⟩
    rw [hv]
    cases c.testBit i
    · simp only [Bool.false_eq_true, if_false, mul_one, false_eq_decide_iff]; omega
    · simp only [if_true, mul_neg, mul_one, true_eq_decide_iff]; omega

/-- The Golay code: two symbols turned and one erased. -/
example : (mkDec 23 12 0b101011100011 3 (List.replicate 2048 9) (List.replicate 4096 9) >>= fun d =>
    soft 23 12 3 d.1 d.2 [50, 50, 50, 50, 50, 50, 50, 50, 50, 50, -50, 50, 0, 50, 50, 50, 50, 50, 50, -50, 50, 50, 50]) = some 0 :=
  C32_corrects (A := 50) (c := 0) params_golay (by norm_num) (by norm_num) (List.length_replicate ..) (List.length_replicate ..) rfl (by norm_num) (by norm_num) C31_golay_minDist
    ⟨by norm_num, Div.zero _⟩ (by decide) (by decide)

end Verif.ShortBCH
