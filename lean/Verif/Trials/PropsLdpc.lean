import Verif.Trials.Ldpc
import Verif.Trials.PropsPolar
import Verif.LDPC.Props
/- C76, the trials of tests/ldpc_regression_test.cc. -/
namespace Verif.Trials
open Verif.RS (sb)
open Verif.Polar (Fl Rounding)
open Verif.LDPC (Table Cfg Enc Dec Loc IsSort IsWord StOK mkEnc mkDec)
open Verif.Hadamard (count)

variable {F : Rounding}

/-! ### The loops -/

theorem spoiled_eq {N : Nat} {code orig noisy : List Int} (h1 : code.length = N) (h2 : orig.length = N) (h3 : noisy.length = N) :
    spoiled N code orig noisy = some (count N fun i => code.getD i 0 * orig.getD i 0 ≤ 0 ∧ orig.getD i 0 * noisy.getD i 0 > 0) := by
  apply forUp_count
  intro i cnt hi
  rw [rd_getD (d := 0) (by omega), sb, rd_getD (d := 0) (by omega), sb, rd_getD (d := 0) (by omega), sb]
  rfl

theorem ldpcData_ok {K : Nat} {bits : Nat → Int} {code : List Int} (h : K ≤ code.length) :
    ∃ out, ldpcData K bits code = some out ∧ out.length = code.length ∧ ∀ i, i < K → out.getD i 0 = 1 - 2 * bits i := by
  unfold ldpcData
  obtain ⟨r, hr, h1, h2⟩ := forUp_inv (f := fun i (code : List Int) => wr code i (1 - 2 * bits i)) (fun k c => c.length = code.length ∧ ∀ i, i < k → c.getD i 0 = 1 - 2 * bits i) (Nat.zero_le K)
    (s := code) ⟨rfl, fun i hi => absurd hi (by omega)⟩ (by
      rintro k c - hk ⟨h1, h2⟩
      refine ⟨_, wr_of_lt (by omega), by simp [h1], fun i hi => ?_⟩
      rw [List.getD_eq_getElem?_getD, List.getElem?_set]
      by_cases hik : k = i
      · subst hik
        simp [show k < c.length by omega]
      · rw [if_neg hik, ← List.getD_eq_getElem?_getD, h2 i (by omega)])
  exact ⟨r, hr, h1, h2⟩

theorem getD_take {l : List Int} {k i : Nat} (h : i < k) : (l.take k).getD i 0 = l.getD i 0 := by
  rw [List.getD_eq_getElem?_getD, List.getElem?_take, if_pos h, ← List.getD_eq_getElem?_getD]

theorem getD_drop {l : List Int} {k i : Nat} : (l.drop k).getD i 0 = l.getD (k + i) 0 := by
  rw [List.getD_eq_getElem?_getD, List.getElem?_drop, ← List.getD_eq_getElem?_getD]

theorem list_of_getD {l : List Int} {N : Nat} (h : l.length = N) : l = (List.range N).map fun i => l.getD i 0 := by
  refine List.ext_getElem (by simp [h]) fun i h1 h2 => ?_
  simp [List.getD_eq_getElem?_getD, List.getElem?_eq_getElem h1]

theorem isWord_signs {T : Table} (h : T.WF) {m p m' p' : List Int} (hm : ∀ i, i < T.K → (m.getD i 0).sign = (m'.getD i 0).sign) (hp : ∀ i, i < T.R → (p.getD i 0).sign = (p'.getD i 0).sign)
    (hw : IsWord T m p) : IsWord T m' p' := by
  intro c hc
  have h1 := hw c hc
  rw [show T.checkOk (fun i => m.getD i 0) (fun i => p.getD i 0) c ↔ T.checkOk (fun i => (m.getD i 0).sign) (fun i => (p.getD i 0).sign) c by
    unfold Table.checkOk; simp only [Int.sign_sign]] at h1
  rw [show T.checkOk (fun i => m'.getD i 0) (fun i => p'.getD i 0) c ↔ T.checkOk (fun i => (m'.getD i 0).sign) (fun i => (p'.getD i 0).sign) c by
    unfold Table.checkOk; simp only [Int.sign_sign]]
  exact (LDPC.checkOk_congr h hm hp hc).1 h1

/-! ### The specification -/

/-- A well-formed table for which both constructors have been called, with any contents of the uninitialised arrays and any `std::sort` within its contract. -/
structure LdpcCode (C : Cfg) (e : Enc) (X : Dec) : Prop where
  wf : C.WF
  enc : ∃ pos0 cnc0 : List Nat, pos0.length = C.T.R * C.T.CNC ∧ cnc0.length = C.T.q ∧ mkEnc C.T pos0 cnc0 = some e
  dec : ∃ (srt : List Loc → List Loc) (pos0 cnc0 : List Nat) (loc0 : List Loc) (wd0 wd : List Nat), IsSort srt ∧ pos0.length = C.T.q * C.T.CNC ∧ cnc0.length = C.T.q ∧
    loc0.length = C.LOC ∧ wd0.length = C.PTY ∧ mkDec C srt pos0 cnc0 loc0 wd0 = some (X, wd)

/-- The extents of the arrays. -/
structure LdpcSizes (C : Cfg) (A : LdpcArrays) : Prop where
  code : A.code.length = C.T.N
  orig : A.orig.length = C.T.N
  noisy : A.noisy.length = C.T.N
  symb : A.symb.length = C.T.N
  dec : StOK C A.dec

/-- The word `l` meets all checks: `l` is the data followed by the parity, the sign of a value is its bit. -/
def CodeWord (T : Table) (l : List Int) : Prop := IsWord T (l.take T.K) (l.drop T.K)

/-- `word` has the drawn bits as symbols first, consists of `1` and `-1`, and meets all checks. -/
structure LdpcSent (T : Table) (bits : Nat → Int) (word : List Int) : Prop where
  length : word.length = T.N
  data : ∀ i, i < T.K → word.getD i 0 = 1 - 2 * bits i
  pm : ∀ i, i < T.N → word.getD i 0 = 1 ∨ word.getD i 0 = -1
  checks : CodeWord T word

/-- What the numbers say: `out` is what the decoder leaves. -/
structure LdpcScore (T : Table) (trials : Int) (word noisy out : List Int) (r : LdpcCounts) : Prop where
  awgn : r.awgn = count T.N fun i => noisy.getD i 0 * word.getD i 0 < 0
  erasures : r.erasures = count T.N fun i => noisy.getD i 0 = 0
  uncorrected : r.uncorrected = count T.N fun i => out.getD i 0 * word.getD i 0 ≤ 0
  decoder : r.decoder = count T.N fun i => 0 < noisy.getD i 0 * word.getD i 0 ∧ out.getD i 0 * word.getD i 0 ≤ 0
  converged : 0 ≤ r.count ↔ CodeWord T out
  unchanged : CodeWord T noisy → out = noisy
  count_le : -1 ≤ r.count ∧ r.count ≤ trials
  iters : CodeWord T out → r.iters = trials - r.count
  iters_all : ¬ CodeWord T out → r.iters = trials
  iters_pos : CodeWord T noisy ↔ r.count = trials

/-! ### C76 -/

/-- **C76** (one trial): defined for every table, draw of bits, factor other than 0 and finite noise, on arrays and a decoder with any contents; the numbers are what `LdpcScore` says, and
the arrays keep their extents. -/
theorem C76_ldpc {C : Cfg} {e : Enc} {X : Dec} {trials : Int} {A : LdpcArrays} {f : ℚ} {noise : Nat → ℚ} {bits : Nat → Int} (hf : f ≠ 0) (S : LdpcCode C e X) (Z : LdpcSizes C A) (ht : 0 ≤ trials)
    (hb : ∀ i, bits i = 0 ∨ bits i = 1) :
    ∃ word noisy out r A', LdpcSent C.T bits word ∧ Received F C.T.N f noise (fun i => word.getD i 0) noisy ∧
      ldpcTrial F C e X trials A (.fin f) (fun i => .fin (noise i)) bits = some (r, A') ∧ LdpcScore C.T trials word noisy out r ∧ LdpcSizes C A' := by
  obtain ⟨pos0, cnc0, p1, p2, hE⟩ := S.enc
  obtain ⟨srt, pos1, cnc1, loc1, wd1, wd, q0, q1, q2, q3, q4, hX⟩ := S.dec
  have hT := S.wf.hT
  have hN : C.T.N = C.T.K + C.T.R := by
    have h1 := hT.hR
    have h2 := Nat.mul_pos hT.hq hT.hM
    have h3 : C.T.R = C.T.N - C.T.K := rfl
    omega
  have hc0 := Z.code
  obtain ⟨code, a1, a2, a3⟩ := ldpcData_ok (bits := bits) (K := C.T.K) (code := A.code) (by omega)
  have hpm1 : ∀ i, i < C.T.K → code.getD i 0 = 1 ∨ code.getD i 0 = -1 := fun i hi => by
    rw [a3 i hi]
    rcases hb i with h | h <;> rw [h] <;> simp
  obtain ⟨e', he, henc⟩ := LDPC.C44_encode C.T hT pos0 cnc0 p1 p2
  cases hE.symm.trans he
  have htl : (code.take C.T.K).length = C.T.K := by rw [List.length_take]; omega
  obtain ⟨par, b1, b2, b3⟩ := henc (code.take C.T.K) (code.drop C.T.K) htl (by
    intro x hx
    obtain ⟨i, hi, rfl⟩ := List.mem_iff_getElem.mp hx
    have := hpm1 i (by omega)
    rwa [← getD_take (k := C.T.K) (by omega), List.getD_eq_getElem?_getD, List.getElem?_eq_getElem hi, Option.getD_some] at this) (by rw [List.length_drop]; omega)
  obtain ⟨word, hword⟩ : ∃ word, word = code.take C.T.K ++ par := ⟨_, rfl⟩
  have hwl : word.length = C.T.N := by rw [hword, List.length_append]; omega
  have hw1 : word.take C.T.K = code.take C.T.K := by rw [hword, List.take_append_of_le_length (by omega), List.take_of_length_le (by omega)]
  have hw2 : word.drop C.T.K = par := by rw [hword, List.drop_append_of_le_length (by omega), List.drop_of_length_le (by omega), List.nil_append]
  have hsent : LdpcSent C.T bits word := by
    have hdat : ∀ i, i < C.T.K → word.getD i 0 = code.getD i 0 := fun i hi => by
      rw [← getD_take hi, hw1, getD_take hi]
    refine ⟨hwl, fun i hi => by rw [hdat i hi, a3 i hi], fun i hi => ?_, fun c hc => ?_⟩
    · by_cases h : i < C.T.K
      · rw [hdat i h]; exact hpm1 i h
      · have := (b3 (i - C.T.K) (by omega)).1
        rwa [← hw2, getD_drop, Nat.add_sub_cancel' (by omega)] at this
    · have hs1 : ∀ x : Int, (x = 1 ∨ x = -1) → x.sign = x := by rintro x (rfl | rfl) <;> rfl
      have hsq : ∀ x : Int, (x = 1 ∨ x = -1) → x * x = 1 := by rintro x (rfl | rfl) <;> rfl
      rw [hw1, hw2, LDPC.checkOk_congr hT (d' := fun i => ((code.take C.T.K).getD i 0)) (p' := fun i => par.getD i 0) (fun _ _ => rfl) (fun _ _ => rfl) hc]
      unfold Table.checkOk
      have hfm : (C.T.feeds c).map (fun i => ((code.take C.T.K).getD i 0).sign) = (C.T.feeds c).map fun i => (code.take C.T.K).getD i 0 := by
        apply List.map_congr_left
        intro i hi
        rw [← Nat.div_add_mod c C.T.q, LDPC.feeds_eq hT (by rw [Nat.div_lt_iff_lt_mul hT.hq, Nat.mul_comm, ← hT.hR]; exact hc) (Nat.mod_lt _ hT.hq)] at hi
        obtain ⟨e, he, rfl⟩ := List.mem_map.1 hi
        have hlt := LDPC.bitAt_lt hT (LDPC.ent_mem he).1 (c / C.T.q)
        refine hs1 _ ?_
        rw [getD_take hlt]
        exact hpm1 _ hlt
      have hprev : (if c = 0 then (1 : Int) else (par.getD (c - 1) 0).sign) = if c = 0 then 1 else par.getD (c - 1) 0 := by
        split
        · rfl
        · exact hs1 _ (b3 _ (by omega)).1
      have h4 := b3 c hc
      rw [hfm, hprev, hs1 _ h4.1]
      set P := ((C.T.feeds c).map fun i => (code.take C.T.K).getD i 0).prod
      set Q : Int := if c = 0 then 1 else par.getD (c - 1) 0
      rw [show P * par.getD c 0 * Q = par.getD c 0 * (P * Q) by ring, ← h4.2]
      exact hsq _ h4.1
  obtain ⟨noisy, g1, g2, -⟩ := channel_word (F := F) (noise := noise) (word := fun i => word.getD i 0) (out := word) (symb := A.symb) hf hwl Z.symb
  rw [← list_of_getD hwl] at g1
  have hnl := g2.length
  obtain ⟨X', wd', hX', -, hdec⟩ := LDPC.C44_decode C S.wf srt q0 pos1 cnc1 loc1 wd1 q1 q2 q3 q4
  cases hX.symm.trans hX'
  obtain ⟨r, d1, d2, d3, d4, d5, d6, d7, d8, d9⟩ := hdec A.dec (noisy.take C.T.K) (noisy.drop C.T.K) trials Z.dec (by rw [List.length_take]; omega) (by rw [List.length_drop]; omega) ht
  have hol : (r.message ++ r.parity).length = C.T.N := by rw [List.length_append]; omega
  have ho1 : (r.message ++ r.parity).take C.T.K = r.message := by rw [List.take_append_of_le_length (by omega), List.take_of_length_le (by omega)]
  have ho2 : (r.message ++ r.parity).drop C.T.K = r.parity := by rw [List.drop_append_of_le_length (by omega), List.drop_of_length_le (by omega), List.nil_append]
  have hcw : CodeWord C.T (r.message ++ r.parity) ↔ 0 ≤ r.trials := by unfold CodeWord; rw [ho1, ho2, d7]
  refine ⟨word, noisy, r.message ++ r.parity, ⟨_, _, _, _, r.trials, if r.trials < 0 then trials else trials - r.trials⟩, ⟨r.message ++ r.parity, word, noisy, A.symb, r.s⟩, hsent, g2, ?_,
    ⟨rfl, rfl, rfl, rfl, hcw.symm, fun h => ?_, ⟨d5, d6⟩, fun h => ?_, fun h => ?_, d8.symm⟩, ⟨hol, hwl, hnl, Z.symb, d2⟩⟩
  · unfold ldpcTrial
    rw [a1, sb, b1, sb, ← hword]
    show (copyTo C.T.N A.orig word).bind _ = _
    rw [copyTo_eq Z.orig hwl, Option.bind_some, g1, sb, copyTo_eq Z.noisy hnl, sb, d1, sb]
    dsimp only
    rw [wrongSigns_eq hnl hwl, sb, erased_eq hnl, sb, wrongOrZero_eq hol hwl, sb, spoiled_eq hol hwl hnl, sb]
    have : (count C.T.N fun i => (r.message ++ r.parity).getD i 0 * word.getD i 0 ≤ 0 ∧ word.getD i 0 * noisy.getD i 0 > 0) =
        count C.T.N fun i => 0 < noisy.getD i 0 * word.getD i 0 ∧ (r.message ++ r.parity).getD i 0 * word.getD i 0 ≤ 0 :=
      count_congr fun i hi => by rw [and_comm, mul_comm (word.getD i 0)]
    rw [this]
    rfl
  · obtain ⟨h1, h2⟩ := d9 h
    rw [h1, h2, List.take_append_drop]
  · rw [hcw] at h
    exact if_neg (by omega)
  · rw [hcw] at h
    exact if_pos (by omega)

/-- **C76** (reading the numbers): a decoder that gives up leaves wrong symbols, no more are made wrong than are wrong, and if nothing is wrong at the end the decoder has converged.  If it
has not, all iterations were used. -/
theorem C76_ldpc_counts {T : Table} {trials : Int} {bits : Nat → Int} {word noisy out : List Int} {r : LdpcCounts} (hT : T.WF) (ht : 0 ≤ trials) (hs : LdpcSent T bits word)
    (hsc : LdpcScore T trials word noisy out r) :
    (r.uncorrected = 0 → CodeWord T out ∧ 0 ≤ r.count) ∧ (r.count < 0 → 0 < r.uncorrected ∧ r.iters = trials) ∧ r.decoder ≤ r.uncorrected ∧
      r.uncorrected ≤ r.decoder + r.awgn + r.erasures ∧ 0 ≤ r.iters ∧ r.iters ≤ trials ∧ (r.iters = 0 → trials ≠ 0 → CodeWord T noisy) := by
  have hdo : r.decoder ≤ r.uncorrected := by
    rw [hsc.decoder, hsc.uncorrected]
    refine Finset.sum_le_sum fun i _ => ?_
    split_ifs <;> first | omega | (rename_i h1 h2; exact absurd h1.2 h2)
  have h0 : r.uncorrected = 0 → CodeWord T out := fun h => by
    rw [hsc.uncorrected, count_zero] at h
    have hsg : ∀ i, i < T.N → (word.getD i 0).sign = (out.getD i 0).sign := fun i hi => by
      have h1 := h i hi
      rcases hs.pm i hi with h2 | h2 <;> rw [h2] at h1 ⊢
      · rw [Int.sign_eq_one_of_pos (show 0 < out.getD i 0 by omega)]; rfl
      · rw [Int.sign_eq_neg_one_of_neg (show out.getD i 0 < 0 by omega)]; rfl
    have hN : T.N = T.K + T.R := by
      have h1 := hT.hR
      have h2 := Nat.mul_pos hT.hq hT.hM
      have h3 : T.R = T.N - T.K := rfl
      omega
    refine isWord_signs hT (fun i hi => ?_) (fun i hi => ?_) hs.checks
    · rw [getD_take hi, getD_take hi]; exact hsg i (by omega)
    · rw [getD_drop, getD_drop]; exact hsg _ (by omega)
  obtain ⟨c1, c2⟩ := hsc.count_le
  refine ⟨fun h => ⟨h0 h, hsc.converged.2 (h0 h)⟩, fun h => ?_, hdo, ?_, ?_, ?_, fun h hne => ?_⟩
  · have hn : ¬ CodeWord T out := fun hc => by have := hsc.converged.2 hc; omega
    exact ⟨Nat.pos_of_ne_zero fun hz => hn (h0 hz), hsc.iters_all hn⟩
  · rw [hsc.decoder, hsc.uncorrected, hsc.awgn, hsc.erasures]
    unfold count
    rw [← Finset.sum_add_distrib, ← Finset.sum_add_distrib]
    refine Finset.sum_le_sum fun i hi => ?_
    have h0 : noisy.getD i 0 * word.getD i 0 = 0 → noisy.getD i 0 = 0 := fun h => by
      rcases mul_eq_zero.1 h with h | h
      · exact h
      · rcases hs.pm i (Finset.mem_range.1 hi) with h' | h' <;> rw [h'] at h <;> omega
    by_cases h1 : out.getD i 0 * word.getD i 0 ≤ 0
    · simp only [h1, if_true, and_true]
      rcases lt_trichotomy (noisy.getD i 0 * word.getD i 0) 0 with h | h | h
      · rw [if_neg (by omega : ¬ 0 < noisy.getD i 0 * word.getD i 0), if_pos h]; omega
      · rw [if_pos (h0 h)]; omega
      · rw [if_pos h]; omega
    · rw [if_neg h1]; omega
  · by_cases hc : CodeWord T out
    · rw [hsc.iters hc]; omega
    · rw [hsc.iters_all hc]
      exact ht
  · by_cases hc : CodeWord T out
    · have := hsc.converged.2 hc
      rw [hsc.iters hc]; omega
    · rw [hsc.iters_all hc]
  · by_cases hc : CodeWord T out
    · rw [hsc.iters hc] at h
      exact hsc.iters_pos.2 (by omega)
    · rw [hsc.iters_all hc] at h
      exact absurd h hne

/-- **C76** (weak noise): nothing is wrong, erased or made wrong, and no iteration is needed. -/
theorem C76_ldpc_weak {C : Cfg} {e : Enc} {X : Dec} {trials : Int} {A : LdpcArrays} {f : ℚ} {noise : Nat → ℚ} {bits : Nat → Int} (hf : 0 < f) (S : LdpcCode C e X) (Z : LdpcSizes C A)
    (ht : 0 ≤ trials) (hb : ∀ i, bits i = 0 ∨ bits i = 1) (hw : ∀ i, i < C.T.N → ∀ c : Int, c = 1 ∨ c = -1 → Weak F f c (noise i)) :
    ∃ A', ldpcTrial F C e X trials A (.fin f) (fun i => .fin (noise i)) bits = some (⟨0, 0, 0, 0, trials, 0⟩, A') ∧ LdpcSizes C A' := by
  obtain ⟨word, noisy, out, r, A', hs, g, hr, hsc, hz⟩ := C76_ldpc (F := F) (noise := noise) hf.ne' S Z ht hb
  have hpos : ∀ i, i < C.T.N → 0 < word.getD i 0 * noisy.getD i 0 := fun i hi => C73_channel_weak hf (hs.pm i hi) (hw i hi _ (hs.pm i hi)) (g.value i hi)
  have hT := S.wf.hT
  have hN : C.T.N = C.T.K + C.T.R := by
    have h1 := hT.hR
    have h2 := Nat.mul_pos hT.hq hT.hM
    have h3 : C.T.R = C.T.N - C.T.K := rfl
    omega
  have hsg : ∀ i, i < C.T.N → (word.getD i 0).sign = (noisy.getD i 0).sign := fun i hi => by
    have h1 := hpos i hi
    rcases hs.pm i hi with h2 | h2 <;> rw [h2] at h1 ⊢
    · rw [Int.sign_eq_one_of_pos (show 0 < noisy.getD i 0 by omega)]; rfl
    · rw [Int.sign_eq_neg_one_of_neg (show noisy.getD i 0 < 0 by omega)]; rfl
  have hcw : CodeWord C.T noisy := by
    refine isWord_signs hT (fun i hi => ?_) (fun i hi => ?_) hs.checks
    · rw [getD_take hi, getD_take hi]; exact hsg i (by omega)
    · rw [getD_drop, getD_drop]; exact hsg _ (by omega)
  have ho := hsc.unchanged hcw
  have hc := hsc.iters_pos.1 hcw
  have hi := hsc.iters (ho ▸ hcw)
  have h1 : r.awgn = 0 := by
    rw [hsc.awgn, count_zero]
    intro i hi
    have := hpos i hi
    rw [mul_comm] at this
    omega
  have h2 : r.erasures = 0 := by
    rw [hsc.erasures, count_zero]
    intro i hi h0
    have := hpos i hi
    rw [h0, mul_zero] at this
    omega
  have h3 : r.uncorrected = 0 := by
    rw [hsc.uncorrected, count_zero, ho]
    intro i hi
    have := hpos i hi
    rw [mul_comm] at this
    omega
  have h4 : r.decoder = 0 := Nat.le_zero.1 (h3 ▸ (C76_ldpc_counts hT ht hs hsc).2.2.1)
  rw [hc, sub_self] at hi
  refine ⟨A', ?_, hz⟩
  rw [hr]
  obtain ⟨a, b, c, d, e, g⟩ := r
  simp only at h1 h2 h3 h4 hc hi
  subst h1 h2 h3 h4 hc hi
  rfl

/-- **C76** (all trials): any sequence of trials on the same arrays and the same decoder object is defined, and the numbers of each one are right, whatever the trials before it left. -/
theorem C76_ldpc_all {C : Cfg} {e : Enc} {X : Dec} {trials : Int} (S : LdpcCode C e X) (ht : 0 ≤ trials) (draws : List (ℚ × (Nat → ℚ) × (Nat → Int))) (A : LdpcArrays) (Z : LdpcSizes C A)
    (hd : ∀ d ∈ draws, d.1 ≠ 0 ∧ ∀ i, d.2.2 i = 0 ∨ d.2.2 i = 1) :
    ∃ rs, ldpcTrials F C e X trials A (draws.map fun d => (.fin d.1, fun i => .fin (d.2.1 i), d.2.2)) = some rs ∧
      List.Forall₂ (fun (d : ℚ × (Nat → ℚ) × (Nat → Int)) r => ∃ word noisy out, LdpcSent C.T d.2.2 word ∧ Received F C.T.N d.1 d.2.1 (fun i => word.getD i 0) noisy ∧
        LdpcScore C.T trials word noisy out r) draws rs := by
  induction draws generalizing A with
  | nil => exact ⟨[], rfl, .nil⟩
  | cons d l ih =>
    obtain ⟨h1, h2⟩ := hd d List.mem_cons_self
    obtain ⟨word, noisy, out, r, A', a1, a2, a3, a4, a5⟩ := C76_ldpc (F := F) (noise := d.2.1) h1 S Z ht h2
    obtain ⟨rs, b1, b2⟩ := ih A' a5 fun x hx => hd x (List.mem_cons_of_mem _ hx)
    refine ⟨r :: rs, ?_, .cons ⟨word, noisy, out, a1, a2, a4⟩ b2⟩
    rw [List.map_cons, ldpcTrials, a3, sb]
    dsimp only
    rw [b1, sb]
    rfl

/-! ### The tables of the test -/

theorem ldpcCode_of {C : Cfg} (h : C.WF) {srt : List Loc → List Loc} (hsrt : IsSort srt) {epos0 ecnc0 pos0 cnc0 : List Nat} {loc0 : List Loc} {wd0 : List Nat}
    (hep : epos0.length = C.T.R * C.T.CNC) (hec : ecnc0.length = C.T.q) (hp : pos0.length = C.T.q * C.T.CNC) (hcn : cnc0.length = C.T.q) (hl : loc0.length = C.LOC)
    (hw : wd0.length = C.PTY) :
    ∃ e X wd, mkEnc C.T epos0 ecnc0 = some e ∧ mkDec C srt pos0 cnc0 loc0 wd0 = some (X, wd) ∧ LdpcCode C e X := by
  obtain ⟨e, he, -⟩ := LDPC.C44_encode C.T h.hT epos0 ecnc0 hep hec
  obtain ⟨X, wd, hX, -⟩ := LDPC.C44_decode C h srt hsrt pos0 cnc0 loc0 wd0 hp hcn hl hw
  exact ⟨e, X, wd, he, hX, h, ⟨_, _, hep, hec, he⟩, ⟨srt, pos0, cnc0, loc0, wd0, wd, hsrt, hp, hcn, hl, hw, hX⟩⟩

/-- The constructors of the test succeed for its four tables and both numbers of lanes. -/
theorem C76_ldpc_tables : ∀ T ∈ [LDPC.dvb_t2_table_a1, LDPC.dvb_t2_table_a3, LDPC.dvb_t2_table_a6, LDPC.dvb_t2_table_b7], ∀ C, C = LDPC.avx2 T ∨ C = LDPC.sse T →
    ∀ (srt : List Loc → List Loc) (epos0 ecnc0 pos0 cnc0 : List Nat) (loc0 : List Loc) (wd0 : List Nat), IsSort srt → epos0.length = C.T.R * C.T.CNC → ecnc0.length = C.T.q →
      pos0.length = C.T.q * C.T.CNC → cnc0.length = C.T.q → loc0.length = C.LOC → wd0.length = C.PTY →
      ∃ e X wd, mkEnc C.T epos0 ecnc0 = some e ∧ mkDec C srt pos0 cnc0 loc0 wd0 = some (X, wd) ∧ LdpcCode C e X := by
  intro T hT C hC srt epos0 ecnc0 pos0 cnc0 loc0 wd0 h0 h1 h2 h3 h4 h5 h6
  have hwf : C.WF := by
    have := LDPC.C44_tables T hT
    rcases hC with rfl | rfl
    · exact this.1
    · exact this.2
  exact ldpcCode_of hwf h0 h1 h2 h3 h4 h5 h6

/-! ### A small code, evaluated -/
namespace LdpcExample
open LDPC (tiny tinyC insSort)

def arrays : LdpcArrays := ⟨List.replicate 8 9, List.replicate 8 9, List.replicate 8 9, List.replicate 8 .nan, ⟨List.replicate 8 [7, 7, 7], List.replicate 2 [7, 7, 7], List.replicate 2 [7, 7, 7], [9, 9]⟩⟩

/-- The hypotheses are met. -/
example (f : ℚ) (hf : f ≠ 0) (noise : Nat → ℚ) : ∃ e X, LdpcCode tinyC e X ∧ ∃ r, ldpcTrial unrounded tinyC e X 5 arrays (.fin f) (fun i => .fin (noise i)) (fun i => (i % 2 : Nat)) = some r := by
  obtain ⟨e, X, -, -, -, S⟩ := ldpcCode_of LDPC.tiny_wf LDPC.insSort_isSort (epos0 := List.replicate 8 0) (ecnc0 := [5, 5]) (pos0 := [0, 0, 0, 0]) (cnc0 := [0, 0]) (loc0 := List.replicate 4 ⟨0, 0⟩)
    (wd0 := [0, 0]) rfl rfl rfl rfl rfl rfl
  refine ⟨e, X, S, ?_⟩
  obtain ⟨-, -, -, r, A', -, -, h, -⟩ := C76_ldpc (F := unrounded) (trials := 5) (A := arrays) (noise := noise) (bits := fun i => (i % 2 : Nat)) hf S
    ⟨rfl, rfl, rfl, rfl, ⟨⟨rfl, rfl, by decide, by decide⟩, rfl, by decide, rfl⟩⟩ (by norm_num) (fun i => by omega)
  exact ⟨_, h⟩

/-- Trials with the bits 0, 1, 0, 0; each has a factor and the noise at the eight positions. -/
def run (l : List (ℚ × List ℚ)) : Option (List LdpcCounts) := do
  let e ← mkEnc tiny (List.replicate 8 0) [5, 5]
  let x ← mkDec tinyC insSort [0, 0, 0, 0] [0, 0] (List.replicate 4 ⟨0, 0⟩) [0, 0]
  ldpcTrials unrounded tinyC e x.1 5 { arrays with dec := { arrays.dec with wd := x.2 } } (l.map fun d => (.fin d.1, fun i => .fin (d.2.getD i 0), fun i => ([0, 1, 0, 0] : List Int).getD i 0))

/-- No noise; one wrong symbol and one erased symbol, corrected in one iteration; too much noise, the decoder gives up; and two wrong symbols that give another codeword. -/
example : run [(4, []), (4, [0, 0, 0, 0, 0, 3/2]), (4, [-1]), (4, [-3, 3, -1, 0, 0, 1, 0]), (4, [-3, 0, 0, -3])] =
    some [⟨0, 0, 0, 0, 5, 0⟩, ⟨1, 0, 0, 0, 4, 1⟩, ⟨0, 1, 0, 0, 4, 1⟩, ⟨2, 2, 5, 1, -1, 5⟩, ⟨2, 0, 2, 0, 5, 0⟩] := by decide +kernel

end LdpcExample

end Verif.Trials
