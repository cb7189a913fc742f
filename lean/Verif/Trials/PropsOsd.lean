import Verif.Trials.ProofOsd
import Verif.Trials.PropsPolar
import Verif.OSD.PropsBest
/- C75, the trials of tests/osd_regression_test.cc and tests/osld_regression_test.cc. -/
namespace Verif.Trials
open Verif.Polar (Fl Rounding)
open Verif.GF Verif.RS
open Verif.BCH (genPoly bitPoly bits bitsOf beBit syms BParams BCall bits_length)
open Verif.OSD (GenPolys entry bitsZ InCode FullRank Tested Tie Agree corr)
open Verif.Hadamard (count)

variable {F : Rounding} {w M P NR N K : Nat} {T : Tab} {u : Val M} {ui : Fin (2 ^ M - 1)} {polys : List Nat} {genmat gen : List (BitVec 8)} {im : List (Val M)}

/-- A BCH code and what the test builds of it: the tables of the field, the systematic generator matrix, the generator polynomial of the encoder, the table of the decoder. -/
structure OsdCode (w M P : Nat) (T : Tab) (u : Val M) (ui : Fin (2 ^ M - 1)) (NR N K : Nat) (polys : List Nat) (genmat gen : List (BitVec 8)) (im : List (Val M)) : Prop where
  ready : Ready w M P T
  degree : 1 < M
  length : N = 2 ^ M - 1
  K_pos : 1 ≤ K
  K_lt : K < N
  nr_pos : 0 < NR
  nr_lt : NR < N
  gens : GenPolys (N - K) polys
  roots : ∀ i, i < NR → (genPoly polys).eval₂ (algebraMap (ZMod 2) (GFR P)) (xR P ^ (1 + i)) = 0
  mat : ∃ g0 : List (BitVec 8), g0.length = N * K ∧ OSD.matrix N K g0 true polys = some genmat
  enc : ∃ g0 : List (BitVec 8), g0.length = (N - K + 1 + 7) / 8 ∧ BCH.encInit (N - K) g0 polys = some gen
  tab : artin (tableOps w M T u ui) = some im

/-- The extents of the arrays; `dec` is that of `decoded`. -/
structure OsdSizes (NR N K dec : Nat) (A : OsdArrays) : Prop where
  erasures : A.erasures.length = NR
  parity : A.parity.length = (N - K + 7) / 8
  decoded : A.decoded.length = dec
  codeword : A.codeword.length = (N + 7) / 8
  orig : A.orig.length = N
  noisy : A.noisy.length = N
  symb : A.symb.length = N
  mem : OSD.Valid N K A.mem

/-- `codeword` has the bits of the message first, and is a multiple of the generator polynomial. -/
structure OsdSent (N K : Nat) (polys : List Nat) (message codeword : List (BitVec 8)) : Prop where
  length : codeword.length = (N + 7) / 8
  systematic : ∀ i, i < K → beBit codeword i = beBit message i
  codeword : genPoly polys ∣ bitPoly (bitsOf (beBit codeword) N)

/-- What the BCH decoder makes of the hard decisions, if the positions of the first `NR` zeros are announced as erasures: `n` of the bits differ from the codeword. -/
def BchScore (O : Ops (Val M) (Fin (2 ^ M - 1))) (NR N K : Nat) (im : List (Val M)) (noisy : List Int) (codeword : List (BitVec 8)) (n : Nat) : Prop :=
  ∃ data parity er res, data.length = (K + 7) / 8 ∧ parity.length = (N - K + 7) / 8 ∧
    (∀ i, i < N → (bits data parity K (N - K)).getD i false = decide (noisy.getD i 0 < 0)) ∧
    er.map Fin.val = ((List.range N).filter fun i => noisy.getD i 0 = 0).take NR ∧
    BCH.decode O (BCH.packedAccess O) NR 1 K (N - K) im (data, parity) er er.length K = some res ∧
    n = count N fun i => (bits res.buf.1 res.buf.2 K (N - K)).getD i false ≠ beBit codeword i

/-- What the counters count: `unique` and `decoded` are what the decoder of ordered statistics returns. -/
structure OsdScore (O : Ops (Val M) (Fin (2 ^ M - 1))) (NR N K : Nat) (im : List (Val M)) (codeword : List (BitVec 8)) (noisy : List Int) (unique : Bool) (decoded : List (BitVec 8))
    (r : OsdCounts) : Prop where
  awgn : r.awgn = count N fun i => noisy.getD i 0 * sign (beBit codeword i) < 0
  erasures : r.erasures = count N fun i => noisy.getD i 0 = 0
  uncorrected : r.uncorrected = count N fun i => beBit decoded i ≠ beBit codeword i
  ambiguity : r.ambiguity = if unique then 0 else N
  frame : r.frame = if unique = true ∧ r.uncorrected = 0 then 0 else 1
  bch : BchScore O NR N K im noisy codeword r.bch

/-! ### The parts of a trial -/

theorem OsdCode.minimal (S : OsdCode w M P T u ui NR N K polys genmat gen im) : BCH.Minimal (N - K) polys where
  np := by have := S.K_lt; omega
  pos := fun m hm => by have := S.gens.pos m hm; omega
  int := S.gens.int
  deg := S.gens.deg

theorem OsdCode.params (S : OsdCode w M P T u ui NR N K polys genmat gen im) : BParams M NR 1 K (N - K) K where
  fcr := by
    have := S.degree
    have : 2 ^ 2 ≤ 2 ^ M := Nat.pow_le_pow_right (by omega) this
    omega
  nr := S.nr_pos
  nrN := by have := S.nr_lt; have := S.length; omega
  pos := S.K_pos
  len := le_refl K
  total := by have := S.K_lt; have := S.length; omega

theorem OsdCode.matrix (S : OsdCode w M P T u ui NR N K polys genmat gen im) :
    genmat.length = N * K ∧ (∀ x ∈ genmat, x = 0#8 ∨ x = 1#8) ∧ FullRank K N (entry N genmat) ∧ ∀ c, InCode K N (entry N genmat) c ↔ genPoly polys ∣ OSD.wordPoly N c := by
  obtain ⟨g0, h1, h2⟩ := S.mat
  have hKN := S.K_lt
  obtain ⟨g, e, e1, e2, -⟩ := OSD.C45_systematic S.gens S.K_pos (by omega) (g0 := g0) (by omega)
  cases h2.symm.trans e
  obtain ⟨f1, f2⟩ := OSD.C45_same_code S.gens S.K_pos (by omega) (g0 := g0) (by omega) h2
  refine ⟨by omega, fun x hx => ?_, f1, f2⟩
  obtain ⟨i, hi, rfl⟩ := List.mem_iff_getElem.mp hx
  have := e2 i (by omega)
  rwa [List.getD_eq_getElem?_getD, List.getElem?_eq_getElem hi, Option.getD_some] at this

/-- Both encoders agree, whatever the message. -/
theorem osd_encode {dec : Nat} {A : OsdArrays} {message : List (BitVec 8)} (S : OsdCode w M P T u ui NR N K polys genmat gen im) (Z : OsdSizes NR N K dec A)
    (hm : message.length = (K + 7) / 8) :
    ∃ codeword parity, OSD.linEncode N K A.codeword message genmat = some codeword ∧ osdEncode N K genmat gen A.codeword message A.parity = some (codeword, parity) ∧
      OsdSent N K polys message codeword ∧ parity.length = (N - K + 7) / 8 := by
  obtain ⟨g0, h1, h2⟩ := S.mat
  obtain ⟨g1, h3, h4⟩ := S.enc
  have hKN := S.K_lt
  have hcl := Z.codeword
  have hpl := Z.parity
  obtain ⟨m1, m2, m3, m4⟩ := S.matrix
  obtain ⟨gen', hg, he⟩ := BCH.C27_encoder S.minimal g1 h3
  cases h4.symm.trans hg
  obtain ⟨q, hq, hql, -⟩ := he K message A.parity K S.K_pos (le_refl K) (by omega) (by omega)
  obtain ⟨out, o1, o2, o3⟩ := OSD.C45_bch S.gens S.K_pos hKN (by omega) h2 (message := message) (codeword := A.codeword) (by omega) (by omega) h3 h4 (by omega) (le_refl K) hq
  obtain ⟨out', p1, p2, p3, -⟩ := OSD.C45_encoder (N := N) (K := K) (codeword := A.codeword) (message := message) (genmat := genmat) S.K_pos (by omega) (by omega) (by omega)
    (fun x hx => by
      rw [List.getD_eq_getElem?_getD, List.getElem?_eq_getElem (by omega), Option.getD_some]
      exact m2 _ (List.getElem_mem _))
  cases o1.symm.trans p1
  refine ⟨out, q, o1, ?_, ⟨by omega, o2, ?_⟩, by omega⟩
  · unfold osdEncode
    rw [o1, sb, checkBits_ok (by omega) (by omega) (fun i hi => by rw [Nat.zero_add]; exact o2 i hi), sb, hq, sb, checkBits_ok (by omega) (by omega) o3, sb]
    rfl
  · rw [← OSD.wordPoly_bits, ← m4]
    exact ⟨bitsZ message, p3⟩

theorem bch_errors {noisy : List Int} {message parity codeword : List (BitVec 8)} {erasures : List Nat} (S : OsdCode w M P T u ui NR N K polys genmat gen im) (hn : noisy.length = N)
    (hm : message.length = (K + 7) / 8) (hp : parity.length = (N - K + 7) / 8) (hc : codeword.length = (N + 7) / 8) (he : erasures.length = NR) :
    ∃ n, bchErrors w (tableOps w M T u ui) NR N K im noisy message parity codeword erasures = some n ∧ BchScore (tableOps w M T u ui) NR N K im noisy codeword n := by
  have hKN := S.K_lt
  have hN := S.length
  obtain ⟨d, d1, d2, d3⟩ := harden_ok (lo := 0) (n := K) (noisy := noisy) (buf := message) (by omega) (by omega)
  obtain ⟨p, p1, p2, p3⟩ := harden_ok (lo := K) (n := N - K) (noisy := noisy) (buf := parity) (by omega) (by omega)
  have hw : N ≤ 2 ^ w := by
    have : 2 ^ M ≤ 2 ^ w := Nat.pow_le_pow_right (by omega) S.ready.hw
    omega
  obtain ⟨l, l1, l2⟩ := findErasures_ok (w := w) (N := N) (NR := NR) (noisy := noisy) (erasures := erasures) hn (by omega) hw
  have hz : ∀ x ∈ zeros N NR noisy, x < N := fun x hx => by
    have := List.mem_of_mem_take hx
    exact List.mem_range.1 (List.mem_filter.1 this).1
  obtain ⟨er, e1, e2⟩ := asIndices_ok (M := M) (l := zeros N NR noisy) (fun x hx => by have := hz x hx; omega)
  have hel : er.length = (zeros N NR noisy).length := by rw [← e2, List.length_map]
  have call : BCall (tableOps w M T u ui) NR (N - K) K (8 * d.length) (8 * p.length) im er er.length := by
    refine ⟨S.tab, by omega, by omega, ?_, le_refl _, ?_, fun e he => ?_⟩
    · rw [hel]; unfold zeros; rw [List.length_take]; omega
    · rw [List.take_length]
      refine List.Nodup.of_map Fin.val ?_
      rw [e2]
      unfold zeros
      exact ((List.nodup_range.filter _).sublist (List.take_sublist _ _))
    · rw [List.take_length] at he
      have : e.1 ∈ er.map Fin.val := List.mem_map.2 ⟨e, he, rfl⟩
      rw [e2] at this
      have := hz _ this
      omega
  obtain ⟨res, r1, -, -, -, r2, r3, -⟩ := BCH.C29_contract S.ready S.degree u ui S.params call
  have hb : ∀ (a b : List (BitVec 8)) i, i < N → (bits a b K (N - K)).getD i false = if i < K then beBit a i else beBit b (i - K) := fun a b i hi =>
    BCH.bits_getD a b (by omega)
  refine ⟨_, ?_, d, p, er, res, by omega, by omega, fun i hi => ?_, e2, r1, rfl⟩
  · unfold bchErrors
    rw [d1, sb, p1, sb, l1, sb]
    dsimp only
    rw [l2, e1, sb, ← hel, r1, sb, unequal_eq (by omega) (by omega), sb, unequal_eq (by omega) (by omega), sb]
    refine congrArg some ?_
    have hsplit : ∀ (p : Nat → Prop) [DecidablePred p] (a b : Nat), count (a + b) p = count a p + count b fun i => p (a + i) := by
      intro p _ a b
      unfold count
      rw [Finset.sum_range_add]
    conv_rhs => rw [show N = K + (N - K) by omega, hsplit]
    congr 1
    · refine count_congr fun i hi => ?_
      rw [show K + (N - K) - K = N - K by omega, hb _ _ i (by omega), if_pos hi, Nat.zero_add]
      exact ne_comm
    · refine count_congr fun i hi => ?_
      rw [show K + (N - K) - K = N - K by omega, hb _ _ (K + i) (by omega), if_neg (by omega), show K + i - K = i by omega]
      exact ne_comm
  · rw [hb _ _ i hi]
    split
    · rename_i h
      rw [d3 i h, Nat.zero_add]
    · rw [p3 (i - K) (by omega), show K + (i - K) = i by omega]

/-! ### The trials -/

/-- **C75** (ordered statistics decoding): for every BCH code, message, factor other than 0 and finite noise a trial is defined; in particular the linear encoder always produces the
codeword of the BCH encoder.  The counters count what `OsdScore` says. -/
theorem C75_osd {O : Nat} {A : OsdArrays} {cand message : List (BitVec 8)} {f : ℚ} {noise : Nat → ℚ} (hf : f ≠ 0) (S : OsdCode w M P T u ui NR N K polys genmat gen im)
    (Z : OsdSizes NR N K ((N + 7) / 8) A) (hcand : cand.length = OSD.W N) (hm : message.length = (K + 7) / 8) :
    ∃ codeword noisy unique decoded M' cand' r, OsdSent N K polys message codeword ∧ Received F N f noise (fun i => sign (beBit codeword i)) noisy ∧
      OSD.decode N K O A.mem cand A.decoded (noisy.map (BitVec.ofInt 8)) genmat = some (unique, decoded, M', cand') ∧
      osdTrial F w (tableOps w M T u ui) NR N K O genmat gen im A cand (.fin f) (fun i => .fin (noise i)) message = some r ∧
      OsdScore (tableOps w M T u ui) NR N K im codeword noisy unique decoded r := by
  obtain ⟨codeword, parity, -, e1, hs, e2⟩ := osd_encode S Z hm
  have hcl := hs.length
  obtain ⟨m1, m2, m3, -⟩ := S.matrix
  obtain ⟨noisy, g1, g2, -⟩ := channel_word (F := F) (noise := noise) (word := fun i => sign (beBit codeword i)) (out := A.noisy) (symb := A.symb) hf Z.noisy Z.symb
  have hnl := g2.length
  have hdl := Z.decoded
  obtain ⟨unique, decoded, M', cand', h1, -, -, h2, -⟩ := OSD.C46_decode (O := O) (cand := cand) (hard := A.decoded) (soft := noisy.map (BitVec.ofInt 8)) Z.mem hcand S.K_pos m2 (by omega)
    (by rw [List.length_map]; omega) (by omega) m3
  obtain ⟨n, b1, b2⟩ := bch_errors (message := message) (parity := parity) (codeword := codeword) (erasures := A.erasures) S hnl hm e2 hcl Z.erasures
  refine ⟨codeword, noisy, unique, decoded, M', cand', ⟨count N fun i => noisy.getD i 0 * sign (beBit codeword i) < 0, count N fun i => noisy.getD i 0 = 0,
    count N fun i => beBit decoded i ≠ beBit codeword i, if unique then 0 else N,
    if unique = true ∧ (count N fun i => beBit decoded i ≠ beBit codeword i) = 0 then 0 else 1, n⟩, hs, g2, h1, ?_, ⟨rfl, rfl, rfl, rfl, rfl, b2⟩⟩
  unfold osdTrial
  rw [e1, sb]
  dsimp only
  rw [bpskBits_eq (by omega) Z.orig, sb, g1, sb, h1, sb]
  dsimp only
  rw [wrongSigns_eq hnl (by simp), sb, erased_eq hnl, sb, osdJudge_eq (by omega) (by omega), sb]
  dsimp only
  rw [b1, sb]
  have hw : (count N fun i => noisy.getD i 0 * ((List.range N).map fun i => sign (beBit codeword i)).getD i 0 < 0) = count N fun i => noisy.getD i 0 * sign (beBit codeword i) < 0 :=
    count_congr fun i hi => by rw [getD_words hi]
  have hfr : (∀ i, i < N → beBit decoded i = beBit codeword i) ↔ (count N fun i => beBit decoded i ≠ beBit codeword i) = 0 := by
    rw [count_zero]
    simp only [not_not, ne_eq]
  rw [hw]
  simp only [hfr]
  rfl

/-! ### What follows -/

theorem count_card (N : Nat) (p : Nat → Prop) [DecidablePred p] : count N p = ((Finset.range N).filter p).card := by
  unfold count
  rw [Finset.card_filter]

/-- **C75** (the BCH decoder beside the decoders of ordered statistics): if the wrong signs, counted twice, and the zeros are at most `NR`, the BCH decoder restores the codeword - except for
two positions of the kind that its table does not know. -/
theorem C75_osd_bch {message codeword : List (BitVec 8)} {noisy : List Int} {n : Nat} (S : OsdCode w M P T u ui NR N K polys genmat gen im) (hs : OsdSent N K polys message codeword)
    (h : BchScore (tableOps w M T u ui) NR N K im noisy codeword n)
    (hcap : 2 * (count N fun i => noisy.getD i 0 * sign (beBit codeword i) < 0) + (count N fun i => noisy.getD i 0 = 0) ≤ NR)
    (hex : ¬ Excluded P M N ((Finset.range N).filter fun i => noisy.getD i 0 * sign (beBit codeword i) ≤ 0)) : n = 0 := by
  obtain ⟨data, parity, er, res, d1, d2, d3, d4, d5, rfl⟩ := h
  have hKN := S.K_lt
  have hN := S.length
  have hzl : ((List.range N).filter fun i => noisy.getD i 0 = 0).length ≤ NR := by
    have : ((List.range N).filter fun i => noisy.getD i 0 = 0).length = count N fun i => noisy.getD i 0 = 0 := by
      rw [count_card, ← List.toFinset_card_of_nodup (List.nodup_range.filter _)]
      congr 1
      ext x
      simp
    omega
  rw [List.take_of_length_le hzl] at d4
  have hel : er.length = ((List.range N).filter fun i => noisy.getD i 0 = 0).length := by rw [← d4, List.length_map]
  have her : RS.erased er er.length = (Finset.range N).filter fun i => noisy.getD i 0 = 0 := by
    unfold RS.erased
    rw [List.take_length, d4]
    ext x
    simp
  have call : BCall (tableOps w M T u ui) NR (N - K) K (8 * data.length) (8 * parity.length) im er er.length := by
    refine ⟨S.tab, by omega, by omega, by omega, le_refl _, ?_, fun e he => ?_⟩
    · rw [List.take_length]
      refine List.Nodup.of_map Fin.val ?_
      rw [d4]
      exact List.nodup_range.filter _
    · rw [List.take_length] at he
      have : e.1 ∈ er.map Fin.val := List.mem_map.2 ⟨e, he, rfl⟩
      rw [d4] at this
      have := List.mem_range.1 (List.mem_filter.1 this).1
      omega
  have hdiff : diffPos (syms (bits data parity K (N - K))) (syms (bitsOf (beBit codeword) N)) \ RS.erased er er.length =
      (Finset.range N).filter fun i => noisy.getD i 0 * sign (beBit codeword i) < 0 := by
    rw [her]
    ext i
    unfold diffPos
    rw [Finset.mem_sdiff, Finset.mem_filter, Finset.mem_filter, Finset.mem_filter, Finset.mem_range, Finset.mem_range, bits_length, BCH.syms_getD, BCH.syms_getD,
      show K + (N - K) = N by omega]
    by_cases hi : i < N
    · rw [d3 i hi, BCH.getD_bitsOf _ hi]
      simp only [hi, true_and]
      generalize noisy.getD i 0 = x
      cases beBit codeword i <;> simp only [sign, if_true, Bool.false_eq_true, if_false]
      · by_cases h0 : x < 0
        · simp [h0]; omega
        · simp [h0]
      · by_cases h0 : x < 0
        · simp [h0]; omega
        · simp [h0]; omega
    · simp [hi]
  obtain ⟨r, r1, r2, -⟩ := BCH.C28_correct S.ready S.degree u ui S.params S.roots call (c := bitsOf (beBit codeword) N) (by rw [BCH.length_bitsOf]; omega) hs.codeword
    (by rw [hdiff, ← count_card, hel, ← List.toFinset_card_of_nodup (List.nodup_range.filter _)]
        refine le_trans (le_of_eq ?_) hcap
        congr 1
        rw [count_card]
        congr 1
        ext x
        simp)
    (by rw [hdiff, her, show K + (N - K) = N by omega, Finset.union_comm, ← Finset.filter_or]
        intro hh
        refine hex ?_
        convert hh using 3
        rename_i i _
        constructor
        · intro h0
          rcases sign_pm (beBit codeword i) with e | e <;> rw [e] at h0 ⊢ <;> omega
        · rintro (h0 | h0)
          · omega
          · rw [h0, zero_mul])
  cases d5.symm.trans r1
  rw [count_zero]
  intro i hi
  rw [r2, BCH.getD_bitsOf _ hi, ne_eq, not_not]

theorem getD_map_ofInt {noisy : List Int} {i : Nat} (hi : i < noisy.length) (h : -127 ≤ noisy.getD i 0 ∧ noisy.getD i 0 ≤ 127) :
    OSD.val (noisy.map (BitVec.ofInt 8)) i = noisy.getD i 0 := by
  unfold OSD.val
  rw [List.getD_eq_getElem?_getD, List.getElem?_map, List.getElem?_eq_getElem hi, Option.map_some, Option.getD_some, List.getD_eq_getElem?_getD, List.getElem?_eq_getElem hi, Option.getD_some]
  rw [List.getD_eq_getElem?_getD, List.getElem?_eq_getElem hi, Option.getD_some] at h
  rw [BitVec.toInt_ofInt, Int.bmod_def]
  split <;> omega

/-- The values are in the range of the quantisation. -/
theorem Received.range {f : ℚ} {noise : Nat → ℚ} {word : Nat → Int} {noisy : List Int} (g : Received F N f noise word noisy) :
    ∀ i, i < N → -127 ≤ noisy.getD i 0 ∧ noisy.getD i 0 ≤ 127 := by
  intro j hj
  have := g.value j hj
  revert this
  generalize llr F (.fin f) (.fin (noise j)) (word j) = y
  generalize noisy.getD j 0 = n
  intro this
  have hmn := (C49_quant_float y n).2 this
  cases y with
  | nan => rw [quantF_nan] at hmn; cases hmn
  | inf b => rw [quantF_inf] at hmn; cases hmn; cases b <;> simp
  | fin q => rw [quantF_fin] at hmn; cases hmn; omega

/-- **C75** (ordered statistics decoding, weak noise): nothing is counted. -/
theorem C75_osd_weak {O : Nat} {A : OsdArrays} {cand message : List (BitVec 8)} {f : ℚ} {noise : Nat → ℚ} (hf : 0 < f) (S : OsdCode w M P T u ui NR N K polys genmat gen im)
    (Z : OsdSizes NR N K ((N + 7) / 8) A) (hcand : cand.length = OSD.W N) (hm : message.length = (K + 7) / 8)
    (hw : ∀ i, i < N → ∀ c : Int, c = 1 ∨ c = -1 → Weak F f c (noise i)) :
    osdTrial F w (tableOps w M T u ui) NR N K O genmat gen im A cand (.fin f) (fun i => .fin (noise i)) message = some ⟨0, 0, 0, 0, 0, 0⟩ := by
  obtain ⟨codeword, noisy, unique, decoded, M', cand', r, hs, g, hd, hr, hsc⟩ := C75_osd (F := F) (O := O) (noise := noise) hf.ne' S Z hcand hm
  have hpos : ∀ i, i < N → 0 < sign (beBit codeword i) * noisy.getD i 0 := fun i hi =>
    C73_channel_weak hf (sign_pm _) (hw i hi _ (sign_pm _)) (g.value i hi)
  have hgl := g.length
  have hrg := g.range
  have hdl := Z.decoded
  obtain ⟨m1, m2, m3, m4⟩ := S.matrix
  have hhard : ∀ i, i < N → OSD.hardBit (noisy.map (BitVec.ofInt 8)) i = bitsZ codeword i := by
    intro i hi
    unfold OSD.hardBit OSD.bitsZ
    rw [getD_map_ofInt (by omega) (hrg i hi)]
    have := hpos i hi
    generalize noisy.getD i 0 = x at this ⊢
    cases hb : beBit codeword i <;> rw [hb] at this <;> simp only [sign, if_true, Bool.false_eq_true, if_false] at this
    · rw [if_neg (by omega)]; rfl
    · rw [if_pos (by omega)]; rfl
  obtain ⟨out, M2, c2, e1, e2⟩ := OSD.C46_hard_decisions (O := O) (cand := cand) (hard := A.decoded) (soft := noisy.map (BitVec.ofInt 8)) Z.mem hcand S.K_pos m2 (by omega)
    (by rw [List.length_map]; omega) (by omega) m3 (fun i hi => by
      rw [getD_map_ofInt (by omega) (hrg i hi)]
      intro h0
      have := hpos i hi
      rw [h0, mul_zero] at this
      omega) (by
      have hc := hs.codeword
      rw [← OSD.wordPoly_bits, ← m4] at hc
      obtain ⟨m, hm⟩ := hc
      exact ⟨m, fun p hp => by rw [hhard p hp, hm p hp]⟩)
  rw [hd] at e1
  cases e1
  have hbit : ∀ i, i < N → beBit decoded i = beBit codeword i := by
    intro i hi
    have := e2 i hi
    rw [hhard i hi] at this
    unfold OSD.bitsZ BCH.b2 at this
    cases h1 : beBit decoded i <;> cases h2 : beBit codeword i <;> rw [h1, h2] at this <;> simp at this ⊢
  have ha : r.awgn = 0 := by
    rw [hsc.awgn, count_zero]
    intro i hi
    have := hpos i hi
    rw [mul_comm] at this
    omega
  have he : r.erasures = 0 := by
    rw [hsc.erasures, count_zero]
    intro i hi h0
    have := hpos i hi
    rw [h0, mul_zero] at this
    omega
  have hu : r.uncorrected = 0 := by
    rw [hsc.uncorrected, count_zero]
    intro i hi h0
    exact h0 (hbit i hi)
  have hb : r.bch = 0 := by
    refine C75_osd_bch S hs hsc.bch (by rw [← hsc.awgn, ← hsc.erasures, ha, he]; omega) ?_
    rw [Finset.filter_false_of_mem]
    · rintro ⟨p, q, -, hh, -⟩
      exact absurd hh (Finset.insert_ne_empty _ _).symm
    · intro i hi
      have := hpos i (Finset.mem_range.1 hi)
      rw [mul_comm] at this
      omega
  have hf' := hsc.frame
  have hm' := hsc.ambiguity
  rw [hu] at hf'
  rw [hr]
  obtain ⟨a, b, c, d, e, g⟩ := r
  simp only [if_true, and_self] at ha he hu hb hf' hm'
  subst ha he hu hb hf' hm'
  rfl

/-- The soft values as bit patterns, for the specification of the decoders of ordered statistics. -/
abbrev asBytes (noisy : List Int) : List (BitVec 8) := noisy.map (BitVec.ofInt 8)

theorem hardBit_sent {codeword : List (BitVec 8)} {noisy : List Int} (hl : noisy.length = N) (hr : ∀ i, i < N → -127 ≤ noisy.getD i 0 ∧ noisy.getD i 0 ≤ 127)
    (hpos : ∀ i, i < N → 0 < sign (beBit codeword i) * noisy.getD i 0) : (∀ i, i < N → OSD.val (asBytes noisy) i ≠ 0) ∧ Agree N (OSD.hardBit (asBytes noisy)) (bitsZ codeword) := by
  constructor
  · intro i hi
    rw [getD_map_ofInt (by omega) (hr i hi)]
    intro h0
    have := hpos i hi
    rw [h0, mul_zero] at this
    omega
  · intro i hi
    unfold OSD.hardBit OSD.bitsZ
    rw [getD_map_ofInt (by omega) (hr i hi)]
    have := hpos i hi
    generalize noisy.getD i 0 = x at this ⊢
    cases hb : beBit codeword i <;> rw [hb] at this <;> simp only [sign, if_true, Bool.false_eq_true, if_false] at this
    · rw [if_neg (by omega)]; rfl
    · rw [if_pos (by omega)]; rfl

theorem bits_agree {a b : List (BitVec 8)} {i j : Nat} (h : bitsZ a i = bitsZ b j) : beBit a i = beBit b j := by
  unfold OSD.bitsZ BCH.b2 at h
  cases h1 : beBit a i <;> cases h2 : beBit b j <;> rw [h1, h2] at h <;> simp at h ⊢

/-- **C75** (ordered statistics decoding, strictly best codeword): if the codeword that was sent is in the search set, correlates strictly better than the other words of it and not
negatively, it is found and nothing counts as wrong or ambiguous. -/
theorem C75_osd_best {O : Nat} {A : OsdArrays} {cand message : List (BitVec 8)} {codeword decoded cand' : List (BitVec 8)} {noisy : List Int} {unique : Bool} {M' : OSD.Mem} {r : OsdCounts}
    (S : OsdCode w M P T u ui NR N K polys genmat gen im) (Z : OsdSizes NR N K ((N + 7) / 8) A) (hcand : cand.length = OSD.W N) (hnl : noisy.length = N)
    (hd : OSD.decode N K O A.mem cand A.decoded (asBytes noisy) genmat = some (unique, decoded, M', cand')) (hsc : OsdScore (tableOps w M T u ui) NR N K im codeword noisy unique decoded r)
    (hb : OSD.StrictlyBest K N O (entry N genmat) (asBytes noisy) (bitsZ codeword)) (h0 : 0 ≤ corr N (asBytes noisy) (bitsZ codeword)) :
    r.uncorrected = 0 ∧ r.ambiguity = 0 ∧ r.frame = 0 := by
  obtain ⟨m1, m2, m3, m4⟩ := S.matrix
  have hdl := Z.decoded
  obtain ⟨out, M2, c2, e1, e2⟩ := OSD.C46_best (O := O) (cand := cand) (hard := A.decoded) (soft := asBytes noisy) Z.mem hcand S.K_pos m2 (by omega)
    (by rw [List.length_map]; omega) (by omega) m3 hb h0
  rw [hd] at e1
  cases e1
  have hu : r.uncorrected = 0 := by
    rw [hsc.uncorrected, count_zero]
    intro i hi h0
    exact h0 (bits_agree (e2 i hi))
  exact ⟨hu, by rw [hsc.ambiguity, if_pos rfl], by rw [hsc.frame, if_pos ⟨rfl, hu⟩]⟩

/-! ### The list decoder -/

/-- Word `j` of the list is the codeword. -/
def InList (N : Nat) (out codeword : List (BitVec 8)) (j : Nat) : Prop := ∀ i, i < N → beBit out (8 * (j * ((N + 7) / 8)) + i) = beBit codeword i

/-- What is counted for the list `out` with the ranks `rank`: its first word, which is unique if the second has another rank - or, with the oracle, the codeword itself if it is in the list. -/
structure Picked (N L : Nat) (oracle : Bool) (codeword out : List (BitVec 8)) (rank : List Nat) (unique : Bool) (decoded : List (BitVec 8)) : Prop where
  found : oracle = true → (∃ j, j < L ∧ InList N out codeword j) → unique = true ∧ ∀ i, i < N → beBit decoded i = beBit codeword i
  first : ¬ (oracle = true ∧ ∃ j, j < L ∧ InList N out codeword j) → (unique = true ↔ rank.getD 0 0 ≠ rank.getD 1 0) ∧ decoded = out

/-- **C75** (ordered statistics list decoding): for every BCH code, list of at least two words, message, factor other than 0 and finite noise a trial is defined, with or without the
oracle; the counters count what `OsdScore` says of the word that `Picked` describes. -/
theorem C75_osld {O L : Nat} {oracle : Bool} {A : OsdArrays} {lst : OSD.Lst} {rank : List Nat} {message : List (BitVec 8)} {f : ℚ} {noise : Nat → ℚ} (hf : f ≠ 0)
    (S : OsdCode w M P T u ui NR N K polys genmat gen im) (Z : OsdSizes NR N K ((N + 7) / 8 * L) A) (hL : 2 ≤ L) (hlst : OSD.ValidL N L lst) (hrank : rank.length = L)
    (hm : message.length = (K + 7) / 8) :
    ∃ codeword noisy rank' out M' lst' unique decoded r, OsdSent N K polys message codeword ∧ Received F N f noise (fun i => sign (beBit codeword i)) noisy ∧
      OSD.decodeL N K O L A.mem lst rank A.decoded (asBytes noisy) genmat = some (rank', out, M', lst') ∧ Picked N L oracle codeword out rank' unique decoded ∧
      osldTrial F w (tableOps w M T u ui) NR N K O L oracle genmat gen im A lst rank (.fin f) (fun i => .fin (noise i)) message = some r ∧
      OsdScore (tableOps w M T u ui) NR N K im codeword noisy unique decoded r := by
  obtain ⟨codeword, parity, -, e1, hs, e2⟩ := osd_encode S Z hm
  have hcl := hs.length
  obtain ⟨m1, m2, m3, -⟩ := S.matrix
  obtain ⟨noisy, g1, g2, -⟩ := channel_word (F := F) (noise := noise) (word := fun i => sign (beBit codeword i)) (out := A.noisy) (symb := A.symb) hf Z.noisy Z.symb
  have hnl := g2.length
  have hdl := Z.decoded
  obtain ⟨rank', out, M', lst', h1, -, -, h2, h3, -⟩ := OSD.C47_decode (O := O) (s0 := lst) (rank := rank) (hard := A.decoded) (soft := asBytes noisy) Z.mem hlst (by omega) S.K_pos m2
    (by omega) (by rw [List.length_map]; omega) (by omega) (by rw [hdl, Nat.mul_comm]) m3
  obtain ⟨n, b1, b2⟩ := bch_errors (message := message) (parity := parity) (codeword := codeword) (erasures := A.erasures) S hnl hm e2 hcl Z.erasures
  have hNL : (N + 7) / 8 ≤ (N + 7) / 8 * L := Nat.le_mul_of_pos_right _ (by omega)
  obtain ⟨unique, decoded, p1, p2, p3⟩ : ∃ unique decoded, pick N L oracle codeword (rank'.getD 0 0 != rank'.getD 1 0) out = some (unique, decoded) ∧ decoded.length = out.length ∧ Picked N L oracle codeword out rank' unique decoded := by
    obtain ⟨v, d, a1, a2, a3, a4⟩ := askOracle_ok (N := N) (L := L) (codeword := codeword) (decoded := out) (unique := rank'.getD 0 0 != rank'.getD 1 0) (by omega) (by omega)
    have hli : ∀ j, Listed N out codeword j ↔ InList N out codeword j := fun j => by unfold Listed InList; rw [Nat.mul_comm j]
    simp only [hli] at a3 a4
    cases oracle
    · refine ⟨_, _, rfl, rfl, fun h => absurd h (by simp), fun _ => ⟨by simp, rfl⟩⟩
    · refine ⟨v, d, by rw [pick, if_pos rfl, a1], a2, fun _ h => a3 h, fun h => ?_⟩
      obtain ⟨q1, q2⟩ := a4 fun hh => h ⟨rfl, hh⟩
      exact ⟨by rw [q1, bne_iff_ne], q2⟩
  refine ⟨codeword, noisy, rank', out, M', lst', unique, decoded, ⟨count N fun i => noisy.getD i 0 * sign (beBit codeword i) < 0, count N fun i => noisy.getD i 0 = 0,
    count N fun i => beBit decoded i ≠ beBit codeword i, if unique then 0 else N,
    if unique = true ∧ (count N fun i => beBit decoded i ≠ beBit codeword i) = 0 then 0 else 1, n⟩, hs, g2, h1, p3, ?_, ⟨rfl, rfl, rfl, rfl, rfl, b2⟩⟩
  unfold osldTrial
  rw [e1, sb]
  dsimp only
  rw [bpskBits_eq (by omega) Z.orig, sb, g1, sb, h1, sb]
  dsimp only
  rw [rd_getD (d := 0) (by omega), sb, rd_getD (d := 0) (by omega), sb, p1, sb]
  dsimp only
  rw [wrongSigns_eq hnl (by simp), sb, erased_eq hnl, sb, osdJudge_eq (by omega) (by omega), sb]
  dsimp only
  rw [b1, sb]
  have hw : (count N fun i => noisy.getD i 0 * ((List.range N).map fun i => sign (beBit codeword i)).getD i 0 < 0) = count N fun i => noisy.getD i 0 * sign (beBit codeword i) < 0 :=
    count_congr fun i hi => by rw [getD_words hi]
  have hfr : (∀ i, i < N → beBit decoded i = beBit codeword i) ↔ (count N fun i => beBit decoded i ≠ beBit codeword i) = 0 := by
    rw [count_zero]
    simp only [not_not, ne_eq]
  rw [hw]
  simp only [hfr]
  rfl

/-- **C75** (ordered statistics list decoding, the oracle): a frame counts as wrong exactly if the codeword is not in the list. -/
theorem C75_osld_oracle {L : Nat} {codeword out decoded : List (BitVec 8)} {rank : List Nat} {noisy : List Int} {unique : Bool} {O : Ops (Val M) (Fin (2 ^ M - 1))} {r : OsdCounts}
    (hL : 0 < L) (hp : Picked N L true codeword out rank unique decoded) (hsc : OsdScore O NR N K im codeword noisy unique decoded r) :
    (r.frame = 0 ↔ ∃ j, j < L ∧ InList N out codeword j) ∧ (r.frame = 0 → r.uncorrected = 0 ∧ r.ambiguity = 0) := by
  have hfr : r.frame = 0 ↔ unique = true ∧ r.uncorrected = 0 := by
    rw [hsc.frame]
    split <;> simp_all
  refine ⟨⟨fun h => ?_, fun h => ?_⟩, fun h => ?_⟩
  · by_contra hn
    obtain ⟨-, rfl⟩ := hp.first fun hh => hn hh.2
    have hu := (hfr.1 h).2
    rw [hsc.uncorrected, count_zero] at hu
    refine hn ⟨0, hL, fun i hi => ?_⟩
    have := not_not.1 (hu i hi)
    rw [Nat.zero_mul, Nat.mul_zero, Nat.zero_add]
    exact this
  · obtain ⟨h1, h2⟩ := hp.found rfl h
    rw [hfr]
    refine ⟨h1, ?_⟩
    rw [hsc.uncorrected, count_zero]
    intro i hi h0
    exact h0 (h2 i hi)
  · obtain ⟨h1, h2⟩ := hfr.1 h
    exact ⟨h2, by rw [hsc.ambiguity, if_pos h1]⟩

/-- **C75** (ordered statistics list decoding, weak noise): nothing is counted, with or without the oracle. -/
theorem C75_osld_weak {O L : Nat} {oracle : Bool} {A : OsdArrays} {lst : OSD.Lst} {rank : List Nat} {message : List (BitVec 8)} {f : ℚ} {noise : Nat → ℚ} (hf : 0 < f)
    (S : OsdCode w M P T u ui NR N K polys genmat gen im) (Z : OsdSizes NR N K ((N + 7) / 8 * L) A) (hL : 2 ≤ L) (hlst : OSD.ValidL N L lst) (hrank : rank.length = L)
    (hm : message.length = (K + 7) / 8) (hw : ∀ i, i < N → ∀ c : Int, c = 1 ∨ c = -1 → Weak F f c (noise i)) :
    osldTrial F w (tableOps w M T u ui) NR N K O L oracle genmat gen im A lst rank (.fin f) (fun i => .fin (noise i)) message = some ⟨0, 0, 0, 0, 0, 0⟩ := by
  obtain ⟨codeword, noisy, rank', out, M', lst', unique, decoded, r, hs, g, hd, hp, hr, hsc⟩ := C75_osld (F := F) (O := O) (oracle := oracle) (noise := noise) hf.ne' S Z hL hlst hrank hm
  have hpos : ∀ i, i < N → 0 < sign (beBit codeword i) * noisy.getD i 0 := fun i hi =>
    C73_channel_weak hf (sign_pm _) (hw i hi _ (sign_pm _)) (g.value i hi)
  have hgl := g.length
  have hdl := Z.decoded
  obtain ⟨m1, m2, m3, m4⟩ := S.matrix
  obtain ⟨z1, z2⟩ := hardBit_sent hgl g.range hpos
  obtain ⟨rank2, out2, M2, l2, e1, e2, e3, e4⟩ := OSD.C47_hard_decisions (O := O) (s0 := lst) (rank := rank) (hard := A.decoded) (soft := asBytes noisy) Z.mem hlst hL S.K_pos m2 (by omega)
    (by rw [List.length_map]; omega) (by omega) (by rw [hdl, Nat.mul_comm]) m3 z1 (by
      have hc := hs.codeword
      rw [← OSD.wordPoly_bits, ← m4] at hc
      obtain ⟨m, hm⟩ := hc
      exact ⟨m, fun p hp => by rw [z2 p hp, hm p hp]⟩)
  rw [hd] at e1
  cases e1
  have h0 : InList N out codeword 0 := fun i hi => bits_agree ((e2 i hi).trans (z2 i hi))
  have hpick : unique = true ∧ ∀ i, i < N → beBit decoded i = beBit codeword i := by
    by_cases ho : oracle = true
    · exact hp.found ho ⟨0, by omega, h0⟩
    · obtain ⟨q1, rfl⟩ := hp.first fun h => ho h.1
      refine ⟨q1.2 (by rw [e3, e4]; decide), fun i hi => ?_⟩
      have := h0 i hi
      rwa [Nat.zero_mul, Nat.mul_zero, Nat.zero_add] at this
  obtain ⟨hq, hbit⟩ := hpick
  subst hq
  have ha : r.awgn = 0 := by
    rw [hsc.awgn, count_zero]
    intro i hi
    have := hpos i hi
    rw [mul_comm] at this
    omega
  have he : r.erasures = 0 := by
    rw [hsc.erasures, count_zero]
    intro i hi h0
    have := hpos i hi
    rw [h0, mul_zero] at this
    omega
  have hu : r.uncorrected = 0 := by
    rw [hsc.uncorrected, count_zero]
    intro i hi h0
    exact h0 (hbit i hi)
  have hb : r.bch = 0 := by
    refine C75_osd_bch S hs hsc.bch (by rw [← hsc.awgn, ← hsc.erasures, ha, he]; omega) ?_
    rw [Finset.filter_false_of_mem]
    · rintro ⟨p, q, -, hh, -⟩
      exact absurd hh (Finset.insert_ne_empty _ _).symm
    · intro i hi
      have := hpos i (Finset.mem_range.1 hi)
      rw [mul_comm] at this
      omega
  have hf' := hsc.frame
  have hm' := hsc.ambiguity
  rw [hu] at hf'
  rw [hr]
  obtain ⟨a, b, c, d, e, g⟩ := r
  simp only [if_true, and_self] at ha he hu hb hf' hm'
  subst ha he hu hb hf' hm'
  rfl

/-! ### The codes of the tests -/

theorem osdCode_of (hR : Ready w M P T) (hM : 1 < M) (u : Val M) (ui : Fin (2 ^ M - 1)) (hN : N = 2 ^ M - 1) (hK : 1 ≤ K) (hKN : K < N) (h1 : 0 < NR) (h2 : NR < N)
    (hg : GenPolys (N - K) polys) (hr : ∀ i, i < NR → (genPoly polys).eval₂ (algebraMap (ZMod 2) (GFR P)) (xR P ^ (1 + i)) = 0)
    {g0 g1 : List (BitVec 8)} (l0 : g0.length = N * K) (l1 : g1.length = (N - K + 1 + 7) / 8) :
    ∃ genmat gen im, OSD.matrix N K g0 true polys = some genmat ∧ BCH.encInit (N - K) g1 polys = some gen ∧ OsdCode w M P T u ui NR N K polys genmat gen im := by
  obtain ⟨genmat, e1, -⟩ := OSD.C45_systematic hg hK hKN.le (g0 := g0) (by omega)
  obtain ⟨gen, e2, -⟩ := BCH.C27_encoder (NP := N - K) (polys := polys) ⟨by omega, fun m hm => by have := hg.pos m hm; omega, hg.int, hg.deg⟩ g1 l1
  obtain ⟨im, e3⟩ := C24_constructor hR hM u ui
  exact ⟨genmat, gen, im, e1, e2, ⟨hR, hM, hN, hK, hKN, h1, h2, hg, hr, ⟨g0, l0, e1⟩, ⟨g1, l1, e2⟩, e3⟩⟩

/-- The constructors of both tests succeed, whatever was in the arrays: the (127, 64) code that corrects 10 errors, and the (15, 5) code that corrects 3. -/
theorem C75_osd_codes :
    (∃ T, Ready 8 7 0b10001001 T) ∧ (∃ T, Ready 8 4 0b10011 T) ∧
    (∀ T u ui g0 g1, Ready 8 7 0b10001001 T → g0.length = 127 * 64 → g1.length = 8 → ∃ genmat gen im,
      OSD.matrix 127 64 g0 true [0b10001001, 0b10001111, 0b10011101, 0b11110111, 0b10111111, 0b11010101, 0b10000011, 0b11101111, 0b11001011] = some genmat ∧
      BCH.encInit 63 g1 [0b10001001, 0b10001111, 0b10011101, 0b11110111, 0b10111111, 0b11010101, 0b10000011, 0b11101111, 0b11001011] = some gen ∧
      OsdCode 8 7 0b10001001 T u ui 20 127 64 [0b10001001, 0b10001111, 0b10011101, 0b11110111, 0b10111111, 0b11010101, 0b10000011, 0b11101111, 0b11001011] genmat gen im) ∧
    (∀ T u ui g0 g1, Ready 8 4 0b10011 T → g0.length = 15 * 5 → g1.length = 2 → ∃ genmat gen im,
      OSD.matrix 15 5 g0 true [0b10011, 0b11111, 0b00111] = some genmat ∧ BCH.encInit 10 g1 [0b10011, 0b11111, 0b00111] = some gen ∧
      OsdCode 8 4 0b10011 T u ui 6 15 5 [0b10011, 0b11111, 0b00111] genmat gen im) := by
  refine ⟨?_, ⟨_, RS.Example.ready⟩, ?_, ?_⟩
  · have h : (tables 8 7 0b10001001 ⟨List.replicate 128 0, List.replicate 128 0⟩).isSome = true := by decide +kernel
    obtain ⟨t, ht⟩ := Option.isSome_iff_exists.1 h
    exact ⟨t, by norm_num, by norm_num, by unfold HasDeg; norm_num, _, ⟨List.length_replicate, List.length_replicate⟩, ht⟩
  · intro T u ui g0 g1 hR h0 h1
    exact osdCode_of hR (by norm_num) u ui rfl (by norm_num) (by norm_num) (by norm_num) (by norm_num) OSD.C45_test_codes.1 BCH.Example.C28_test_codes.2.1.roots h0 h1
  · intro T u ui g0 g1 hR h0 h1
    exact osdCode_of hR (by norm_num) u ui rfl (by norm_num) (by norm_num) (by norm_num) (by norm_num) OSD.C45_test_codes.2 BCH.Example.C28_test_codes.1.roots h0 h1

end Verif.Trials
