import Verif.BCH.DecTrans
/- C27, C28, C29: the BCH encoders and decoders.  Specification in Verif/BCH/Spec.lean and
Verif/RS/Spec.lean. -/
namespace Verif.BCH
open Verif.RS Verif.GF Verif.GF2 Verif.Bits Finset Polynomial

variable {w M P NR FCR K NP dl : Nat} {T : Tab}

/-! ### C27 -/

/-- Polynomials acceptable to the packed constructor: positive `int`s, and the degree of their
product is the number of parity bits. -/
structure Minimal (NP : Nat) (polys : List Nat) : Prop where
  np : 0 < NP
  pos : ∀ m ∈ polys, 0 < m
  int : ∀ m ∈ polys, m < 2 ^ 31
  deg : (genPoly polys).natDegree = NP

theorem Minimal.sum {polys : List Nat} (h : Minimal NP polys) : (polys.map Nat.log2).sum = NP := by
  rw [← (genPoly_natDegree h.pos).1, h.deg]

theorem genPoly_lead {polys : List Nat} (h : ∀ m ∈ polys, 0 < m) :
    (genPoly polys).coeff (genPoly polys).natDegree = 1 := by
  have h1 := leadingCoeff_ne_zero.2 (genPoly_natDegree h).2
  have : ∀ z : ZMod 2, z ≠ 0 → z = 1 := by decide
  exact this _ h1

/-- The packed encoder: the constructor succeeds, and then for every data length every call
terminates with all accesses in bounds; data bits followed by parity bits are a multiple of the
product of the minimal polynomials; the padding bits of the last parity byte are zero; nothing
behind it is written. -/
theorem C27_encoder {polys : List Nat} (h : Minimal NP polys) (g0 : List (BitVec 8)) (hg0 : g0.length = (NP + 1 + 7) / 8) :
    ∃ gen, encInit NP g0 polys = some gen ∧
      ∀ (K : Nat) (data parity : List (BitVec 8)) (dl : Nat), 0 < dl → dl ≤ K → dl ≤ 8 * data.length →
        (NP + 7) / 8 ≤ parity.length →
        ∃ q, encode NP K gen data parity dl = some q ∧ q.length = parity.length ∧
          genPoly polys ∣ bitPoly (bits data q dl NP) ∧
          (∀ i, NP ≤ i → i < 8 * ((NP + 7) / 8) → beBit q i = false) ∧
          q.drop ((NP + 7) / 8) = parity.drop ((NP + 7) / 8) := by
  have hnp := h.np
  obtain ⟨gen, hgen, h1, h2, h3⟩ := encInit_ok hg0 (fun m hm => ⟨h.pos m hm, h.int m hm⟩) h.sum
  refine ⟨gen, hgen, ?_⟩
  intro K data parity dl h0 hK hd hp
  have hlead := genPoly_lead h.pos
  rw [h.deg] at hlead
  obtain ⟨q, hq, q1, q2, q3, q4⟩ := encode_ok (K := K) (data := data) (parity := parity) (dl := dl) h.np hlead h.deg ⟨h0, hK⟩
    (by omega) h2 h3 hd (by omega)
  have e : (NP + 7) / 8 = (NP - 1) / 8 + 1 := by omega
  refine ⟨q, hq, q1, q2, by rw [e]; exact q3, ?_⟩
  refine ext_getD 0 (by rw [List.length_drop, List.length_drop, q1]) fun i _ => ?_
  rw [getD_drop', getD_drop', q4 _ (by omega)]

theorem mulAllPacked_some {NP : Nat} : ∀ (polys : List Nat) (g : List (BitVec 8)) (gd : Nat) (r : List (BitVec 8) × Nat), (∀ m ∈ polys, m < 2 ^ 31) →
    mulAllPacked NP polys (g, gd) = some r → (∀ m ∈ polys, 0 < m) ∧ r.2 = gd + (polys.map Nat.log2).sum := by
  have au : ∀ {p : Prop} [Decidable p] {β : Type} {f : PUnit → Option β} {b : β}, (assertUB p >>= f) = some b → p ∧ f ⟨⟩ = some b := by
    intro p _ β f b h
    unfold assertUB at h
    by_cases hp : p
    · rw [if_pos hp] at h; exact ⟨hp, h⟩
    · rw [if_neg hp] at h; exact absurd h (by simp)
  intro polys
  induction polys with
  | nil => intro g gd r _ h; cases h; simp
  | cons m ms ih =>
    intro g gd r hi h
    unfold mulAllPacked at h
    obtain ⟨h0, h⟩ := au h
    rw [degPacked_ok h0 (hi m (by simp)), sb] at h
    obtain ⟨_, h⟩ := au h
    obtain ⟨g', hg', h⟩ := Option.bind_eq_some_iff.1 h
    obtain ⟨h3, h4⟩ := ih g' _ r (fun m' hm' => hi m' (by simp [hm'])) h
    refine ⟨?_, by rw [h4, List.map_cons, List.sum_cons]; omega⟩
    rintro m' hm'
    rcases List.mem_cons.1 hm' with rfl | hm'
    · exact h0
    · exact h3 m' hm'

/-- Every other list is rejected: the packed constructor succeeds only if the polynomials are positive
and their product has degree `NP`. -/
theorem C27_rejects {polys : List Nat} (hNP : 0 < NP) (hi : ∀ m ∈ polys, m < 2 ^ 31) {g0 gen : List (BitVec 8)} (h : encInit NP g0 polys = some gen) :
    Minimal NP polys := by
  unfold encInit at h
  obtain ⟨g1, _, h1⟩ := Option.bind_eq_some_iff.1 h
  obtain ⟨g2, _, h2⟩ := Option.bind_eq_some_iff.1 h1
  obtain ⟨⟨g3, gd⟩, h3, h4⟩ := Option.bind_eq_some_iff.1 h2
  obtain ⟨hp, hs⟩ := mulAllPacked_some polys _ _ _ hi h3
  have : gd = NP + 1 := by
    by_contra hne
    unfold assertUB at h4
    dsimp only at h4
    rw [if_neg hne] at h4
    exact absurd h4 (by simp)
  dsimp only at hs
  exact ⟨hNP, hp, hi, by rw [(genPoly_natDegree hp).1]; omega⟩

/-- The parity bits are determined by the data: two blocks with the same data bits that are both
multiples of the product have the same parity bits. -/
theorem C27_unique {polys : List Nat} (hdeg : (genPoly polys).natDegree = NP) {ds p p' : List Bool} (hp : p.length = NP)
    (hp' : p'.length = NP) (h : genPoly polys ∣ bitPoly (ds ++ p)) (h' : genPoly polys ∣ bitPoly (ds ++ p')) : p = p' := by
  have e : ∀ q : List Bool, q.length = NP → q = bitsOf (fun i => q.getD i false) NP := by
    intro q hq
    refine ext_getD false (by rw [length_bitsOf, hq]) fun i hi => ?_
    rw [getD_bitsOf _ (by omega)]
  rw [e p hp] at h
  rw [e p' hp'] at h'
  rw [e p hp, e p' hp']
  exact bitsOf_congr (parity_unique hdeg h h')

/-- A packed block is in the code exactly if its parity bits are what the encoder writes. -/
theorem C27_systematic {polys : List Nat} (h : Minimal NP polys) {g0 gen : List (BitVec 8)} (hg0 : g0.length = (NP + 1 + 7) / 8)
    (hgen : encInit NP g0 polys = some gen) {data parity q : List (BitVec 8)} (h0 : 0 < dl) (hK : dl ≤ K)
    (hd : dl ≤ 8 * data.length) (hp : (NP + 7) / 8 ≤ parity.length) (hq : encode NP K gen data parity dl = some q) :
    genPoly polys ∣ bitPoly (bits data parity dl NP) ↔ bitsOf (beBit parity) NP = bitsOf (beBit q) NP := by
  obtain ⟨gen', hg, he⟩ := C27_encoder h g0 hg0
  cases hgen.symm.trans hg
  obtain ⟨q', hq', _, hdv, _⟩ := he K data parity dl h0 hK hd hp
  cases hq.symm.trans hq'
  constructor
  · intro h1
    exact C27_unique h.deg (length_bitsOf _ _) (length_bitsOf _ _) h1 hdv
  · intro h1
    unfold bits at hdv ⊢
    rw [h1]; exact hdv

/-- The Reference encoder computes the same parity bits: for polynomials of positive degree that fit
its assertion, and data symbols 0, 1 equal to the packed bits. -/
theorem C27_reference (R : Ready w M P T) (hM : 1 < M) (u : Val M) (ui : Fin (2 ^ M - 1)) {polys : List Nat}
    (h : Minimal NP polys) (hbig : ∀ m ∈ polys, 1 < m) (hM1 : ∀ m ∈ polys, m < 2 ^ (M + 1))
    (g0 : List (BitVec 8)) (hg0 : g0.length = (NP + 1 + 7) / 8) :
    ∃ gen ref, encInit NP g0 polys = some gen ∧ refInit (tableOps w M T u ui) NP polys = some ref ∧
      ∀ (K dl : Nat) (data parity : List (BitVec 8)) (sdata sparity : List (Val M)), 0 < dl → dl ≤ K →
        dl ≤ 8 * data.length → (NP + 7) / 8 ≤ parity.length → dl ≤ sdata.length → NP ≤ sparity.length →
        (∀ j (hj : j < sdata.length), j < dl → sdata[j].v = (beBit data j).toNat) →
        ∃ q sq, encode NP K gen data parity dl = some q ∧
          refEncode (tableOps w M T u ui) NP K ref sdata sparity dl = some sq ∧ sq.length = sparity.length ∧
          (∀ j (hj : j < sq.length), j < NP → sq[j].v = (beBit q j).toNat) ∧ sq.drop NP = sparity.drop NP := by
  letI := valField R
  obtain ⟨gen, hgen, he⟩ := C27_encoder h g0 hg0
  rw [tableOps_eq R hM]
  obtain ⟨ref, href, r1, r2, r3⟩ := refInit_ok (valGf R hM) u ui (polys := polys) (fun m hm => ⟨hbig m hm, hM1 m hm⟩) h.sum
  refine ⟨gen, ref, hgen, href, ?_⟩
  intro K dl data parity sdata sparity h0 hK hd hp hsd hsp hsame
  obtain ⟨q, hq, _, hdv, _, _⟩ := he K data parity dl h0 hK hd hp
  have hlead := genPoly_lead h.pos
  rw [h.deg] at hlead
  have hval : ∀ (x : Val M) (b : Bool), x.v = b.toNat ↔ x = fbit b := by
    intro x b
    have h0 := (valGf R hM).num_eq_zero (x := x)
    have h1 := (valGf R hM).num_eq_one (x := x)
    cases b
    · exact h0
    · exact h1
  have hsd' : ∀ j, j < dl → sdata.getD j 0 = fbit (beBit data j) := by
    intro j hj
    rw [← getElem_eq_getD (show j < sdata.length by omega)]
    exact (hval _ _).1 (hsame j (by omega) hj)
  have hfv : ∀ j, j < dl → fv (valGf R hM) (sdata.getD j 0) = beBit data j := by
    intro j hj
    rw [hsd' j hj, fv_fbit]
  obtain ⟨sq, hsq, s1, s2, s3, s4⟩ := refEncode_ok (valGf R hM) u ui (K := K) (data := sdata) (parity := sparity) (dl := dl)
    h.np hlead h.deg ⟨h0, hK⟩ r1 r2 r3 hsd (fun j hj => by rw [hfv j hj, hsd' j hj]) hsp
  refine ⟨q, sq, hq, hsq, s1, ?_, ?_⟩
  · intro j hj hjN
    have e : bitsOf (fun j => fv (valGf R hM) (sdata.getD j 0)) dl = bitsOf (beBit data) dl := bitsOf_congr hfv
    rw [e] at s3
    have := parity_unique h.deg s3 hdv j hjN
    rw [hval, getElem_eq_getD hj 0, s2 j hjN, this]
  · refine ext_getD 0 (by rw [List.length_drop, List.length_drop, s1]) fun i _ => ?_
    rw [getD_drop', getD_drop', s4 _ (by omega)]

theorem mulAllRef_snoc {V I : Type} (O : Ops V I) : ∀ (ps : List Nat) (s : List V × Nat),
    mulAllRef O NP (ps ++ [1]) s = (mulAllRef O NP ps s).bind (mulAllRef O NP [1]) := by
  intro ps
  induction ps with
  | nil => rintro ⟨g, gd⟩; rfl
  | cons m ms ih =>
    rintro ⟨g, gd⟩
    show mulAllRef O NP (m :: (ms ++ [1])) (g, gd) = _
    unfold mulAllRef
    simp only [ih, Option.bind_eq_bind, Option.bind_assoc]
    rfl

theorem mulAllRef_last {V I : Type} (O : Ops V I) (hM : 0 < O.M) (g : List V) (hg : g.length = NP + 1) :
    mulAllRef O NP [1] (g, NP + 1) = none := by
  unfold mulAllRef
  have hp : 1 < 2 ^ (O.M + 1) := Nat.one_lt_two_pow (by omega)
  rw [show assertUB (0 < 1 ∧ 1 < 2 ^ (O.M + 1)) = some () from if_pos ⟨by omega, hp⟩, sb,
    degRef_ok (by omega) hp, sb]
  rw [show Nat.log2 1 = 0 by decide, show assertUB (NP + 1 + 0 ≤ NP + 1) = some () from if_pos (by omega), sb]
  have : mulGen (refStore O) 1 (NP + 1) 0 g = none := by
    unfold mulGen forDown
    have : (refStore O).get g (0 + (NP + 1)) = none := by
      show (do let x ← rd g (0 + (NP + 1)); return O.num x != 0) = none
      rw [show rd g (0 + (NP + 1)) = none from by unfold rd; exact List.getElem?_eq_none (by omega)]
      rfl
    dsimp only
    rw [this]; rfl
  rw [this]; rfl

theorem refInit_constant {V I : Type} (O : Ops V I) (hM : 0 < O.M) {polys : List Nat} {ref : List V}
    (href : refInit O NP polys = some ref) (r1 : ref.length = NP + 1) : refInit O NP (polys ++ [1]) = none := by
  unfold refInit at href ⊢
  simp only [mulAllRef_snoc]
  cases e1 : O.mkV 1 with
  | none => rfl
  | some one =>
    rw [e1] at href
    simp only [sb] at href ⊢
    cases e2 : wr (List.replicate (NP + 1) O.junk) 0 one with
    | none => rfl
    | some g1 =>
      rw [e2] at href
      simp only [sb] at href ⊢
      cases e3 : (forUp 1 (NP + 1) g1 fun i g => do
          let zero ← O.mkV 0
          wr g i zero) with
      | none => rfl
      | some g2 =>
        rw [e3] at href
        simp only [sb] at href ⊢
        cases e4 : mulAllRef O NP polys (g2, 1) with
        | none => rfl
        | some s =>
          obtain ⟨g3, gd⟩ := s
          rw [e4] at href
          simp only [sb] at href
          unfold assertUB at href
          by_cases hgd : gd = NP + 1
          · rw [if_pos hgd] at href
            cases href
            subst hgd
            rw [Option.bind_some, mulAllRef_last O hM _ r1]
            rfl
          · rw [if_neg hgd] at href
            cases href

/-- Why `C27_reference` needs polynomials of positive degree: after the full degree is reached, a
further constant polynomial makes the Reference constructor read behind its array, while the packed
constructor accepts it. -/
theorem C27_reference_constant (R : Ready w M P T) (hM : 1 < M) (u : Val M) (ui : Fin (2 ^ M - 1)) {polys : List Nat}
    (h : Minimal NP polys) (hbig : ∀ m ∈ polys, 1 < m) (hM1 : ∀ m ∈ polys, m < 2 ^ (M + 1)) (g0 : List (BitVec 8))
    (hg0 : g0.length = (NP + 1 + 7) / 8) :
    refInit (tableOps w M T u ui) NP (polys ++ [1]) = none ∧
    encInit NP g0 (polys ++ [1]) ≠ none := by
  letI := valField R
  constructor
  · rw [tableOps_eq R hM]
    obtain ⟨ref, href, r1, r2, r3⟩ := refInit_ok (valGf R hM) u ui (polys := polys) (fun m hm => ⟨hbig m hm, hM1 m hm⟩) h.sum
    exact refInit_constant _ (by show 0 < M; omega) href r1
  · have hm : Minimal NP (polys ++ [1]) := by
      refine ⟨h.np, ?_, ?_, ?_⟩
      · intro m hm
        rcases List.mem_append.1 hm with hm | hm
        · exact h.pos m hm
        · rw [List.mem_singleton.1 hm]; omega
      · intro m hm
        rcases List.mem_append.1 hm with hm | hm
        · exact h.int m hm
        · rw [List.mem_singleton.1 hm]; norm_num
      · have : genPoly (polys ++ [1]) = genPoly polys := by
          unfold genPoly
          rw [List.map_append, List.prod_append]
          simp [natPoly_one]
        rw [this, h.deg]
    obtain ⟨gen, hg, _⟩ := C27_encoder hm g0 hg0
    rw [hg]; simp

/-! ### C28, C29 -/

/-- Template parameters of the decoders: `K + NP = N`, and a data length between 1 and `K`. -/
structure BParams (M NR FCR K NP dl : Nat) : Prop where
  fcr : FCR < 2 ^ M - 1
  nr : 0 < NR
  nrN : NR < 2 ^ M - 1
  pos : 0 < dl
  len : dl ≤ K
  total : K + NP = 2 ^ M - 1

/-- A call of a BCH decoder as the interface allows it; `cd`, `cp` are the capacities of the two
buffers in bits. -/
structure BCall (O : Ops (Val M) (Fin (2 ^ M - 1))) (NR NP dl cd cp : Nat) (im : List (Val M))
    (er : List (Fin (2 ^ M - 1))) (count : Nat) : Prop where
  built : artin O = some im
  hdata : dl ≤ cd
  hparity : NP ≤ cp
  few : count ≤ NR
  her : count ≤ er.length
  nodup : (er.take count).Nodup
  inside : ∀ e ∈ er.take count, e.1 < dl + NP

theorem bits_length (data parity : List (BitVec 8)) (dl NP : Nat) : (syms (bits data parity dl NP)).length = dl + NP := by
  unfold syms bits
  rw [List.length_map, List.length_append, length_bitsOf, length_bitsOf]

theorem syms_getD (bs : List Bool) (j : Nat) : (syms bs).getD j 0 = (bs.getD j false).toNat := by
  unfold syms
  rw [List.getD_eq_getElem?_getD, List.getD_eq_getElem?_getD, List.getElem?_map]
  cases bs[j]? <;> rfl

theorem bits_getD (data parity : List (BitVec 8)) {dl NP j : Nat} (hj : j < dl + NP) :
    (bits data parity dl NP).getD j false = if j < dl then beBit data j else beBit parity (j - dl) := by
  unfold bits
  by_cases h : j < dl
  · rw [List.getD_append _ _ _ _ (by rw [length_bitsOf]; exact h), getD_bitsOf _ h, if_pos h]
  · rw [List.getD_append_right _ _ _ _ (by rw [length_bitsOf]; omega), length_bitsOf, getD_bitsOf _ (by omega), if_neg h]

theorem syms_inj {a b : List Bool} (h : syms a = syms b) : a = b := by
  unfold syms at h
  refine List.map_injective_iff.2 ?_ h
  intro x y
  cases x <;> cases y <;> simp

theorem packed_facts (R : Ready w M P T) (hM : 1 < M) (u : Val M) (ui : Fin (2 ^ M - 1)) (p : BParams M NR FCR K NP dl)
    {im : List (Val M)} {data parity : List (BitVec 8)} {er : List (Fin (2 ^ M - 1))} {count : Nat}
    (call : BCall (tableOps w M T u ui) NR NP dl (8 * data.length) (8 * parity.length) im er count) :
    ∃ r, decode (tableOps w M T u ui) (packedAccess (tableOps w M T u ui)) NR FCR K NP im (data, parity) er count dl = some r ∧
      (r.ret ≤ 0 → r.buf = (data, parity)) ∧ r.buf.1.length = data.length ∧ r.buf.2.length = parity.length ∧
      (∀ q, dl ≤ q → beBit r.buf.1 q = beBit data q) ∧ (∀ q, NP ≤ q → beBit r.buf.2 q = beBit parity q) ∧
      Facts P M NR FCR (dl + NP) (erased er count) (syms (bits data parity dl NP)) (syms (bits r.buf.1 r.buf.2 dl NP)) r.ret := by
  letI := valField R
  have hacc := packed_acc (valGf R hM) u ui (dl := dl) (NP := NP) (s0 := (data, parity)) call.hdata call.hparity
  have hv : ∀ b : Bool, (fbit b : Val M).v = b.toNat := by
    intro b
    cases b
    · exact (valGf R hM).num_zero
    · exact (valGf R hM).num_one
  have hread : ∀ (d q : List (BitVec 8)) (W : Nat → Val M), (∀ j, j < dl → W j = fbit (beBit d j)) →
      (∀ j, j < NP → W (dl + j) = fbit (beBit q j)) →
      ∀ j, j < dl + NP → (syms (bits d q dl NP)).getD j 0 = (W j).v := by
    intro d q W h1 h2 j hj
    rw [syms_getD, bits_getD _ _ hj]
    by_cases h : j < dl
    · rw [if_pos h, h1 j h, hv]
    · rw [if_neg h]
      have := h2 (j - dl) (by omega)
      rw [show dl + (j - dl) = j by omega] at this
      rw [this, hv]
  set W : Nat → Val M := fun j => fbit (if j < dl then beBit data j else beBit parity (j - dl)) with hW
  have hWd : ∀ j, j < dl → W j = fbit (beBit data j) := fun j hj => by rw [hW]; dsimp only; rw [if_pos hj]
  have hWp : ∀ j, j < NP → W (dl + j) = fbit (beBit parity j) := fun j hj => by
    rw [hW]; dsimp only; rw [if_neg (by omega), Nat.add_sub_cancel_left]
  have hinv : PInv dl NP (data, parity) (data, parity) W := ⟨rfl, rfl, hWd, hWp, fun _ _ => rfl, fun _ _ => rfl⟩
  have hbu := call.built
  obtain ⟨r, hr, _, h0, W', hW', _, hf⟩ := core R hM u ui (FCR := FCR) (K := K) (er := er) hacc hinv
    (fun j _ => by rw [hW]; dsimp only; rw [hv]; exact Bool.toNat_le _) hbu p.fcr p.nr p.nrN p.pos p.len p.total
    call.few call.her call.nodup call.inside (bits_length data parity dl NP) (hread _ _ W hWd hWp)
  refine ⟨r, ?_, h0, hW'.l1, hW'.l2, hW'.od, hW'.op, hf _ (bits_length _ _ _ _) (hread _ _ W' hW'.d hW'.p)⟩
  rw [← hr]
  congr 1
  rw [tableOps_eq R hM]
  rfl

/-- The symbols of a Reference block as numbers. -/
theorem ref_facts (R : Ready w M P T) (hM : 1 < M) (u : Val M) (ui : Fin (2 ^ M - 1)) (p : BParams M NR FCR K NP dl)
    {im data parity : List (Val M)} {er : List (Fin (2 ^ M - 1))} {count : Nat}
    (call : BCall (tableOps w M T u ui) NR NP dl data.length parity.length im er count)
    (hbin : ∀ x ∈ blk data parity dl NP, x ≤ 1) :
    ∃ r, decode (tableOps w M T u ui) (refAccess (tableOps w M T u ui)) NR FCR K NP im (data, parity) er count dl = some r ∧
      (r.ret ≤ 0 → r.buf = (data, parity)) ∧ r.buf.1.length = data.length ∧ r.buf.2.length = parity.length ∧
      r.buf.1.drop dl = data.drop dl ∧ r.buf.2.drop NP = parity.drop NP ∧
      (∀ x ∈ blk r.buf.1 r.buf.2 dl NP, x ≤ 1) ∧
      Facts P M NR FCR (dl + NP) (erased er count) (blk data parity dl NP) (blk r.buf.1 r.buf.2 dl NP) r.ret := by
  letI := valField R
  have hd := call.hdata
  have hp := call.hparity
  have hacc := ref_acc (valGf R hM) u ui (dl := dl) (NP := NP) (s0 := (data, parity)) hd hp
  have hbl := blk_length hd hp
  have hgd : ∀ j, j < dl + NP → (blk data parity dl NP).getD j 0 = (word data parity dl j).v := fun j hj => blk_getD R hd hp hj
  have hinv : SInv dl NP (data, parity) (data, parity) (word data parity dl) := by
    refine ⟨rfl, rfl, ?_, ?_, fun _ _ => rfl, fun _ _ => rfl⟩
    · intro j hj; unfold word; rw [if_pos hj]
    · intro j hj; unfold word; rw [if_neg (by omega), Nat.add_sub_cancel_left]
  have hbu := call.built
  obtain ⟨r, hr, _, h0, W', hW', hW1, hf⟩ := core R hM u ui (FCR := FCR) (K := K) (er := er) hacc hinv
    (fun j hj => by
      rw [← hgd j hj, List.getD_eq_getElem _ _ (by omega)]
      exact hbin _ (List.getElem_mem _)) hbu p.fcr p.nr p.nrN p.pos p.len p.total
    call.few call.her call.nodup call.inside hbl hgd
  have l1 : r.buf.1.length = data.length := hW'.l1
  have l2 : r.buf.2.length = parity.length := hW'.l2
  have hgd' : ∀ j, j < dl + NP → (blk r.buf.1 r.buf.2 dl NP).getD j 0 = (W' j).v := by
    intro j hj
    rw [blk_getD R (by omega) (by omega) hj]
    unfold word
    by_cases h : j < dl
    · rw [if_pos h, hW'.d j h]
    · rw [if_neg h]
      have := hW'.p (j - dl) (by omega)
      rw [show dl + (j - dl) = j by omega] at this
      rw [this]
  have hbl' := blk_length (M := M) (data := r.buf.1) (parity := r.buf.2) (dl := dl) (NR := NP) (by omega) (by omega)
  refine ⟨r, ?_, h0, l1, l2, ?_, ?_, ?_, hf _ hbl' hgd'⟩
  · rw [← hr]
    congr 1
    rw [tableOps_eq R hM]
    rfl
  · refine ext_getD 0 (by rw [List.length_drop, List.length_drop, l1]) fun i _ => ?_
    rw [getD_drop', getD_drop']
    exact hW'.od _ (by omega)
  · refine ext_getD 0 (by rw [List.length_drop, List.length_drop, l2]) fun i _ => ?_
    rw [getD_drop', getD_drop']
    exact hW'.op _ (by omega)
  · intro x hx
    rw [List.mem_iff_getElem] at hx
    obtain ⟨j, hj, rfl⟩ := hx
    rw [getElem_eq_getD hj 0, hgd' j (by omega)]
    exact hW1 j (by omega)

theorem syms_le (bs : List Bool) : ∀ x ∈ syms bs, x ≤ 1 := by
  intro x hx
  unfold syms at hx
  rw [List.mem_map] at hx
  obtain ⟨b, _, rfl⟩ := hx
  exact Bool.toNat_le _

/-- Multiples of a generator that vanishes at the roots are in the code that the decoder's syndromes
test. -/
theorem C28_code {polys : List Nat} (hroots : ∀ i, i < NR → (genPoly polys).eval₂ (algebraMap (ZMod 2) (GFR P)) (xR P ^ (FCR + i)) = 0)
    {bs : List Bool} (hdvd : genPoly polys ∣ bitPoly bs) : Codeword P NR FCR (syms bs) := by
  intro i hi
  have h1 : (bitPoly bs).eval₂ (algebraMap (ZMod 2) (GFR P)) (xR P ^ (FCR + i)) = 0 := by
    obtain ⟨q, hq⟩ := hdvd
    rw [hq, eval₂_mul, hroots i hi, zero_mul]
  rw [← h1]
  unfold polyAt bitPoly
  rw [eval₂_finsetSum]
  have hl : (syms bs).length = bs.length := by unfold syms; rw [List.length_map]
  rw [hl]
  refine Finset.sum_congr rfl fun j _ => ?_
  rw [eval₂_mul, eval₂_C, eval₂_X_pow, syms_getD]
  congr 1
  cases bs.getD j false
  · simp [b2, toR_zero]
  · simp [b2, toR_one]

/-- The packed decoder restores every word `c` of the code (given as the multiples of a generator that
vanishes at the decoder's roots) of which the received bits differ in `e` positions outside the
`count` announced erasures, `2 e + count ≤ NR`, and returns the number of flipped bits.  Bits outside
the block are not changed. -/
theorem C28_correct (R : Ready w M P T) (hM : 1 < M) (u : Val M) (ui : Fin (2 ^ M - 1)) (p : BParams M NR FCR K NP dl)
    {polys : List Nat}
    (hroots : ∀ i, i < NR → (genPoly polys).eval₂ (algebraMap (ZMod 2) (GFR P)) (xR P ^ (FCR + i)) = 0)
    {im : List (Val M)} {data parity : List (BitVec 8)} {er : List (Fin (2 ^ M - 1))} {count : Nat}
    (call : BCall (tableOps w M T u ui) NR NP dl (8 * data.length) (8 * parity.length) im er count)
    {c : List Bool} (hcl : c.length = dl + NP) (hc : genPoly polys ∣ bitPoly c)
    (hcap : 2 * (diffPos (syms (bits data parity dl NP)) (syms c) \ erased er count).card + count ≤ NR)
    (hex : ¬ Excluded P M (dl + NP) (erased er count ∪ (diffPos (syms (bits data parity dl NP)) (syms c) \ erased er count))) :
    ∃ r, decode (tableOps w M T u ui) (packedAccess (tableOps w M T u ui)) NR FCR K NP im (data, parity) er count dl = some r ∧
      bits r.buf.1 r.buf.2 dl NP = c ∧ r.ret = diff (syms (bits data parity dl NP)) (syms c) ∧
      r.buf.1.length = data.length ∧ r.buf.2.length = parity.length ∧
      (∀ q, dl ≤ q → beBit r.buf.1 q = beBit data q) ∧ (∀ q, NP ≤ q → beBit r.buf.2 q = beBit parity q) := by
  obtain ⟨r, hr, _, h1, h2, h3, h4, hf⟩ := packed_facts R hM u ui p call
  have hl : (syms c).length = dl + NP := by unfold syms; rw [List.length_map]; exact hcl
  obtain ⟨k1, k2⟩ := hf.correct (syms c) hl (syms_le c) (C28_code hroots hc)
    (by rw [erased_card call.nodup call.her]; exact hcap) hex
  exact ⟨r, hr, syms_inj k1, k2, h1, h2, h3, h4⟩

/-- The Reference decoder, on symbols 0 and 1. -/
theorem C28_reference (R : Ready w M P T) (hM : 1 < M) (u : Val M) (ui : Fin (2 ^ M - 1)) (p : BParams M NR FCR K NP dl)
    {polys : List Nat}
    (hroots : ∀ i, i < NR → (genPoly polys).eval₂ (algebraMap (ZMod 2) (GFR P)) (xR P ^ (FCR + i)) = 0)
    {im data parity : List (Val M)} {er : List (Fin (2 ^ M - 1))} {count : Nat}
    (call : BCall (tableOps w M T u ui) NR NP dl data.length parity.length im er count)
    (hbin : ∀ x ∈ blk data parity dl NP, x ≤ 1)
    {c : List Bool} (hcl : c.length = dl + NP) (hc : genPoly polys ∣ bitPoly c)
    (hcap : 2 * (diffPos (blk data parity dl NP) (syms c) \ erased er count).card + count ≤ NR)
    (hex : ¬ Excluded P M (dl + NP) (erased er count ∪ (diffPos (blk data parity dl NP) (syms c) \ erased er count))) :
    ∃ r, decode (tableOps w M T u ui) (refAccess (tableOps w M T u ui)) NR FCR K NP im (data, parity) er count dl = some r ∧
      blk r.buf.1 r.buf.2 dl NP = syms c ∧ r.ret = diff (blk data parity dl NP) (syms c) ∧
      r.buf.1.drop dl = data.drop dl ∧ r.buf.2.drop NP = parity.drop NP := by
  obtain ⟨r, hr, _, h1, h2, h3, h4, _, hf⟩ := ref_facts R hM u ui p call hbin
  have hl : (syms c).length = dl + NP := by unfold syms; rw [List.length_map]; exact hcl
  obtain ⟨k1, k2⟩ := hf.correct (syms c) hl (syms_le c) (C28_code hroots hc)
    (by rw [erased_card call.nodup call.her]; exact hcap) hex
  exact ⟨r, hr, k1, k2, h3, h4⟩

/-- The exception: on the patterns of `Excluded` the packed decoder refuses and leaves the buffers alone. -/
theorem C28_excluded (R : Ready w M P T) (hM : 1 < M) (u : Val M) (ui : Fin (2 ^ M - 1)) (p : BParams M NR FCR K NP dl)
    {polys : List Nat}
    (hroots : ∀ i, i < NR → (genPoly polys).eval₂ (algebraMap (ZMod 2) (GFR P)) (xR P ^ (FCR + i)) = 0)
    {im : List (Val M)} {data parity : List (BitVec 8)} {er : List (Fin (2 ^ M - 1))} {count : Nat}
    (call : BCall (tableOps w M T u ui) NR NP dl (8 * data.length) (8 * parity.length) im er count)
    {c : List Bool} (hcl : c.length = dl + NP) (hc : genPoly polys ∣ bitPoly c)
    (hcap : 2 * (diffPos (syms (bits data parity dl NP)) (syms c) \ erased er count).card + count ≤ NR)
    (hex : Excluded P M (dl + NP) (erased er count ∪ (diffPos (syms (bits data parity dl NP)) (syms c) \ erased er count)))
    (hne : bits data parity dl NP ≠ c) :
    ∃ r, decode (tableOps w M T u ui) (packedAccess (tableOps w M T u ui)) NR FCR K NP im (data, parity) er count dl = some r ∧
      r.ret = -1 ∧ r.buf = (data, parity) := by
  obtain ⟨r, hr, h0, h1, h2, h3, h4, hf⟩ := packed_facts R hM u ui p call
  have hl : (syms c).length = dl + NP := by unfold syms; rw [List.length_map]; exact hcl
  have := hf.excluded (syms c) hl (syms_le c) (C28_code hroots hc)
    (by rw [erased_card call.nodup call.her]; exact hcap) hex (fun h => hne (syms_inj h))
  exact ⟨r, hr, this, h0 (by omega)⟩

/-- ... and so does the Reference decoder. -/
theorem C28_excluded_reference (R : Ready w M P T) (hM : 1 < M) (u : Val M) (ui : Fin (2 ^ M - 1)) (p : BParams M NR FCR K NP dl)
    {polys : List Nat}
    (hroots : ∀ i, i < NR → (genPoly polys).eval₂ (algebraMap (ZMod 2) (GFR P)) (xR P ^ (FCR + i)) = 0)
    {im data parity : List (Val M)} {er : List (Fin (2 ^ M - 1))} {count : Nat}
    (call : BCall (tableOps w M T u ui) NR NP dl data.length parity.length im er count)
    (hbin : ∀ x ∈ blk data parity dl NP, x ≤ 1)
    {c : List Bool} (hcl : c.length = dl + NP) (hc : genPoly polys ∣ bitPoly c)
    (hcap : 2 * (diffPos (blk data parity dl NP) (syms c) \ erased er count).card + count ≤ NR)
    (hex : Excluded P M (dl + NP) (erased er count ∪ (diffPos (blk data parity dl NP) (syms c) \ erased er count)))
    (hne : blk data parity dl NP ≠ syms c) :
    ∃ r, decode (tableOps w M T u ui) (refAccess (tableOps w M T u ui)) NR FCR K NP im (data, parity) er count dl = some r ∧
      r.ret = -1 ∧ r.buf = (data, parity) := by
  obtain ⟨r, hr, h0, h1, h2, h3, h4, _, hf⟩ := ref_facts R hM u ui p call hbin
  have hl : (syms c).length = dl + NP := by unfold syms; rw [List.length_map]; exact hcl
  have := hf.excluded (syms c) hl (syms_le c) (C28_code hroots hc)
    (by rw [erased_card call.nodup call.her]; exact hcap) hex hne
  exact ⟨r, hr, this, h0 (by omega)⟩

/-- Encoding, corruption within the capability, decoding: the data comes back. -/
theorem C28_roundtrip (R : Ready w M P T) (hM : 1 < M) (u : Val M) (ui : Fin (2 ^ M - 1)) (p : BParams M NR FCR K NP dl)
    {polys : List Nat} (hmin : Minimal NP polys)
    (hroots : ∀ i, i < NR → (genPoly polys).eval₂ (algebraMap (ZMod 2) (GFR P)) (xR P ^ (FCR + i)) = 0)
    {g0 gen : List (BitVec 8)} (hg0 : g0.length = (NP + 1 + 7) / 8) (hgen : encInit NP g0 polys = some gen)
    {msg buf sent : List (BitVec 8)} (hm : dl ≤ 8 * msg.length) (hb : (NP + 7) / 8 ≤ buf.length)
    (henc : encode NP K gen msg buf dl = some sent)
    {im : List (Val M)} {data parity : List (BitVec 8)} {er : List (Fin (2 ^ M - 1))} {count : Nat}
    (call : BCall (tableOps w M T u ui) NR NP dl (8 * data.length) (8 * parity.length) im er count)
    (hcap : 2 * (diffPos (syms (bits data parity dl NP)) (syms (bits msg sent dl NP)) \ erased er count).card + count ≤ NR)
    (hex : ¬ Excluded P M (dl + NP)
      (erased er count ∪ (diffPos (syms (bits data parity dl NP)) (syms (bits msg sent dl NP)) \ erased er count))) :
    ∃ r, decode (tableOps w M T u ui) (packedAccess (tableOps w M T u ui)) NR FCR K NP im (data, parity) er count dl = some r ∧
      (∀ i, i < dl → beBit r.buf.1 i = beBit msg i) ∧ (∀ i, i < NP → beBit r.buf.2 i = beBit sent i) ∧
      r.ret = diff (syms (bits data parity dl NP)) (syms (bits msg sent dl NP)) := by
  obtain ⟨gen', hg, he⟩ := C27_encoder hmin g0 hg0
  cases hgen.symm.trans hg
  obtain ⟨q, hq, hql, hdv, _⟩ := he K msg buf dl p.pos p.len hm hb
  cases henc.symm.trans hq
  obtain ⟨r, hr, h1, h2, _⟩ := C28_correct R hM u ui p hroots call
    (c := bits msg sent dl NP) (by unfold bits; rw [List.length_append, length_bitsOf, length_bitsOf]) hdv hcap hex
  unfold bits at h1
  have e1 := List.append_inj_left h1 (by rw [length_bitsOf, length_bitsOf])
  have e2 := List.append_inj_right h1 (by rw [length_bitsOf, length_bitsOf])
  exact ⟨r, hr, bitsOf_inj e1, bitsOf_inj e2, h2⟩

/-- The contract of the packed decoder on arbitrary words: the call terminates with all accesses in
bounds and all assertions true; it returns -1 or 0..NR; nothing is changed unless the result is
positive; a result `≥ 0` is the number of flipped bits; bits outside the block are not changed; words
of the code are left alone. -/
theorem C29_contract (R : Ready w M P T) (hM : 1 < M) (u : Val M) (ui : Fin (2 ^ M - 1)) (p : BParams M NR FCR K NP dl)
    {im : List (Val M)} {data parity : List (BitVec 8)} {er : List (Fin (2 ^ M - 1))} {count : Nat}
    (call : BCall (tableOps w M T u ui) NR NP dl (8 * data.length) (8 * parity.length) im er count) :
    ∃ r, decode (tableOps w M T u ui) (packedAccess (tableOps w M T u ui)) NR FCR K NP im (data, parity) er count dl = some r ∧
      (r.ret = -1 ∨ (0 ≤ r.ret ∧ r.ret ≤ NR)) ∧
      (r.ret ≤ 0 → r.buf = (data, parity)) ∧
      (0 ≤ r.ret → r.ret = diff (syms (bits data parity dl NP)) (syms (bits r.buf.1 r.buf.2 dl NP))) ∧
      r.buf.1.length = data.length ∧ r.buf.2.length = parity.length ∧
      (∀ q, dl ≤ q → beBit r.buf.1 q = beBit data q) ∧ (∀ q, NP ≤ q → beBit r.buf.2 q = beBit parity q) ∧
      (Codeword P NR FCR (syms (bits data parity dl NP)) → r.ret = 0) := by
  obtain ⟨r, hr, h0, h1, h2, h3, h4, hf⟩ := packed_facts R hM u ui p call
  exact ⟨r, hr, hf.range, h0, hf.count, h1, h2, h3, h4, hf.clean⟩

/-- The same for the Reference decoder on symbols 0 and 1; the symbols stay 0 or 1. -/
theorem C29_reference (R : Ready w M P T) (hM : 1 < M) (u : Val M) (ui : Fin (2 ^ M - 1)) (p : BParams M NR FCR K NP dl)
    {im data parity : List (Val M)} {er : List (Fin (2 ^ M - 1))} {count : Nat}
    (call : BCall (tableOps w M T u ui) NR NP dl data.length parity.length im er count)
    (hbin : ∀ x ∈ blk data parity dl NP, x ≤ 1) :
    ∃ r, decode (tableOps w M T u ui) (refAccess (tableOps w M T u ui)) NR FCR K NP im (data, parity) er count dl = some r ∧
      (r.ret = -1 ∨ (0 ≤ r.ret ∧ r.ret ≤ NR)) ∧
      (r.ret ≤ 0 → r.buf = (data, parity)) ∧
      (0 ≤ r.ret → r.ret = diff (blk data parity dl NP) (blk r.buf.1 r.buf.2 dl NP)) ∧
      (∀ x ∈ blk r.buf.1 r.buf.2 dl NP, x ≤ 1) ∧
      r.buf.1.length = data.length ∧ r.buf.2.length = parity.length ∧
      r.buf.1.drop dl = data.drop dl ∧ r.buf.2.drop NP = parity.drop NP ∧
      (Codeword P NR FCR (blk data parity dl NP) → r.ret = 0) := by
  obtain ⟨r, hr, h0, h1, h2, h3, h4, h5, hf⟩ := ref_facts R hM u ui p call hbin
  exact ⟨r, hr, hf.range, h0, hf.count, h5, h1, h2, h3, h4, hf.clean⟩

/-- When a result `≥ 0` on a word outside the code leaves a word of the code: exactly if the number of
located positions, which include the erasures and all flipped bits, equals the length of the shortest
linear recurrence of the syndromes compatible with the erasures. -/
theorem C29_validity (R : Ready w M P T) (hM : 1 < M) (u : Val M) (ui : Fin (2 ^ M - 1)) (p : BParams M NR FCR K NP dl)
    {im : List (Val M)} {data parity : List (BitVec 8)} {er : List (Fin (2 ^ M - 1))} {count : Nat}
    (call : BCall (tableOps w M T u ui) NR NP dl (8 * data.length) (8 * parity.length) im er count)
    (hnc : ¬ Codeword P NR FCR (syms (bits data parity dl NP)))
    {r : Res (List (BitVec 8) × List (BitVec 8)) (Fin (2 ^ M - 1))}
    (hr : decode (tableOps w M T u ui) (packedAccess (tableOps w M T u ui)) NR FCR K NP im (data, parity) er count dl = some r)
    (h0 : 0 ≤ r.ret) :
    ∃ (A : Finset Nat) (L : Nat), (∀ j ∈ A, j < dl + NP) ∧ erased er count ⊆ A ∧
      diffPos (syms (bits data parity dl NP)) (syms (bits r.buf.1 r.buf.2 dl NP)) ⊆ A ∧ A.card ≤ L ∧ A.card ≤ NR ∧
      Shortest P NR (dl + NP) (erased er count)
        (fun i => polyAt P (syms (bits data parity dl NP)) (xR P ^ (FCR + i))) L ∧
      (Codeword P NR FCR (syms (bits r.buf.1 r.buf.2 dl NP)) ↔ A.card = L) := by
  obtain ⟨r', hr', _, h1, h2, h3, h4, hf⟩ := packed_facts R hM u ui p call
  cases hr.symm.trans hr'
  exact hf.valid hnc h0

end Verif.BCH
