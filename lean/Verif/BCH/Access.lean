import Verif.BCH.Dec
import Verif.BCH.RefEnc
/- The packed and the symbol buffers of the BCH decoders. -/
namespace Verif.BCH
open Verif.RS Verif.Bits Finset

variable {F : Type} [Field F] (G : Gf F) (u : F) (ui : Fin G.N)

theorem beBit_ext {a b : List (BitVec 8)} (hl : a.length = b.length) (h : ∀ i, beBit a i = beBit b i) : a = b := by
  refine ext_getD 0 hl fun i _ => ?_
  apply BitVec.eq_of_getLsbD_eq
  intro k hk
  have := h (8 * i + (7 - k))
  unfold beBit at this
  rw [show (8 * i + (7 - k)) / 8 = i by omega, show 7 - (8 * i + (7 - k)) % 8 = k by omega] at this
  exact this

/-- The buffers `s` hold the block `W`, and agree with `s0` outside the block. -/
structure PInv (dl NP : Nat) (s0 s : List (BitVec 8) × List (BitVec 8)) (W : Nat → F) : Prop where
  l1 : s.1.length = s0.1.length
  l2 : s.2.length = s0.2.length
  d : ∀ j, j < dl → W j = fbit (beBit s.1 j)
  p : ∀ j, j < NP → W (dl + j) = fbit (beBit s.2 j)
  od : ∀ q, dl ≤ q → beBit s.1 q = beBit s0.1 q
  op : ∀ q, NP ≤ q → beBit s.2 q = beBit s0.2 q

theorem packed_acc {dl NP : Nat} {s0 : List (BitVec 8) × List (BitVec 8)} (hd : dl ≤ 8 * s0.1.length)
    (hp : NP ≤ 8 * s0.2.length) : AccOK G (packedAccess (G.fieldOps u ui)) dl NP (PInv dl NP s0) := by
  have hbig : ∀ (b b' : List (BitVec 8)) q, b.length = b'.length → 8 * b.length ≤ q → beBit b q = beBit b' q := by
    intro b b' q hl hq
    rw [beBit_nat (by omega), beBit_nat (by omega)]
  constructor
  · intro s W j h hj
    have := h.l1
    show (do let x ← getBe s.1 (j : Int); bitV (G.fieldOps u ui) x) = _
    rw [getBe_bit (by omega), sb, bitV_ok, h.d j hj]
  · intro s W j h hj
    have := h.l2
    show (do let x ← getBe s.2 (j : Int); bitV (G.fieldOps u ui) x) = _
    rw [getBe_bit (by omega), sb, bitV_ok, h.p j hj]
  · intro s W j m h hj hm
    have hl := h.l1
    obtain ⟨b', h1, h2, h3⟩ := xorBe_bit (buf := s.1) (i := j) (fv G m) (by omega)
    have h3' : ∀ q, q ≠ j → beBit b' q = beBit s.1 q := by
      intro q hq
      by_cases hq' : q < 8 * s.1.length
      · rw [h3 q hq', if_neg hq]
      · exact hbig _ _ q h2 (by omega)
    refine ⟨(b', s.2), ?_, by dsimp only; omega, h.l2, ?_, ?_, ?_, h.op⟩
    · show (do let d ← xorBe s.1 (j : Int) (fv G m); return (d, s.2)) = _
      rw [h1]; rfl
    · intro i hi
      dsimp only
      by_cases hij : i = j
      · rw [if_pos hij, hij, h3 j (by omega), if_pos rfl, ← fbit_add G, h.d j hj, ← num_le_one G hm]
      · rw [if_neg hij, h3' i hij, h.d i hi]
    · intro i hi
      dsimp only
      rw [if_neg (by omega), h.p i hi]
    · intro q hq
      dsimp only
      rw [h3' q (by omega), h.od q hq]
  · intro s W j m h hj hm
    have hl := h.l2
    obtain ⟨b', h1, h2, h3⟩ := xorBe_bit (buf := s.2) (i := j) (fv G m) (by omega)
    have h3' : ∀ q, q ≠ j → beBit b' q = beBit s.2 q := by
      intro q hq
      by_cases hq' : q < 8 * s.2.length
      · rw [h3 q hq', if_neg hq]
      · exact hbig _ _ q h2 (by omega)
    refine ⟨(s.1, b'), ?_, h.l1, by dsimp only; omega, ?_, ?_, h.od, ?_⟩
    · show (do let p ← xorBe s.2 (j : Int) (fv G m); return (s.1, p)) = _
      rw [h1]; rfl
    · intro i hi
      dsimp only
      rw [if_neg (by omega), h.d i hi]
    · intro i hi
      dsimp only
      by_cases hij : i = j
      · rw [if_pos (by omega), hij, h3 j (by omega), if_pos rfl, ← fbit_add G, h.p j hj, ← num_le_one G hm]
      · rw [if_neg (by omega), h3' i hij, h.p i hi]
    · intro q hq
      dsimp only
      rw [h3' q (by omega), h.op q hq]
  · intro s W W' h hW
    exact ⟨h.l1, h.l2, fun j hj => by rw [hW j (by omega), h.d j hj], fun j hj => by rw [hW _ (by omega), h.p j hj],
      h.od, h.op⟩
  · intro s s' W h h'
    have hinj : ∀ a b : Bool, (fbit a : F) = fbit b → a = b := by
      intro a b hab
      rw [← fv_fbit G a, hab, fv_fbit]
    refine Prod.ext (beBit_ext (by rw [h.l1, h'.l1]) fun q => ?_) (beBit_ext (by rw [h.l2, h'.l2]) fun q => ?_)
    · by_cases hq : q < dl
      · exact hinj _ _ (by rw [← h.d q hq, ← h'.d q hq])
      · rw [h.od q (by omega), h'.od q (by omega)]
    · by_cases hq : q < NP
      · exact hinj _ _ (by rw [← h.p q hq, ← h'.p q hq])
      · rw [h.op q (by omega), h'.op q (by omega)]

/-- The symbol buffers `s` hold the block `W`, and agree with `s0` outside the block. -/
structure SInv (dl NP : Nat) (s0 s : List F × List F) (W : Nat → F) : Prop where
  l1 : s.1.length = s0.1.length
  l2 : s.2.length = s0.2.length
  d : ∀ j, j < dl → W j = s.1.getD j 0
  p : ∀ j, j < NP → W (dl + j) = s.2.getD j 0
  od : ∀ q, dl ≤ q → s.1.getD q 0 = s0.1.getD q 0
  op : ∀ q, NP ≤ q → s.2.getD q 0 = s0.2.getD q 0

theorem ref_acc {dl NP : Nat} {s0 : List F × List F} (hd : dl ≤ s0.1.length)
    (hp : NP ≤ s0.2.length) : AccOK G (refAccess (G.fieldOps u ui)) dl NP (SInv dl NP s0) := by
  constructor
  · intro s W j h hj
    have := h.l1
    show rd s.1 j = _
    rw [rd_of_lt (by omega), getElem_eq_getD (a := s.1) _ 0, h.d j hj]
  · intro s W j h hj
    have := h.l2
    show rd s.2 j = _
    rw [rd_of_lt (by omega), getElem_eq_getD (a := s.2) _ 0, h.p j hj]
  · intro s W j m h hj _
    have hl := h.l1
    refine ⟨(s.1.set j (s.1.getD j 0 + m), s.2), ?_, by rw [List.length_set]; exact hl, h.l2, ?_, ?_, ?_, h.op⟩
    · show (do let x ← rd s.1 j; let y ← (G.fieldOps u ui).add x m; let d ← wr s.1 j y; return (d, s.2)) = _
      rw [rd_of_lt (by omega), sb, Gf.f_add, sb, wr_of_lt (by omega), sb, getElem_eq_getD (a := s.1) _ 0]; rfl
    · intro i hi
      dsimp only
      rw [getD_set_lt (by omega)]
      by_cases hij : i = j
      · rw [if_pos hij, if_pos hij, hij, h.d j hj]
      · rw [if_neg hij, if_neg hij, h.d i hi]
    · intro i hi
      dsimp only
      rw [if_neg (by omega), h.p i hi]
    · intro q hq
      dsimp only
      rw [getD_set_lt (by omega), if_neg (by omega), h.od q hq]
  · intro s W j m h hj _
    have hl := h.l2
    refine ⟨(s.1, s.2.set j (s.2.getD j 0 + m)), ?_, h.l1, by rw [List.length_set]; exact hl, ?_, ?_, h.od, ?_⟩
    · show (do let x ← rd s.2 j; let y ← (G.fieldOps u ui).add x m; let p ← wr s.2 j y; return (s.1, p)) = _
      rw [rd_of_lt (by omega), sb, Gf.f_add, sb, wr_of_lt (by omega), sb, getElem_eq_getD (a := s.2) _ 0]; rfl
    · intro i hi
      dsimp only
      rw [if_neg (by omega), h.d i hi]
    · intro i hi
      dsimp only
      rw [getD_set_lt (by omega)]
      by_cases hij : i = j
      · rw [if_pos (by omega), if_pos hij, hij, h.p j hj]
      · rw [if_neg (by omega), if_neg hij, h.p i hi]
    · intro q hq
      dsimp only
      rw [getD_set_lt (by omega), if_neg (by omega), h.op q hq]
  · intro s W W' h hW
    exact ⟨h.l1, h.l2, fun j hj => by rw [hW j (by omega), h.d j hj], fun j hj => by rw [hW _ (by omega), h.p j hj],
      h.od, h.op⟩
  · intro s s' W h h'
    refine Prod.ext (ext_getD 0 (by rw [h.l1, h'.l1]) fun q _ => ?_) (ext_getD 0 (by rw [h.l2, h'.l2]) fun q _ => ?_)
    · by_cases hq : q < dl
      · rw [← h.d q hq, ← h'.d q hq]
      · rw [h.od q (by omega), h'.od q (by omega)]
    · by_cases hq : q < NP
      · rw [← h.p q hq, ← h'.p q hq]
      · rw [h.op q (by omega), h'.op q (by omega)]

end Verif.BCH
