import Verif.Trials.Props
/- C72, the trials of the BCH tests. -/
namespace Verif.Trials
open Verif.GF Verif.RS
open Verif.BCH (genPoly bitPoly syms bits bitsOf beBit BParams BCall bits_length syms_getD length_bitsOf getD_bitsOf beBit_nat beBit_ext xorBe_bit setBe_bit C27_encoder C27_reference C28_correct C28_reference)
open Verif.Cauchy (compareAll compareAll_ok as_pos)
open Polynomial

variable {w M P NR FCR K NP dl : Nat} {T : Tab}

/-- A generator with `NR` consecutive powers as roots has at least that degree. -/
theorem roots_le (R : Ready w M P T) (hNR : NR < 2 ^ M - 1) {polys : List Nat} (hmin : BCH.Minimal NP polys)
    (hroots : ∀ i, i < NR → (genPoly polys).eval₂ (algebraMap (ZMod 2) (GFR P)) (xR P ^ (FCR + i)) = 0) : NR ≤ NP := by
  have : Fact (Irreducible (GF2.natPoly P)) := ⟨Ready.irr R⟩
  have hord : orderOf (xR P) = 2 ^ M - 1 := R.built.prim
  have hne : genPoly polys ≠ 0 := by
    intro h
    have := hmin.deg
    rw [h, natDegree_zero] at this
    have := hmin.np
    omega
  have hinj : Function.Injective (algebraMap (ZMod 2) (GFR P)) := (algebraMap (ZMod 2) (GFR P)).injective
  have hm : (genPoly polys).map (algebraMap (ZMod 2) (GFR P)) ≠ 0 := (Polynomial.map_ne_zero_iff hinj).2 hne
  have hx : xR P ≠ 0 := by
    intro h
    rw [h] at hord
    have h0 : orderOf (0 : GFR P) = 0 := orderOf_eq_zero_iff'.2 fun n hn => by rw [zero_pow (by omega)]; exact zero_ne_one
    omega
  have hcard : ((Finset.range NR).image fun i => xR P ^ (FCR + i)).card = NR := by
    rw [Finset.card_image_of_injOn, Finset.card_range]
    intro i hi j hj h
    rw [Finset.coe_range, Set.mem_Iio] at hi hj
    simp only [pow_add] at h
    have := mul_left_cancel₀ (pow_ne_zero _ hx) h
    exact pow_injOn_Iio_orderOf (by rw [hord, Set.mem_Iio]; omega) (by rw [hord, Set.mem_Iio]; omega) this
  have hsub : ((Finset.range NR).image fun i => xR P ^ (FCR + i)).val ⊆ ((genPoly polys).map (algebraMap (ZMod 2) (GFR P))).roots := by
    intro x hx
    rw [Finset.mem_val, Finset.mem_image] at hx
    obtain ⟨i, hi, rfl⟩ := hx
    rw [mem_roots hm, IsRoot.def, eval_map]
    exact hroots i (Finset.mem_range.1 hi)
  have := card_le_degree_of_subset_roots hsub
  rwa [hcard, natDegree_map_eq_of_injective hinj, hmin.deg] at this

/-- The positions where a block whose symbols were flipped differs. -/
theorem diffPos_flips {a b : List Nat} {ps : List Nat} (hl : ∀ p ∈ ps, p < a.length) (h : ∀ q, q ∉ ps → a.getD q 0 = b.getD q 0) (hf : ∀ q, q ∈ ps → a.getD q 0 ≠ b.getD q 0) :
    diffPos a b = ps.toFinset := by
  ext q
  unfold diffPos
  rw [Finset.mem_filter, Finset.mem_range, List.mem_toFinset]
  constructor
  · rintro ⟨_, hq⟩
    by_contra hc
    exact hq (h q hc)
  · intro hq
    exact ⟨by have := hl q hq; omega, hf q hq⟩

/-- What is needed of the damage if every strike changes its position. -/
theorem flip_facts {n count : Nat} {ps : List Nat} (h5 : 5 ≤ NR) (hc : 2 * count ≤ NR) (g1 : ps.length = NR - count) (g2 : ps.Nodup) (g3 : ∀ p ∈ ps, p < n) (hn : n ≤ 2 ^ M - 1) {a b : List Nat} (hdiff : diffPos a b = ps.toFinset)
    {l : List Nat} (hl : l = ps.drop count) :
    ∃ er : List (Fin (2 ^ M - 1)), asIndices M l = some er ∧ er.length = NR - 2 * count ∧ (er.take (NR - 2 * count)).Nodup ∧ (∀ e ∈ er.take (NR - 2 * count), e.1 < n) ∧
      2 * (diffPos a b \ erased er (NR - 2 * count)).card + (NR - 2 * count) ≤ NR ∧
      ¬ Excluded P M n (erased er (NR - 2 * count) ∪ (diffPos a b \ erased er (NR - 2 * count))) := by
  subst hl
  have hdl : (ps.drop count).length = NR - 2 * count := by rw [List.length_drop, g1]; omega
  obtain ⟨er, e1, e2⟩ := asIndices_ok (M := M) (l := ps.drop count) (fun q hq => by have := g3 q (List.mem_of_mem_drop hq); omega)
  obtain ⟨e3, e4⟩ := erased_of e2
  rw [hdl] at e3 e4
  have hnd : er.Nodup := List.Nodup.of_map Fin.val (by rw [e2]; exact g2.sublist (List.drop_sublist _ _))
  refine ⟨er, e1, ?_, by rw [e4]; exact hnd, fun e he => ?_, ?_, not_excluded_of_card ?_⟩
  · have : er.length = (er.map Fin.val).length := (List.length_map _).symm
    rw [this, e2, hdl]
  · rw [e4] at he
    have : e.1 ∈ er.map Fin.val := List.mem_map.2 ⟨e, he, rfl⟩
    rw [e2] at this
    exact g3 _ (List.mem_of_mem_drop this)
  · rw [hdiff, e3]
    exact few_errors g1 hc (subset_refl _)
  · rw [hdiff]
    have hle : ps.toFinset ⊆ erased er (NR - 2 * count) ∪ (ps.toFinset \ erased er (NR - 2 * count)) := by
      intro x hx
      by_cases h : x ∈ erased er (NR - 2 * count)
      · exact Finset.mem_union_left _ h
      · exact Finset.mem_union_right _ (Finset.mem_sdiff.2 ⟨hx, h⟩)
    refine le_trans ?_ (Finset.card_le_card hle)
    rw [List.toFinset_card_of_nodup g2, g1]
    omega

/-! ### Packed bits -/

theorem bits_getD (data parity : List (BitVec 8)) (q : Nat) :
    (syms (bits data parity dl NP)).getD q 0 = if q < dl then (beBit data q).toNat else if q < dl + NP then (beBit parity (q - dl)).toNat else 0 := by
  rw [syms_getD]
  unfold bits
  by_cases h : q < dl
  · rw [if_pos h, List.getD_append _ _ _ _ (by rw [length_bitsOf]; exact h), getD_bitsOf _ h]
  · rw [if_neg h, List.getD_append_right _ _ _ _ (by rw [length_bitsOf]; omega), length_bitsOf]
    by_cases h2 : q < dl + NP
    · rw [if_pos h2, getD_bitsOf _ (by omega)]
    · rw [if_neg h2, List.getD_eq_default _ _ (by rw [length_bitsOf]; omega)]; rfl

/-- The state of the buffers: only the bits of the block may have changed. -/
def Around (dl NP : Nat) (o s : List (BitVec 8) × List (BitVec 8)) : Prop :=
  s.1.length = o.1.length ∧ s.2.length = o.2.length ∧ (∀ q, dl ≤ q → beBit s.1 q = beBit o.1 q) ∧ ∀ q, NP ≤ q → beBit s.2 q = beBit o.2 q

/-- A flipped bit. -/
theorem hitBit_ok {o s : List (BitVec 8) × List (BitVec 8)} (h1 : dl ≤ 8 * o.1.length) (h2 : NP ≤ 8 * o.2.length) (i : Nat) {p : Nat} (hp : p < dl + NP) (hg : Around dl NP o s) :
    ∃ s', hitBit dl i p s = some s' ∧ Around dl NP o s' ∧ (∀ q, q ≠ p → (syms (bits s'.1 s'.2 dl NP)).getD q 0 = (syms (bits s.1 s.2 dl NP)).getD q 0) ∧
      (syms (bits s'.1 s'.2 dl NP)).getD p 0 ≠ (syms (bits s.1 s.2 dl NP)).getD p 0 := by
  obtain ⟨a1, a2, a3, a4⟩ := hg
  have hx : ∀ {b b' : List (BitVec 8)} {j : Nat}, b'.length = b.length →
      (∀ q, q < 8 * b.length → beBit b' q = if q = j then (beBit b j ^^ true) else beBit b q) → ∀ q, q ≠ j → beBit b' q = beBit b q := by
    intro b b' j hl h q hq
    by_cases hb : q < 8 * b.length
    · rw [h q hb, if_neg hq]
    · rw [beBit_nat (by omega), beBit_nat (by omega)]
  unfold hitBit
  by_cases h : p < dl
  · obtain ⟨b', e1, e2, e3⟩ := xorBe_bit (buf := s.1) (i := p) true (by omega)
    have e4 := hx e2 e3
    rw [if_pos h, e1, sb]
    refine ⟨(b', s.2), rfl, ⟨e2.trans a1, a2, fun q hq => (e4 q (by omega)).trans (a3 q hq), a4⟩, fun q hq => ?_, ?_⟩
    · dsimp only
      rw [bits_getD, bits_getD, e4 q hq]
    · dsimp only
      rw [bits_getD, bits_getD, if_pos h, if_pos h, e3 p (by omega), if_pos rfl]
      cases beBit s.1 p <;> decide
  · obtain ⟨b', e1, e2, e3⟩ := xorBe_bit (buf := s.2) (i := p - dl) true (by omega)
    have e4 := hx e2 e3
    rw [if_neg h, e1, sb]
    refine ⟨(s.1, b'), rfl, ⟨a1, e2.trans a2, a3, fun q hq => (e4 q (by omega)).trans (a4 q hq)⟩, fun q hq => ?_, ?_⟩
    · dsimp only
      rw [bits_getD, bits_getD]
      by_cases hd : q < dl
      · rw [if_pos hd, if_pos hd]
      · rw [if_neg hd, if_neg hd, e4 (q - dl) (by omega)]
    · dsimp only
      rw [bits_getD, bits_getD, if_neg h, if_neg h, if_pos hp, if_pos hp, e3 (p - dl) (by omega), if_pos rfl]
      cases beBit s.2 (p - dl) <;> decide

/-- **C72** A trial of `bch_test` passes for every code whose decoder can correct five erasures, whatever data, lengths, numbers of errors and positions are drawn, provided that every
position is drawn again and again. -/
theorem C72_bch (R : Ready w M P T) (hM : 1 < M) (u : Val M) (ui : Fin (2 ^ M - 1)) (p : BParams M NR FCR K NP dl) {polys : List Nat} (hmin : BCH.Minimal NP polys)
    (hroots : ∀ i, i < NR → (genPoly polys).eval₂ (algebraMap (ZMod 2) (GFR P)) (xR P ^ (FCR + i)) = 0) (h5 : 5 ≤ NR)
    {g0 gen : List (BitVec 8)} (hg0 : g0.length = (NP + 1 + 7) / 8) (hgen : BCH.encInit NP g0 polys = some gen) {im : List (Val M)} (him : artin (tableOps w M T u ui) = some im)
    {src : Nat → Nat} {cnt : Nat} {errors erasures : List Nat} (D : Drawn (dl + NP) NR cnt src errors erasures) (hfair : Fair (dl + NP) src)
    {orig par : List (BitVec 8)} (ho : orig.length = (dl + 7) / 8) (hp : par.length = (NP + 7) / 8) :
    ∃ F, ∀ fuel, F ≤ fuel → bchTrial w (tableOps w M T u ui) NR FCR K NP gen im src fuel cnt orig par errors erasures dl = some () := by
  have hpos := p.pos
  have hlen := p.len
  have htot := p.total
  have hQ : 0 < 2 ^ M := by positivity
  have hpow : 2 ^ M ≤ 2 ^ w := Nat.pow_le_pow_right (by norm_num) R.hw
  have hc : 2 * (cnt / 2) ≤ NR := by have := D.number; omega
  have hle := roots_le R p.nrN hmin hroots
  obtain ⟨gen', hg, he⟩ := C27_encoder hmin g0 hg0
  cases hgen.symm.trans hg
  obtain ⟨q, hq, hql, hdv, _, _⟩ := he K orig par dl p.pos p.len (by omega) (by omega)
  have C : Careful (dl + NP) (hitBit dl) (Around dl NP (orig, q)) (fun s k => (syms (bits s.1 s.2 dl NP)).getD k 0) := ⟨fun i x s hx hs => by
    obtain ⟨s', e1, e2, e3, _⟩ := hitBit_ok (o := (orig, q)) (by dsimp only; omega) (by dsimp only; omega) i hx hs
    exact ⟨s', e1, e2, e3⟩⟩
  have hflip : ∀ i x s s', x < dl + NP → Around dl NP (orig, q) s → hitBit dl i x s = some s' → (syms (bits s'.1 s'.2 dl NP)).getD x 0 ≠ (syms (bits s.1 s.2 dl NP)).getD x 0 := by
    intro i x s s' hx hs h
    obtain ⟨s'', e1, _, _, e4⟩ := hitBit_ok (o := (orig, q)) (by dsimp only; omega) (by dsimp only; omega) i hx hs
    rw [h] at e1
    cases e1
    exact e4
  have hstart : Around dl NP (orig, q) (orig, q) := ⟨rfl, rfl, fun _ _ => rfl, fun _ _ => rfl⟩
  obtain ⟨F, ⟨d, er⟩, hF⟩ := damage_ends (w := w) D.positions hfair (by omega) (hit := hitBit dl) (d := (orig, q)) hc (by omega) D.errors D.erasures (fun ps x e hps he hx => by
    obtain ⟨e', k1, k2, _⟩ := C.hits ps 0 (orig, q) hps hstart
    rw [he] at k1
    cases k1
    obtain ⟨s', k3, _⟩ := C.step ps.length x e hx k2
    exact ⟨s', k3⟩)
  refine ⟨F, fun fuel hf => ?_⟩
  have hdam := hF fuel hf
  obtain ⟨ps, g1, g2, g3, g4, g5⟩ := damage_some D.positions (by omega) hc D.erasures hdam
  obtain ⟨s', k1, ⟨k2, k3, k4, k5⟩, k6⟩ := C.hits ps 0 (orig, q) g3 hstart
  have k7 := C.flips hflip ps 0 (orig, q) d g3 hstart g2 g4
  rw [g4] at k1
  cases k1
  have hdiff := diffPos_flips (a := syms (bits d.1 d.2 dl NP)) (b := syms (bits orig q dl NP)) (by rw [bits_length]; exact g3) k6 k7
  obtain ⟨ix, e1, e2, e3, e4, e5, e6⟩ := flip_facts (M := M) (P := P) h5 hc g1 g2 g3 (by omega) hdiff g5
  dsimp only at k2 k3 k4 k5
  have call : BCall (tableOps w M T u ui) NR NP dl (8 * d.1.length) (8 * d.2.length) im ix (NR - 2 * (cnt / 2)) :=
    ⟨him, by omega, by omega, by omega, by omega, e3, e4⟩
  obtain ⟨r, hr, r1, r2, r3, r4, r5, r6⟩ := C28_correct R hM u ui p hroots call (c := bits orig q dl NP)
    (by unfold bits; rw [List.length_append, length_bitsOf, length_bitsOf]) hdv e5 e6
  unfold bits at r1
  have hb1 := List.append_inj_left r1 (by rw [length_bitsOf, length_bitsOf])
  have hb2 := List.append_inj_right r1 (by rw [length_bitsOf, length_bitsOf])
  have hget : ∀ {f g : Nat → Bool} {n : Nat}, bitsOf f n = bitsOf g n → ∀ i, i < n → f i = g i := by
    intro f g n h i hi
    rw [← getD_bitsOf f hi, h, getD_bitsOf g hi]
  have hd1 : r.buf.1 = orig := beBit_ext (by omega) fun i => by
    by_cases hi : i < dl
    · exact hget hb1 i hi
    · rw [r5 i (by omega), k4 i (by omega)]
  have hd2 : r.buf.2 = q := beBit_ext (by omega) fun i => by
    by_cases hi : i < NP
    · exact hget hb2 i hi
    · rw [r6 i (by omega), k5 i (by omega)]
  unfold bchTrial
  rw [hq, sb, hdam, sb]
  dsimp only
  rw [e1, sb, hr, sb, as_pos (by omega), sb, hd1, hd2, compareAll_ok rfl (by omega) (by omega), sb, compareAll_ok rfl (by omega) (by omega)]

/-! ### One bit in a symbol -/

theorem xor_bit {x : Nat} (h : x ≤ 1) : x ^^^ 1 = 1 - x := by
  have : x = 0 ∨ x = 1 := by omega
  rcases this with rfl | rfl <;> rfl

/-- The state of the buffers. -/
def Binary (dl NP : Nat) (s : List (Val M) × List (Val M)) : Prop := s.1.length = dl ∧ s.2.length = NP ∧ (∀ x ∈ s.1, x.v ≤ 1) ∧ ∀ x ∈ s.2, x.v ≤ 1

/-- A flipped bit. -/
theorem hitFlip_ok (hM : 1 < M) (i : Nat) {p : Nat} (hp : p < dl + NP) {s : List (Val M) × List (Val M)} (hg : Binary dl NP s) :
    ∃ s', hitFlip dl i p s = some s' ∧ Binary dl NP s' ∧ (∀ q, q ≠ p → (blk s'.1 s'.2 dl NP).getD q 0 = (blk s.1 s.2 dl NP).getD q 0) ∧
      (blk s'.1 s'.2 dl NP).getD p 0 ≠ (blk s.1 s.2 dl NP).getD p 0 := by
  obtain ⟨a1, a2, a3, a4⟩ := hg
  have hQ : 4 ≤ 2 ^ M := le_trans (by norm_num) (Nat.pow_le_pow_right (by norm_num : 0 < 2) hM)
  have hv : ∀ x : Val M, x.v ≤ 1 → ∃ y : Val M, toVal M (some (x.v ^^^ 1)) = some y ∧ y.v = 1 - x.v := by
    intro x hx
    exact ⟨⟨1 - x.v, by omega⟩, toVal_some rfl _ (xor_bit hx).symm, rfl⟩
  have hmem : ∀ {l : List (Val M)} {j : Nat} {y : Val M}, (∀ x ∈ l, x.v ≤ 1) → y.v ≤ 1 → ∀ x ∈ l.set j y, x.v ≤ 1 := by
    intro l j y h hy x hx
    rcases List.mem_or_eq_of_mem_set hx with h' | rfl
    · exact h x h'
    · exact hy
  unfold hitFlip
  by_cases h : p < dl
  · have hb := a3 _ (List.getElem_mem (show p < s.1.length by omega))
    obtain ⟨y, y1, y2⟩ := hv _ hb
    rw [if_pos h, rd_of_lt (by omega), sb, y1, sb, wr_of_lt (by omega), sb]
    refine ⟨(s.1.set p y, s.2), rfl, ⟨by rw [List.length_set]; exact a1, a2, hmem a3 (by omega), a4⟩, fun q hq => ?_, ?_⟩
    · dsimp only
      rw [blk_getD (by rw [List.length_set]; exact a1) a2, blk_getD a1 a2, List.getElem?_set_ne (by omega)]
    · dsimp only
      rw [blk_getD (by rw [List.length_set]; exact a1) a2, blk_getD a1 a2, if_pos h, if_pos h, List.getElem?_set_self (by omega), List.getElem?_eq_getElem (by omega)]
      show y.v ≠ s.1[p].v
      omega
  · have hb := a4 _ (List.getElem_mem (show p - dl < s.2.length by omega))
    obtain ⟨y, y1, y2⟩ := hv _ hb
    rw [if_neg h, rd_of_lt (by omega), sb, y1, sb, wr_of_lt (by omega), sb]
    refine ⟨(s.1, s.2.set (p - dl) y), rfl, ⟨a1, by rw [List.length_set]; exact a2, a3, hmem a4 (by omega)⟩, fun q hq => ?_, ?_⟩
    · dsimp only
      rw [blk_getD a1 (by rw [List.length_set]; exact a2), blk_getD a1 a2]
      by_cases hq' : q < dl
      · rw [if_pos hq', if_pos hq']
      · rw [if_neg hq', if_neg hq', List.getElem?_set_ne (by omega)]
    · dsimp only
      rw [blk_getD a1 (by rw [List.length_set]; exact a2), blk_getD a1 a2, if_neg h, if_neg h, List.getElem?_set_self (by omega), List.getElem?_eq_getElem (by omega)]
      show y.v ≠ s.2[p - dl].v
      omega

/-- Bits can be packed. -/
theorem pack (f : Nat → Bool) (n m : Nat) (hn : n ≤ 8 * m) : ∃ buf : List (BitVec 8), buf.length = m ∧ ∀ j, j < n → beBit buf j = f j := by
  induction n with
  | zero => exact ⟨List.replicate m 0, List.length_replicate .., fun j hj => absurd hj (by omega)⟩
  | succ n ih =>
    obtain ⟨buf, h1, h2⟩ := ih (by omega)
    obtain ⟨b', _, e2, e3⟩ := setBe_bit (buf := buf) (i := n) (f n) (by omega)
    refine ⟨b', e2.trans h1, fun j hj => ?_⟩
    rw [e3 j (by omega)]
    by_cases h : j = n
    · rw [if_pos h, h]
    · rw [if_neg h, h2 j (by omega)]

/-- **C72** A trial of `bch_reference_test` passes under the same conditions. -/
theorem C72_bch_reference (R : Ready w M P T) (hM : 1 < M) (u : Val M) (ui : Fin (2 ^ M - 1)) (p : BParams M NR FCR K NP dl) {polys : List Nat} (hmin : BCH.Minimal NP polys)
    (hbig : ∀ m ∈ polys, 1 < m) (hM1 : ∀ m ∈ polys, m < 2 ^ (M + 1))
    (hroots : ∀ i, i < NR → (genPoly polys).eval₂ (algebraMap (ZMod 2) (GFR P)) (xR P ^ (FCR + i)) = 0) (h5 : 5 ≤ NR)
    {ref : List (Val M)} (href : BCH.refInit (tableOps w M T u ui) NP polys = some ref) {im : List (Val M)} (him : artin (tableOps w M T u ui) = some im)
    {src : Nat → Nat} {cnt : Nat} {errors erasures : List Nat} (D : Drawn (dl + NP) NR cnt src errors erasures) (hfair : Fair (dl + NP) src)
    {orig par : List (Val M)} (ho : orig.length = dl) (hb : ∀ x ∈ orig, x.v ≤ 1) (hp : par.length = NP) :
    ∃ F, ∀ fuel, F ≤ fuel → bchRefTrial w (tableOps w M T u ui) NR FCR K NP ref im src fuel cnt orig par errors erasures dl = some () := by
  have hpos := p.pos
  have hlen := p.len
  have htot := p.total
  have hQ : 0 < 2 ^ M := by positivity
  have hpow : 2 ^ M ≤ 2 ^ w := Nat.pow_le_pow_right (by norm_num) R.hw
  have hc : 2 * (cnt / 2) ≤ NR := by have := D.number; omega
  have hle := roots_le R p.nrN hmin hroots
  obtain ⟨pd, pd1, pd2⟩ := pack (fun j => decide ((orig[j]?.map Val.v).getD 0 = 1)) dl ((dl + 7) / 8) (by omega)
  have hnat : ∀ {x : Nat}, x ≤ 1 → x = (decide (x = 1)).toNat := by
    intro x hx
    have : x = 0 ∨ x = 1 := by omega
    rcases this with rfl | rfl <;> rfl
  have hpd : ∀ j (hj : j < orig.length), j < dl → orig[j].v = (beBit pd j).toNat := by
    intro j hj hjd
    rw [pd2 j hjd, List.getElem?_eq_getElem hj]
    exact hnat (hb _ (List.getElem_mem hj))
  obtain ⟨gen', hg, he⟩ := C27_encoder hmin (List.replicate ((NP + 1 + 7) / 8) 0) (List.length_replicate ..)
  obtain ⟨q, hq, hql, hdv, _, _⟩ := he K pd (List.replicate ((NP + 7) / 8) 0) dl p.pos p.len (by omega) (by rw [List.length_replicate])
  obtain ⟨gen, ref', hgen, href', hboth⟩ := C27_reference R hM u ui hmin hbig hM1 (List.replicate ((NP + 1 + 7) / 8) 0) (List.length_replicate ..)
  cases hgen.symm.trans hg
  cases href.symm.trans href'
  obtain ⟨q', sq, hq', hsq, s1, s2, _⟩ := hboth K dl pd (List.replicate ((NP + 7) / 8) 0) orig par p.pos p.len (by omega) (by rw [List.length_replicate]) (by omega) (by omega) hpd
  cases hq.symm.trans hq'
  have hsl : sq.length = NP := by omega
  have hsb : ∀ x ∈ sq, x.v ≤ 1 := by
    intro x hx
    obtain ⟨k, hk, rfl⟩ := List.mem_iff_getElem.1 hx
    rw [s2 k hk (by omega)]
    exact Bool.toNat_le _
  have hblk : blk orig sq dl NP = syms (bits pd q dl NP) := by
    refine ext_getD 0 (by rw [blk_length (by omega) (by omega), bits_length]) fun i hi => ?_
    rw [blk_length (by omega) (by omega)] at hi
    rw [blk_getD ho hsl, bits_getD]
    by_cases h : i < dl
    · rw [if_pos h, if_pos h, List.getElem?_eq_getElem (by omega)]
      exact hpd i (by omega) h
    · rw [if_neg h, if_neg h, if_pos hi, List.getElem?_eq_getElem (by omega)]
      exact s2 (i - dl) (by omega) (by omega)
  have C : Careful (dl + NP) (hitFlip (M := M) dl) (Binary dl NP) (fun s k => (blk s.1 s.2 dl NP).getD k 0) := ⟨fun i x s hx hs => by
    obtain ⟨s', e1, e2, e3, _⟩ := hitFlip_ok hM i hx hs
    exact ⟨s', e1, e2, e3⟩⟩
  have hflip : ∀ i x s s', x < dl + NP → Binary dl NP s → hitFlip (M := M) dl i x s = some s' → (blk s'.1 s'.2 dl NP).getD x 0 ≠ (blk s.1 s.2 dl NP).getD x 0 := by
    intro i x s s' hx hs h
    obtain ⟨s'', e1, _, _, e4⟩ := hitFlip_ok hM i hx hs
    rw [h] at e1
    cases e1
    exact e4
  have hstart : Binary dl NP (orig, sq) := ⟨ho, hsl, hb, hsb⟩
  obtain ⟨F, ⟨d, er⟩, hF⟩ := damage_ends (w := w) D.positions hfair (by omega) (hit := hitFlip dl) (d := (orig, sq)) hc (by omega) D.errors D.erasures (fun ps x e hps he hx => by
    obtain ⟨e', k1, k2, _⟩ := C.hits ps 0 (orig, sq) hps hstart
    rw [he] at k1
    cases k1
    obtain ⟨s', k3, _⟩ := C.step ps.length x e hx k2
    exact ⟨s', k3⟩)
  refine ⟨F, fun fuel hf => ?_⟩
  have hdam := hF fuel hf
  obtain ⟨ps, g1, g2, g3, g4, g5⟩ := damage_some D.positions (by omega) hc D.erasures hdam
  obtain ⟨s', k1, ⟨k2, k3, k4, k5⟩, k6⟩ := C.hits ps 0 (orig, sq) g3 hstart
  have k7 := C.flips hflip ps 0 (orig, sq) d g3 hstart g2 g4
  rw [g4] at k1
  cases k1
  have hdiff := diffPos_flips (a := blk d.1 d.2 dl NP) (b := blk orig sq dl NP) (by rw [blk_length (by omega) (by omega)]; exact g3) k6 k7
  rw [hblk] at hdiff
  obtain ⟨ix, e1, e2, e3, e4, e5, e6⟩ := flip_facts (M := M) (P := P) h5 hc g1 g2 g3 (by omega) hdiff g5
  have call : BCall (tableOps w M T u ui) NR NP dl d.1.length d.2.length im ix (NR - 2 * (cnt / 2)) :=
    ⟨him, by omega, by omega, by omega, by omega, e3, e4⟩
  have hbin : ∀ x ∈ blk d.1 d.2 dl NP, x ≤ 1 := by
    intro x hx
    unfold blk at hx
    rw [List.mem_map] at hx
    obtain ⟨y, hy, rfl⟩ := hx
    rcases List.mem_append.1 hy with h | h
    · exact k4 y (List.mem_of_mem_take h)
    · exact k5 y (List.mem_of_mem_take h)
  obtain ⟨r, hr, r1, r2, r3, r4⟩ := C28_reference R hM u ui p hroots call hbin (c := bits pd q dl NP)
    (by unfold bits; rw [List.length_append, length_bitsOf, length_bitsOf]) hdv e5 e6
  rw [← hblk] at r1
  have hsame : r.buf.1.take dl = orig.take dl ∧ r.buf.2.take NP = sq.take NP ∧ dl ≤ r.buf.1.length ∧ NP ≤ r.buf.2.length := by
    have hlen1 := congrArg List.length r1
    rw [show (blk orig sq dl NP).length = dl + NP from blk_length (by omega) (by omega)] at hlen1
    unfold blk at hlen1 r1
    rw [List.length_map, List.length_append, List.length_take, List.length_take] at hlen1
    have hl1 : dl ≤ r.buf.1.length := by omega
    have hl2 : NP ≤ r.buf.2.length := by omega
    have h := List.map_injective_iff.2 (fun a b h => Val.ext' h) r1
    have hlt : (r.buf.1.take dl).length = (orig.take dl).length := by rw [List.length_take, List.length_take]; omega
    exact ⟨List.append_inj_left h hlt, List.append_inj_right h hlt, hl1, hl2⟩
  unfold bchRefTrial
  rw [hsq, sb, hdam, sb]
  dsimp only
  rw [e1, sb, hr, sb, as_pos (by omega), sb, compareAll_ok hsame.1 hsame.2.2.1 (by omega), sb, compareAll_ok hsame.2.1 hsame.2.2.2 (by omega)]

/-- Every trial of both tests passes, for the code with these parameters: the encoders and the decoder are built, and for all data, all lengths, all numbers of errors and every fair source of
positions there is a number of steps after which the trial has passed. -/
def Passes (M P NR FCR K : Nat) (polys : List Nat) : Prop :=
  ∀ (w : Nat) (T : Tab), Ready w M P T → ∀ (u : Val M) (ui : Fin (2 ^ M - 1)),
    ∃ im, artin (tableOps w M T u ui) = some im ∧ ∀ g0 : List (BitVec 8), g0.length = (2 ^ M - 1 - K + 1 + 7) / 8 →
      ∃ gen ref, BCH.encInit (2 ^ M - 1 - K) g0 polys = some gen ∧ BCH.refInit (tableOps w M T u ui) (2 ^ M - 1 - K) polys = some ref ∧
        ∀ (dl cnt : Nat) (src : Nat → Nat) (errors erasures : List Nat), 0 < dl → dl ≤ K → Drawn (dl + (2 ^ M - 1 - K)) NR cnt src errors erasures → Fair (dl + (2 ^ M - 1 - K)) src →
          (∀ orig par : List (BitVec 8), orig.length = (dl + 7) / 8 → par.length = (2 ^ M - 1 - K + 7) / 8 →
            ∃ F, ∀ fuel, F ≤ fuel → bchTrial w (tableOps w M T u ui) NR FCR K (2 ^ M - 1 - K) gen im src fuel cnt orig par errors erasures dl = some ()) ∧
          ∀ orig par : List (Val M), orig.length = dl → (∀ x ∈ orig, x.v ≤ 1) → par.length = 2 ^ M - 1 - K →
            ∃ F, ∀ fuel, F ≤ fuel → bchRefTrial w (tableOps w M T u ui) NR FCR K (2 ^ M - 1 - K) ref im src fuel cnt orig par errors erasures dl = some ()

theorem passes_of {polys : List Nat} (S : BCH.Example.Suits M P NR FCR K polys) (hM : 1 < M) (h5 : 5 ≤ NR) (hM1 : ∀ m ∈ polys, m < 2 ^ (M + 1)) : Passes M P NR FCR K polys := by
  intro w T R u ui
  obtain ⟨im, him⟩ := C24_constructor R hM u ui
  refine ⟨im, him, fun g0 hg0 => ?_⟩
  obtain ⟨gen, ref, hgen, href, _⟩ := C27_reference R hM u ui S.minimal S.big hM1 g0 hg0
  refine ⟨gen, ref, hgen, href, fun dl cnt src errors erasures h0 hK D hfair => ⟨fun orig par ho hp => ?_, fun orig par ho hb hp => ?_⟩⟩
  · exact C72_bch R hM u ui (S.params dl h0 hK) S.minimal S.roots h5 hg0 hgen him D hfair ho hp
  · exact C72_bch_reference R hM u ui (S.params dl h0 hK) S.minimal S.big hM1 S.roots h5 href him D hfair ho hb hp

/-- **C72** The six codes of the BCH regression test. -/
theorem C72_bch_tests :
    Passes 4 0b10011 6 1 5 [0b10011, 0b11111, 0b00111] ∧
    Passes 7 0b10001001 20 1 64 [0b10001001, 0b10001111, 0b10011101, 0b11110111, 0b10111111, 0b11010101,
      0b10000011, 0b11101111, 0b11001011] ∧
    Passes 8 0b100011101 36 1 131 [0b100011101, 0b101110111, 0b111110011, 0b101101001,
      0b110111101, 0b111100111, 0b100101011, 0b111010111, 0b000010011, 0b101100101, 0b110001011, 0b101100011,
      0b100011011, 0b100111111, 0b110001101, 0b100101101] ∧
    Passes 14 0b100000000101011 24 1 16215 [0b100000000101011, 0b100100101000001, 0b100011001000111,
      0b101010110010001, 0b110101101010101, 0b110001110001001, 0b110110011100101, 0b100111100100001, 0b100011000001111,
      0b101101001001001, 0b101100000010001, 0b110010111101111] ∧
    Passes 15 0b1000000000101101 24 1 32587 [0b1000000000101101, 0b1000110010010011, 0b1011010101010101,
      0b1000110101101101, 0b1001010011010111, 0b1011000011010001, 0b1101100010110101, 0b1100101101010101, 0b1011101010110111,
      0b1011110010011111, 0b1000101000010111, 0b1110110100010101] ∧
    Passes 16 0b10000000000101101 24 1 65343 [0b10000000000101101, 0b10000000101110011, 0b10000111110111101,
      0b10101101001010101, 0b10001111100101111, 0b11111011110110101, 0b11010111101100101, 0b10111001101100111, 0b10000111010100001,
      0b10111010110100111, 0b10011101000101101, 0b10001101011100011] := by
  obtain ⟨S1, S2, S3, S4, S5, S6⟩ := BCH.Example.C28_test_codes
  exact ⟨passes_of S1 (by norm_num) (by norm_num) (by decide), passes_of S2 (by norm_num) (by norm_num) (by decide), passes_of S3 (by norm_num) (by norm_num) (by decide),
    passes_of S4 (by norm_num) (by norm_num) (by decide), passes_of S5 (by norm_num) (by norm_num) (by decide), passes_of S6 (by norm_num) (by norm_num) (by decide)⟩

/-! ### Examples -/

/-- Counting through the positions is fair. -/
theorem fair_mod {n : Nat} (hn : 0 < n) : Fair n fun c => c % n := by
  intro v hv c
  refine ⟨n - c % n + v, ?_⟩
  show (c + (n - c % n + v)) % n = v
  have h1 := Nat.mod_add_div c n
  have h2 := Nat.mod_lt c hn
  rw [show c + (n - c % n + v) = v + n * (c / n + 1) by rw [Nat.mul_add]; omega, Nat.add_mul_mod_self_left, Nat.mod_eq_of_lt hv]

/-- Numbers a test may draw for BCH(15, 5), three data bits: two errors and two erasures. -/
theorem drawn_example : Drawn (3 + 10) 6 5 (fun c => c % 13) [9, 9, 9, 9, 9, 9] [7, 7] := ⟨fun c => Nat.mod_lt _ (by norm_num), by norm_num, rfl, rfl⟩

end Verif.Trials

namespace Verif.Trials.Example
open Verif.GF Verif.RS
open Verif.RS.Example (T ready v x im im_ok)

example : ∃ F, ∀ fuel, F ≤ fuel → bchTrial 8 (tableOps 8 4 T (v 5) (x 3)) 6 1 5 10 BCH.Example.gen im (fun c => c % 13) fuel 5 [0b10111111] [0xFF, 0xFF] [9, 9, 9, 9, 9, 9] [7, 7] 3 = some () :=
  C72_bch ready (by norm_num) (v 5) (x 3) (BCH.Example.C28_test_codes.1.params 3 (by norm_num) (by norm_num)) BCH.Example.C28_test_codes.1.minimal BCH.Example.C28_test_codes.1.roots (by norm_num)
    (g0 := [0xAA, 0x55]) rfl BCH.Example.gen_ok im_ok drawn_example (fair_mod (by norm_num)) rfl rfl

/-- The model agrees when run. -/
example : bchTrial 8 (tableOps 8 4 T (v 5) (x 3)) 6 1 5 10 BCH.Example.gen im (fun c => c % 13) 20 5 [0b10111111] [0xFF, 0xFF] [9, 9, 9, 9, 9, 9] [7, 7] 3 = some () := by decide +kernel

/-- A Reed-Solomon trial with three data symbols and four parity symbols, one error and two erasures. -/
theorem drawn_rs : Drawn (3 + 4) 4 3 (fun c => c % 7) [9, 9, 9, 9] [5, 5] := ⟨fun c => Nat.mod_lt _ (by norm_num), by norm_num, rfl, rfl⟩

example : ∃ F, ∀ fuel, F ≤ fuel → rsTrial 8 (tableOps 8 4 T (v 5) (x 3)) 4 1 RS.Example.gen im (fun c => c % 7) fuel (fun i => v (i + 3)) 3 RS.Example.data [v 1, v 2, v 3, v 4] [9, 9, 9, 9] [5, 5] 3 = some () :=
  C72_rs_passes ready (by norm_num) (v 5) (x 3) RS.Example.params RS.Example.gen_ok im_ok drawn_rs (fair_mod (by norm_num)) _ rfl rfl (Or.inl (Or.inl ⟨rfl, rfl⟩))

/-- The model agrees when run. -/
example : rsTrial 8 (tableOps 8 4 T (v 5) (x 3)) 4 1 RS.Example.gen im (fun c => c % 7) 20 (fun i => v (i + 3)) 3 RS.Example.data [v 1, v 2, v 3, v 4] [9, 9, 9, 9] [5, 5] 3 = some () := by decide +kernel

/-- A source that gives a position twice: the second strike draws again. -/
example : damage 8 (fun c => if c < 2 then 4 else c) 20 (hitSymbol 3 fun i => v (i + 3)) 4 2 (RS.Example.data, [v 1, v 2, v 3, v 4]) [9, 9, 9, 9] [] =
    some (([v 7, v 0, v 4], [v 1, v 3, v 3, v 4]), []) := by decide +kernel

end Verif.Trials.Example
