import Verif.RS.Shift
import Verif.BCH.Access
/- Adding a codeword to the received word: the BCH decoders.  Used by C82. -/
namespace Verif.BCH
open Verif.RS Verif.Bits Finset

/-- The map `φ` on buffers commutes with every correction, and corrections keep the invariant. -/
def UpdComm {σ V : Type} (A : Access σ V) (φ : σ → σ) (I : σ → Prop) : Prop :=
  ∀ s b j m, I s → A.upd (φ s) b j m = (A.upd s b j m).map φ ∧ ∀ t, A.upd s b j m = some t → I t

theorem applyMags_comm {V Ix σ : Type} (O : Ops V Ix) {A : Access σ V} {φ : σ → σ} {I : σ → Prop} (hA : UpdComm A φ I)
    {K cnt dl : Nat} {locs : List Ix} {mags : List V} {s : σ} (hs : I s) :
    applyMags O A K locs mags cnt dl (φ s) = (applyMags O A K locs mags cnt dl s).map φ := by
  unfold applyMags
  refine forUp_comm (φ := φ) I hs ?_
  intro i s hs
  cases rd locs i with
  | none => exact ⟨rfl, fun t ht => by cases ht⟩
  | some l =>
    cases rd mags i with
    | none => exact ⟨rfl, fun t ht => by cases ht⟩
    | some m =>
      simp only [sb]
      split
      · exact hA s _ _ _ hs
      · exact hA s _ _ _ hs

/-- If the syndromes agree, the decoder does the same on both buffers. -/
theorem decode_comm {V Ix σ : Type} (O : Ops V Ix) {A : Access σ V} {φ : σ → σ} {I : σ → Prop} (hA : UpdComm A φ I)
    {NR FCR K NP count dl : Nat} {im : List V} {er : List Ix} {s : σ} (hs : I s)
    (hsyn : computeSyndromes O NR FCR K NP (A.get (φ s) true) (A.get (φ s) false) (List.replicate NR O.junk) dl =
      computeSyndromes O NR FCR K NP (A.get s true) (A.get s false) (List.replicate NR O.junk) dl) :
    decode O A NR FCR K NP im (φ s) er count dl =
      (decode O A NR FCR K NP im s er count dl).map fun r => { r with buf := φ r.buf } := by
  unfold decode
  rw [hsyn]
  by_cases h1 : count ≤ NR
  swap
  · rw [show assertUB (count ≤ NR) = none from if_neg h1]; rfl
  rw [assertUB_pos h1, sb, sb]
  by_cases h2 : 0 < dl ∧ dl ≤ K
  swap
  · rw [show assertUB (0 < dl ∧ dl ≤ K) = none from if_neg h2]; rfl
  rw [assertUB_pos h2, sb, sb]
  cases shiftErasures O K er count dl with
  | none => rfl
  | some er' =>
  rw [sb, sb]
  cases computeSyndromes O NR FCR K NP (A.get s true) (A.get s false) (List.replicate NR O.junk) dl with
  | none => rfl
  | some sn =>
  obtain ⟨syn, nz⟩ := sn
  rw [sb, sb]
  dsimp only
  by_cases h0 : nz = 0
  · rw [if_pos h0, if_pos h0]; rfl
  rw [if_neg h0, if_neg h0]
  cases errorCorrection O NR FCR im syn (List.replicate NR O.junkI) (List.replicate NR O.junk) er' count with
  | none => rfl
  | some res =>
  rw [sb, sb]
  by_cases hr : res.ret ≤ 0
  · rw [if_pos hr, if_pos hr]; rfl
  rw [if_neg hr, if_neg hr]
  cases anyLocBelow O res.locs res.ret.toNat (K - dl) with
  | none => rfl
  | some bad =>
  rw [sb, sb]
  cases bad with
  | true => rfl
  | false =>
  rw [if_neg (by simp), if_neg (by simp)]
  cases anyMagBig O res.mags res.ret.toNat with
  | none => rfl
  | some big =>
  rw [sb, sb]
  cases big with
  | true => rfl
  | false =>
  rw [if_neg (by simp), if_neg (by simp), applyMags_comm O hA hs]
  cases applyMags O A K res.locs res.mags res.ret.toNat dl s with
  | none => rfl
  | some s => cases h : countNonzero O res.ret.toNat res.mags <;> simp [h]

/-! ### Packed buffers -/

/-- Bytewise exclusive or. -/
def xorBytes (a c : List (BitVec 8)) : List (BitVec 8) := List.zipWith (· ^^^ ·) a c

theorem xorBytes_length {a c : List (BitVec 8)} (h : a.length = c.length) : (xorBytes a c).length = a.length := by
  unfold xorBytes; rw [List.length_zipWith]; omega

theorem beBit_xorBytes {a c : List (BitVec 8)} (h : a.length = c.length) (i : Nat) : beBit (xorBytes a c) i = (beBit a i ^^ beBit c i) := by
  unfold beBit xorBytes
  by_cases hi : i / 8 < a.length
  · rw [List.getD_eq_getElem _ _ (by rw [List.length_zipWith]; omega), List.getElem_zipWith, List.getD_eq_getElem _ _ hi,
      List.getD_eq_getElem _ _ (by omega), BitVec.getLsbD_xor]
  · have e1 : ∀ l : List (BitVec 8), l.length = a.length → l.getD (i / 8) 0 = 0 := by
      intro l hl
      rw [List.getD_eq_getElem?_getD, List.getElem?_eq_none (by omega)]; rfl
    rw [e1 _ (by rw [List.length_zipWith]; omega), e1 a rfl, e1 c h.symm]; simp

theorem xorBe_out {buf : List (BitVec 8)} {i : Nat} (v : Bool) (h : ¬ i < 8 * buf.length) : xorBe buf i v = none := by
  unfold xorBe
  have : rdZ buf ((i : Int).tdiv 8) = none := by
    have e : (i : Int).tdiv 8 = ((i / 8 : Nat) : Int) := by
      rw [Int.tdiv_eq_ediv_of_nonneg (by omega)]; omega
    rw [e]
    unfold rdZ
    simp only [Int.toNat_natCast]
    rw [List.getElem?_eq_none (by omega)]
    split <;> rfl
  rw [this]
  cases shCount (7 - (i : Int).tmod 8) <;> rfl

theorem xorBe_xorBytes {a c : List (BitVec 8)} (h : a.length = c.length) (i : Nat) (v : Bool) :
    xorBe (xorBytes a c) i v = (xorBe a i v).map (xorBytes · c) ∧ ∀ t, xorBe a i v = some t → t.length = a.length := by
  by_cases hi : i < 8 * a.length
  · obtain ⟨b, h1, h2, h3⟩ := xorBe_bit (buf := a) (i := i) v hi
    obtain ⟨b', h1', h2', h3'⟩ := xorBe_bit (buf := xorBytes a c) (i := i) v (by rw [xorBytes_length h]; exact hi)
    rw [h1, h1']
    refine ⟨?_, fun t ht => by cases ht; exact h2⟩
    rw [Option.map_some]
    congr 1
    rw [xorBytes_length h] at h2' h3'
    refine beBit_ext (by rw [xorBytes_length (by omega)]; omega) fun q => ?_
    rw [beBit_xorBytes (by omega)]
    by_cases hq : q < 8 * a.length
    · rw [h3 q hq, h3' q hq, beBit_xorBytes h, beBit_xorBytes h]
      split
      · rename_i hqi
        subst hqi
        cases beBit a q <;> cases beBit c q <;> cases v <;> rfl
      · rfl
    · rw [beBit_nat (by omega), beBit_nat (by omega), beBit_nat (by omega)]; rfl
  · rw [xorBe_out v hi, xorBe_out v (by rw [xorBytes_length h]; exact hi)]
    exact ⟨rfl, fun t ht => by cases ht⟩

theorem packed_comm {V Ix : Type} (O : Ops V Ix) (cd cp : List (BitVec 8)) :
    UpdComm (packedAccess O) (fun s => (xorBytes s.1 cd, xorBytes s.2 cp)) (fun s => s.1.length = cd.length ∧ s.2.length = cp.length) := by
  rintro ⟨d, p⟩ b j m ⟨h1, h2⟩
  dsimp only at h1 h2
  unfold packedAccess
  cases b
  · obtain ⟨e, l⟩ := xorBe_xorBytes h2 j (O.num m != 0)
    dsimp only
    rw [if_neg (by simp), if_neg (by simp), e]
    cases h : xorBe p j (O.num m != 0) with
    | none => exact ⟨rfl, fun t ht => by cases ht⟩
    | some t => exact ⟨rfl, fun t' ht => by cases ht; exact ⟨h1, (l t h).trans h2⟩⟩
  · obtain ⟨e, l⟩ := xorBe_xorBytes h1 j (O.num m != 0)
    dsimp only
    rw [if_pos rfl, if_pos rfl, e]
    cases h : xorBe d j (O.num m != 0) with
    | none => exact ⟨rfl, fun t ht => by cases ht⟩
    | some t => exact ⟨rfl, fun t' ht => by cases ht; exact ⟨(l t h).trans h1, h2⟩⟩

variable {F : Type} [Field F] (G : Gf F) (u : F) (ui : Fin G.N)

theorem ref_comm (cd cp : List F) :
    UpdComm (refAccess (G.fieldOps u ui)) (fun s => (plusL (· + ·) s.1 cd, plusL (· + ·) s.2 cp))
      (fun s => s.1.length = cd.length ∧ s.2.length = cp.length) := by
  rintro ⟨d, p⟩ b j m ⟨h1, h2⟩
  dsimp only at h1 h2
  unfold refAccess
  cases b
  · have e := upd_plus G u ui h2 j m
    have l : ∀ t, _ → _ := fun t h => upd_len G u ui (a := p) (b := t) (i := j) (m := m) h
    dsimp only
    rw [if_neg (by simp), if_neg (by simp)]
    simp only [← Option.bind_eq_bind, ← bind_assoc] at e l ⊢
    rw [e]
    cases h : ((rd p j >>= fun x => (G.fieldOps u ui).add x m) >>= fun v => wr p j v) with
    | none => exact ⟨rfl, fun t ht => by cases ht⟩
    | some t => exact ⟨rfl, fun t' ht => by cases ht; exact ⟨h1, (l t h).trans h2⟩⟩
  · have e := upd_plus G u ui h1 j m
    have l : ∀ t, _ → _ := fun t h => upd_len G u ui (a := d) (b := t) (i := j) (m := m) h
    dsimp only
    rw [if_pos rfl, if_pos rfl]
    simp only [← Option.bind_eq_bind, ← bind_assoc] at e l ⊢
    rw [e]
    cases h : ((rd d j >>= fun x => (G.fieldOps u ui).add x m) >>= fun v => wr d j v) with
    | none => exact ⟨rfl, fun t ht => by cases ht⟩
    | some t => exact ⟨rfl, fun t' ht => by cases ht; exact ⟨(l t h).trans h1, h2⟩⟩

/-- The value of a packed buffer pair at position `j`. -/
def pword (d p : List (BitVec 8)) (dl j : Nat) : F := fbit (if j < dl then beBit d j else beBit p (j - dl))

theorem decode_packed {NR FCR K NP count dl : Nat} {im : List F} {data parity cd cp : List (BitVec 8)} {er : List (Fin G.N)}
    (hF : FCR < G.N) (hd : data.length = cd.length) (hp : parity.length = cp.length) (hdl : dl ≤ 8 * data.length) (hNP : NP ≤ 8 * parity.length)
    (hc : Cw G NR FCR (dl + NP) (pword cd cp dl)) :
    decode (G.fieldOps u ui) (packedAccess (G.fieldOps u ui)) NR FCR K NP im (xorBytes data cd, xorBytes parity cp) er count dl =
      (decode (G.fieldOps u ui) (packedAccess (G.fieldOps u ui)) NR FCR K NP im (data, parity) er count dl).map fun r =>
        { r with buf := (xorBytes r.buf.1 cd, xorBytes r.buf.2 cp) } := by
  have hget : ∀ (d p : List (BitVec 8)), d.length = data.length → p.length = parity.length →
      (∀ j, j < dl → (packedAccess (G.fieldOps u ui)).get (d, p) true j = some (pword d p dl j)) ∧
      (∀ j, j < NP → (packedAccess (G.fieldOps u ui)).get (d, p) false j = some (pword d p dl (dl + j))) := by
    intro d p h1 h2
    constructor
    · intro j hj
      show (do let x ← getBe d (j : Int); bitV (G.fieldOps u ui) x) = _
      rw [getBe_bit (by omega), sb, bitV_ok, pword, if_pos hj]
    · intro j hj
      show (do let x ← getBe p (j : Int); bitV (G.fieldOps u ui) x) = _
      rw [getBe_bit (by omega), sb, bitV_ok, pword, if_neg (by omega), Nat.add_sub_cancel_left]
  obtain ⟨a1, a2⟩ := hget data parity rfl rfl
  obtain ⟨b1, b2⟩ := hget (xorBytes data cd) (xorBytes parity cp) (xorBytes_length hd) (xorBytes_length hp)
  refine decode_comm (G.fieldOps u ui) (packed_comm (G.fieldOps u ui) cd cp) (s := (data, parity)) ⟨hd, hp⟩ ?_
  refine computeSyndromes_plus G u ui hF List.length_replicate a1 a2 b1 b2 fun i hi => ?_
  rw [← hc i hi]
  refine ev_congr (fun j hj => ?_) _
  unfold pword
  rw [sub_eq_iff_eq_add]
  split
  · rw [fbit_add G, beBit_xorBytes hd, Bool.xor_comm]
  · rw [fbit_add G, beBit_xorBytes hp, Bool.xor_comm]

theorem decode_ref {NR FCR K NP count dl : Nat} {im data parity cd cp : List F} {er : List (Fin G.N)}
    (hF : FCR < G.N) (hd : data.length = cd.length) (hp : parity.length = cp.length) (hdl : dl ≤ data.length) (hNP : NP ≤ parity.length)
    (hc : Cw G NR FCR (dl + NP) (word cd cp dl)) :
    decode (G.fieldOps u ui) (refAccess (G.fieldOps u ui)) NR FCR K NP im (plusL (· + ·) data cd, plusL (· + ·) parity cp) er count dl =
      (decode (G.fieldOps u ui) (refAccess (G.fieldOps u ui)) NR FCR K NP im (data, parity) er count dl).map fun r =>
        { r with buf := (plusL (· + ·) r.buf.1 cd, plusL (· + ·) r.buf.2 cp) } := by
  refine decode_comm (G.fieldOps u ui) (ref_comm G u ui cd cp) (s := (data, parity)) ⟨hd, hp⟩ ?_
  exact computeSyndromes_plus G u ui (W := word data parity dl) (W' := fun j => word data parity dl j + word cd cp dl j) hF List.length_replicate
    (fun j hj => by
      show rd data j = _
      rw [rd_of_lt (by omega), getElem_eq_getD (a := data) _ 0, word, if_pos hj])
    (fun j hj => by
      show rd parity j = _
      rw [rd_of_lt (by omega), getElem_eq_getD (a := parity) _ 0, word, if_neg (by omega), Nat.add_sub_cancel_left])
    (fun j hj => by
      show rd (plusL (· + ·) data cd) j = _
      rw [plusL_rd hd (by omega), getElem_eq_getD (a := data) _ 0, getElem_eq_getD (a := cd) _ 0, word, if_pos hj, word, if_pos hj])
    (fun j hj => by
      show rd (plusL (· + ·) parity cp) j = _
      rw [plusL_rd hp (by omega), getElem_eq_getD (a := parity) _ 0, getElem_eq_getD (a := cp) _ 0, word, if_neg (by omega), word, if_neg (by omega),
        Nat.add_sub_cancel_left])
    (fun i hi => by
      rw [← hc i hi]
      exact ev_congr (fun j _ => by ring) _)

end Verif.BCH
