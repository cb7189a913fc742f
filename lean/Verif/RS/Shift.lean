import Verif.RS.Dec
/- Adding a codeword to the received word: the Reed-Solomon decoder.  Used by C82. -/
namespace Verif.RS
open Finset

/-- A loop whose body commutes with a map, as long as an invariant holds. -/
theorem forN_comm {σ τ : Type} {f : Nat → σ → Option σ} {g : Nat → τ → Option τ} {φ : σ → τ} (I : σ → Prop)
    (h : ∀ i s, I s → g i (φ s) = (f i s).map φ ∧ ∀ t, f i s = some t → I t) :
    ∀ n i s, I s → forN n i (φ s) g = (forN n i s f).map φ := by
  intro n
  induction n with
  | zero => intro i s _; rfl
  | succ n ih =>
    intro i s hs
    obtain ⟨h1, h2⟩ := h i s hs
    unfold forN
    rw [h1]
    cases e : f i s with
    | none => rfl
    | some t => exact ih (i + 1) t (h2 t e)

theorem forUp_comm {σ τ : Type} {f : Nat → σ → Option σ} {g : Nat → τ → Option τ} {φ : σ → τ} (I : σ → Prop) {a b : Nat} {s : σ} (hs : I s)
    (h : ∀ i s, I s → g i (φ s) = (f i s).map φ ∧ ∀ t, f i s = some t → I t) :
    forUp a b (φ s) g = (forUp a b s f).map φ := forN_comm I h _ _ _ hs

/-- Symbolwise sum, of the length of the first list. -/
def plusL {V : Type} (f : V → V → V) (a c : List V) : List V := List.zipWith f a c

theorem plusL_length {V : Type} {f : V → V → V} {a c : List V} (h : a.length = c.length) : (plusL f a c).length = a.length := by
  unfold plusL; rw [List.length_zipWith]; omega

theorem plusL_rd {V : Type} {f : V → V → V} {a c : List V} (h : a.length = c.length) {i : Nat} (hi : i < a.length) :
    rd (plusL f a c) i = some (f a[i] (c[i]'(by omega))) := by
  rw [rd_of_lt (by rw [plusL_length h]; exact hi)]
  unfold plusL
  rw [List.getElem_zipWith]

theorem plusL_set {V : Type} {f : V → V → V} {a c : List V} (h : a.length = c.length) {i : Nat} (hi : i < a.length) {x : V} :
    (plusL f a c).set i (f x (c[i]'(by omega))) = plusL f (a.set i x) c := by
  apply List.ext_getElem
  · rw [List.length_set, plusL_length h, plusL_length (by rw [List.length_set]; exact h), List.length_set]
  · intro j h1 h2
    unfold plusL at h1 h2 ⊢
    rw [List.getElem_set, List.getElem_zipWith, List.getElem_zipWith, List.getElem_set]
    split
    · rename_i hij; subst hij; rfl
    · rfl

variable {F : Type} [Field F] (G : Gf F) (u : F) (ui : Fin G.N)

/-- Reading, adding, writing commutes with adding `c`. -/
theorem upd_plus {a c : List F} (h : a.length = c.length) (i : Nat) (m : F) :
    (do let x ← rd (plusL (· + ·) a c) i; let v ← (G.fieldOps u ui).add x m; wr (plusL (· + ·) a c) i v) =
      Option.map (plusL (· + ·) · c) (do let x ← rd a i; let v ← (G.fieldOps u ui).add x m; wr a i v) := by
  by_cases hi : i < a.length
  · rw [plusL_rd h hi, rd_of_lt hi, sb, sb, Gf.f_add, Gf.f_add, sb, sb, wr_of_lt (by rw [plusL_length h]; exact hi), wr_of_lt hi, add_right_comm,
      plusL_set h hi]
    rfl
  · have e1 : rd a i = none := List.getElem?_eq_none (by omega)
    have e2 : rd (plusL (· + ·) a c) i = none := List.getElem?_eq_none (by rw [plusL_length h]; omega)
    rw [e1, e2]; rfl

theorem upd_len {a b : List F} {i : Nat} {m : F} (h : (do let x ← rd a i; let v ← (G.fieldOps u ui).add x m; wr a i v) = some b) : b.length = a.length := by
  by_cases hi : i < a.length
  · rw [rd_of_lt hi, sb, Gf.f_add, sb, wr_of_lt hi] at h
    injection h with h
    rw [← h, List.length_set]
  · have e1 : rd a i = none := List.getElem?_eq_none (by omega)
    rw [e1] at h; cases h

theorem applyMags_plus {K cnt dl : Nat} {locs : List (Fin G.N)} {mags data parity cd cp : List F} (hd : data.length = cd.length) (hp : parity.length = cp.length) :
    applyMags (G.fieldOps u ui) K locs mags cnt dl (plusL (· + ·) data cd) (plusL (· + ·) parity cp) =
      (applyMags (G.fieldOps u ui) K locs mags cnt dl data parity).map fun s => (plusL (· + ·) s.1 cd, plusL (· + ·) s.2 cp) := by
  unfold applyMags
  refine forUp_comm (φ := fun s : List F × List F => (plusL (· + ·) s.1 cd, plusL (· + ·) s.2 cp)) (s := (data, parity))
    (fun s => s.1.length = cd.length ∧ s.2.length = cp.length) ⟨hd, hp⟩ ?_
  rintro i ⟨d, p⟩ ⟨h1, h2⟩
  dsimp only at h1 h2 ⊢
  cases e1 : rd locs i with
  | none => exact ⟨rfl, fun t ht => by cases ht⟩
  | some l =>
    cases e2 : rd mags i with
    | none => exact ⟨rfl, fun t ht => by cases ht⟩
    | some m =>
      simp only [sb]
      split
      · have a := upd_plus G u ui h1 ((G.fieldOps u ui).numI l + dl - K) m
        have b : ∀ t, _ → _ := fun t h => upd_len G u ui (a := d) (b := t) (i := (G.fieldOps u ui).numI l + dl - K) (m := m) h
        simp only [← Option.bind_eq_bind, ← bind_assoc] at a b ⊢
        rw [a]
        cases e : ((rd d ((G.fieldOps u ui).numI l + dl - K) >>= fun x => (G.fieldOps u ui).add x m) >>= fun v => wr d ((G.fieldOps u ui).numI l + dl - K) v) with
        | none => exact ⟨rfl, fun t ht => by cases ht⟩
        | some t =>
          refine ⟨rfl, fun t' ht => ?_⟩
          cases ht
          exact ⟨(b t e).trans h1, h2⟩
      · have a := upd_plus G u ui h2 ((G.fieldOps u ui).numI l + dl - K - dl) m
        have b : ∀ t, _ → _ := fun t h => upd_len G u ui (a := p) (b := t) (i := (G.fieldOps u ui).numI l + dl - K - dl) (m := m) h
        simp only [← Option.bind_eq_bind, ← bind_assoc] at a b ⊢
        rw [a]
        cases e : ((rd p ((G.fieldOps u ui).numI l + dl - K - dl) >>= fun x => (G.fieldOps u ui).add x m) >>= fun v => wr p ((G.fieldOps u ui).numI l + dl - K - dl) v) with
        | none => exact ⟨rfl, fun t ht => by cases ht⟩
        | some t =>
          refine ⟨rfl, fun t' ht => ?_⟩
          cases ht
          exact ⟨h1, (b t e).trans h2⟩

/-- The syndromes of two blocks that differ by a codeword. -/
theorem computeSyndromes_plus {NR FCR K NP dl : Nat} {syn : List F} {getD getP getD' getP' : Nat → Option F} {W W' : Nat → F}
    (hF : FCR < G.N) (hs : syn.length = NR)
    (hd : ∀ j, j < dl → getD j = some (W j)) (hp : ∀ j, j < NP → getP j = some (W (dl + j)))
    (hd' : ∀ j, j < dl → getD' j = some (W' j)) (hp' : ∀ j, j < NP → getP' j = some (W' (dl + j)))
    (hc : ∀ i, i < NR → ev (dl + NP) (fun j => W' j - W j) (G.al ^ (FCR + i)) = 0) :
    computeSyndromes (G.fieldOps u ui) NR FCR K NP getD' getP' syn dl = computeSyndromes (G.fieldOps u ui) NR FCR K NP getD getP syn dl := by
  classical
  by_cases ha : 0 < dl ∧ dl ≤ K
  · obtain ⟨⟨s, n⟩, e, h1, h2, h3⟩ := computeSyndromes_ok G u ui (K := K) (NP := NP) hF hs ha.1 ha.2 hd hp
    obtain ⟨⟨s', n'⟩, e', h1', h2', h3'⟩ := computeSyndromes_ok G u ui (K := K) (NP := NP) hF hs ha.1 ha.2 hd' hp'
    dsimp only at h1 h2 h3 h1' h2' h3'
    have hev : ∀ i, i < NR → ev (dl + NP) W' (G.al ^ (FCR + i)) = ev (dl + NP) W (G.al ^ (FCR + i)) := by
      intro i hi
      have := ev_add (dl + NP) (fun j => W' j - W j) W (G.al ^ (FCR + i))
      rw [hc i hi, zero_add] at this
      rw [← this]
      exact ev_congr (fun j _ => by ring) _
    rw [e, e']
    have es : s' = s := ext_getD 0 (by omega) fun i hi => by rw [h2' i (by omega), h2 i (by omega), hev i (by omega)]
    have en : n' = n := by
      rw [h3, h3']
      congr 1
      refine Finset.filter_congr fun i hi => ?_
      rw [hev i (Finset.mem_range.1 hi)]
    rw [es, en]
  · have : ∀ (a b : Nat → Option F), computeSyndromes (G.fieldOps u ui) NR FCR K NP a b syn dl = none := by
      intro a b
      unfold computeSyndromes assertUB
      rw [if_neg ha]; rfl
    rw [this, this]

/-- Adding a codeword to the buffers: the decoder does the same, with the codeword added to its result. -/
theorem decode_plus {NR FCR count dl : Nat} {im data parity cd cp : List F} {er : List (Fin G.N)}
    (hF : FCR < G.N) (hd : data.length = cd.length) (hp : parity.length = cp.length) (hdl : dl ≤ data.length) (hNR : NR ≤ parity.length)
    (hc : Cw G NR FCR (dl + NR) (word cd cp dl)) :
    decode (G.fieldOps u ui) NR FCR im (plusL (· + ·) data cd) (plusL (· + ·) parity cp) er count dl =
      (decode (G.fieldOps u ui) NR FCR im data parity er count dl).map fun r =>
        { r with data := plusL (· + ·) r.data cd, parity := plusL (· + ·) r.parity cp } := by
  unfold decode
  have hsyn := computeSyndromes_plus G u ui (NR := NR) (FCR := FCR) (K := (G.fieldOps u ui).N - NR) (NP := NR) (dl := dl)
    (syn := List.replicate NR (G.fieldOps u ui).junk)
    (getD := rd data) (getP := rd parity) (getD' := rd (plusL (· + ·) data cd)) (getP' := rd (plusL (· + ·) parity cp))
    (W := word data parity dl) (W' := fun j => word data parity dl j + word cd cp dl j) hF List.length_replicate
    (fun j hj => by rw [rd_of_lt (by omega), getElem_eq_getD (a := data) _ 0, word, if_pos hj])
    (fun j hj => by rw [rd_of_lt (by omega), getElem_eq_getD (a := parity) _ 0, word, if_neg (by omega), Nat.add_sub_cancel_left])
    (fun j hj => by
      rw [plusL_rd hd (by omega), getElem_eq_getD (a := data) _ 0, getElem_eq_getD (a := cd) _ 0, word, if_pos hj, word, if_pos hj])
    (fun j hj => by
      rw [plusL_rd hp (by omega), getElem_eq_getD (a := parity) _ 0, getElem_eq_getD (a := cp) _ 0, word, if_neg (by omega), word, if_neg (by omega),
        Nat.add_sub_cancel_left])
    (fun i hi => by
      rw [← hc i hi]
      exact ev_congr (fun j _ => by ring) _)
  dsimp only
  rw [hsyn]
  by_cases h1 : count ≤ NR
  swap
  · rw [show assertUB (count ≤ NR) = none from if_neg h1]; rfl
  rw [assertUB_pos h1, sb, sb]
  by_cases h2 : 0 < dl ∧ dl ≤ (G.fieldOps u ui).N - NR
  swap
  · rw [show assertUB (0 < dl ∧ dl ≤ (G.fieldOps u ui).N - NR) = none from if_neg h2]; rfl
  rw [assertUB_pos h2, sb, sb]
  cases shiftErasures (G.fieldOps u ui) ((G.fieldOps u ui).N - NR) er count dl with
  | none => rfl
  | some er' =>
  rw [sb, sb]
  cases computeSyndromes (G.fieldOps u ui) NR FCR ((G.fieldOps u ui).N - NR) NR (rd data) (rd parity) (List.replicate NR (G.fieldOps u ui).junk) dl with
  | none => rfl
  | some sn =>
  obtain ⟨syn, nz⟩ := sn
  rw [sb, sb]
  dsimp only
  by_cases h0 : nz = 0
  · rw [if_pos h0, if_pos h0]; rfl
  rw [if_neg h0, if_neg h0]
  cases errorCorrection (G.fieldOps u ui) NR FCR im syn (List.replicate NR (G.fieldOps u ui).junkI) (List.replicate NR (G.fieldOps u ui).junk) er' count with
  | none => rfl
  | some res =>
  rw [sb, sb]
  by_cases hr : res.ret ≤ 0
  · rw [if_pos hr, if_pos hr]; rfl
  rw [if_neg hr, if_neg hr]
  cases anyLocBelow (G.fieldOps u ui) res.locs res.ret.toNat ((G.fieldOps u ui).N - NR - dl) with
  | none => rfl
  | some bad =>
  rw [sb, sb]
  cases bad with
  | true => rfl
  | false =>
  rw [if_neg (by simp), if_neg (by simp), applyMags_plus G u ui hd hp]
  cases applyMags (G.fieldOps u ui) ((G.fieldOps u ui).N - NR) res.locs res.mags res.ret.toNat dl data parity with
  | none => rfl
  | some s =>
  obtain ⟨d, p⟩ := s
  rw [sb, Option.map_some, sb]
  dsimp only
  cases countNonzero (G.fieldOps u ui) res.ret.toNat res.mags <;> rfl

end Verif.RS
