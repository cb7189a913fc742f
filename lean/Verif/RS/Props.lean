import Verif.RS.Trans
/- C22-C26 (reed_solomon_encoder.hh, reed_solomon_decoder.hh, reed_solomon_error_correction.hh),
for the table-driven field `GaloisField<M, P, TYPE>` of galois_field.hh.  See Spec.lean for the
notions used in the statements. -/
namespace Verif.RS
open Verif.GF Finset

variable {w M P : Nat} {T : Tab} {NR FCR dl : Nat}

/-! ### C22 -/

/-- The encoder's constructor succeeds, and for every data block the parity it writes completes it
to a codeword; nothing else is written. -/
theorem C22_encoder (R : Ready w M P T) (hM : 1 < M) (u : Val M) (ui : Fin (2 ^ M - 1))
    (hF : FCR < 2 ^ M - 1) (hNR : 0 < NR) (hNRN : NR < 2 ^ M - 1) :
    ∃ gen, encInit (tableOps w M T u ui) NR FCR = some gen ∧
      ∀ (data parity : List (Val M)) (dl : Nat), 0 < dl → dl + NR ≤ 2 ^ M - 1 → dl ≤ data.length →
        NR ≤ parity.length →
        ∃ q, encode (tableOps w M T u ui) NR gen data parity dl = some q ∧ q.length = parity.length ∧
          q.drop NR = parity.drop NR ∧ Codeword P NR FCR (blk data q dl NR) := by
  letI := valField R
  rw [tableOps_eq R hM]
  obtain ⟨gen, hg, hg1, hg2⟩ := encInit_ok (valGf R hM) u ui (NR := NR) (FCR := FCR) hF hNRN
  refine ⟨gen, hg, ?_⟩
  intro data parity dl h0 hlen hd hp
  have hle : dl ≤ (valGf R hM).N - NR := by
    show dl ≤ 2 ^ M - 1 - NR
    omega
  obtain ⟨q, hq, h1, h2, h3⟩ := encode_ok (valGf R hM) u ui (data := data) (p := parity) hNR hg1 hg2 h0 hle hd hp
  refine ⟨q, hq, h1, h2, ?_⟩
  have hql : NR ≤ q.length := by omega
  have hl := blk_length hd hql
  rw [← cw_iff R hM (W := word data q dl) (fun j hj => blk_getD R hd hql (by omega)), hl]
  intro i hi
  rw [ev_append]
  have e1 : ev dl (word data q dl) ((valGf R hM).al ^ (FCR + i)) =
      ev dl (fun j => data.getD j 0) ((valGf R hM).al ^ (FCR + i)) :=
    ev_congr (fun j hj => by unfold word; rw [if_pos hj]) _
  have e2 : ev NR (fun j => word data q dl (dl + j)) ((valGf R hM).al ^ (FCR + i)) =
      ev NR (fun j => q.getD j 0) ((valGf R hM).al ^ (FCR + i)) :=
    ev_congr (fun j hj => by unfold word; rw [if_neg (by omega), Nat.add_sub_cancel_left]) _
  rw [e1, e2, h3 i hi]
  exact (valGf R hM).add_self _

/-- `compute_syndromes` writes the values of the block at the roots and returns how many of them
are not zero. -/
theorem C22_syndromes (R : Ready w M P T) (hM : 1 < M) (u : Val M) (ui : Fin (2 ^ M - 1)) (p : Params M NR FCR dl)
    (data parity syn : List (Val M)) (hd : dl ≤ data.length) (hp : NR ≤ parity.length) (hs : syn.length = NR) :
    ∃ s nz, computeSyndromes (tableOps w M T u ui) NR FCR (2 ^ M - 1 - NR) NR (rd data) (rd parity) syn dl = some (s, nz) ∧
      s.length = NR ∧
      (∀ i (h : i < s.length), toR P s[i].v = polyAt P (blk data parity dl NR) (xR P ^ (FCR + i))) ∧
      nz = ((range NR).filter fun i => (s.map Val.v).getD i 0 ≠ 0).card ∧
      (nz = 0 ↔ Codeword P NR FCR (blk data parity dl NR)) := by
  letI := valField R
  have hlen := p.len
  rw [tableOps_eq R hM]
  obtain ⟨⟨s, nz⟩, h, h1, h2, h3⟩ := computeSyndromes_ok' (valGf R hM) u ui (W := word data parity dl)
    (NR := NR) (FCR := FCR) (K := 2 ^ M - 1 - NR) (NP := NR) (getD := rd data) (getP := rd parity) (syn := syn)
    p.fcr hs p.pos (by omega)
    (fun j hj => by rw [rd_of_lt (by omega), getElem_eq_getD (a := data) _ 0, word, if_pos hj])
    (fun j hj => by
      rw [rd_of_lt (by omega), getElem_eq_getD (a := parity) _ 0, word, if_neg (by omega), Nat.add_sub_cancel_left])
  dsimp only at h1 h2 h3
  have hl := blk_length hd hp
  have hb : ∀ j, j < (blk data parity dl NR).length → (blk data parity dl NR).getD j 0 = (word data parity dl j).v :=
    fun j hj => blk_getD R hd hp (by omega)
  have hv : ∀ i, i < NR → ((s.map Val.v).getD i 0 ≠ 0 ↔ ev (dl + NR) (word data parity dl) ((valGf R hM).al ^ (FCR + i)) ≠ 0) := by
    intro i hi
    rw [← h2 i hi, List.getD_eq_getElem _ _ (by rw [List.length_map]; omega), List.getElem_map,
      List.getD_eq_getElem _ _ (by omega)]
    have := (valGf R hM).num_eq_zero (x := s[i]'(by omega))
    exact not_congr this
  have hnz : nz = ((range NR).filter fun i => (s.map Val.v).getD i 0 ≠ 0).card := by
    apply h3
    intro i
    rw [mem_filter, mem_range]
    exact and_congr_right fun hi => hv i hi
  refine ⟨s, nz, h, h1, ?_, hnz, ?_⟩
  · intro i hi
    rw [← iso_ev R hM hb, hl, ← h2 i (by omega), ← getElem_eq_getD]
    rfl
  · rw [← cw_iff R hM hb, hl, hnz, Finset.card_eq_zero, Finset.filter_eq_empty_iff]
    unfold Cw
    constructor
    · intro h i hi
      have := h (mem_range.2 hi)
      rw [hv i hi, not_not] at this
      exact this
    · intro h i hi
      rw [hv i (mem_range.1 hi), not_not]
      exact h i (mem_range.1 hi)

/-! ### C23 -/

theorem lift_block {b : List Nat} (hb : ∀ x ∈ b, x < 2 ^ M) : 
    ∃ W : Nat → Val M, ∀ j, j < b.length → b.getD j 0 = (W j).v := by
  refine ⟨fun j => if h : j < b.length then ⟨b[j], hb _ (List.getElem_mem h)⟩ else ⟨0, by positivity⟩, ?_⟩
  intro j hj
  dsimp only
  rw [List.getD_eq_getElem _ _ hj, dif_pos hj]

/-- The code is MDS: different codewords differ in more than `NR` positions. -/
theorem C23_mds (R : Ready w M P T) (hM : 1 < M) {a b : List Nat} (hl : a.length = b.length)
    (hn : a.length ≤ 2 ^ M - 1) (ha : ∀ x ∈ a, x < 2 ^ M) (hb : ∀ x ∈ b, x < 2 ^ M)
    (hca : Codeword P NR FCR a) (hcb : Codeword P NR FCR b) (hne : a ≠ b) : NR + 1 ≤ diff a b := by
  letI := valField R
  obtain ⟨Wa, hWa⟩ := lift_block ha
  obtain ⟨Wb, hWb⟩ := lift_block hb
  by_contra hlt
  rw [← cw_iff R hM hWa] at hca
  rw [← cw_iff R hM hWb, ← hl] at hcb
  have key := cw_unique (valGf R hM) (show a.length ≤ (valGf R hM).N from hn) hca hcb (S := diffPos a b)
    (show (diffPos a b).card ≤ NR by unfold diff at hlt; omega) (by
      intro j hj hne
      unfold diffPos
      rw [mem_filter, mem_range]
      refine ⟨hj, ?_⟩
      rw [hWa j hj, hWb j (by omega)]
      exact fun h => hne (Val.ext' h))
  apply hne
  apply ext_getD 0 hl
  intro j hj
  rw [hWa j hj, hWb j (by omega), key j hj]

/-- A codeword with at most `NR` non-zero symbols is zero. -/
theorem C23_weight (R : Ready w M P T) (hM : 1 < M) {a : List Nat} (hn : a.length ≤ 2 ^ M - 1) (ha : ∀ x ∈ a, x < 2 ^ M)
    (hca : Codeword P NR FCR a) (hw : ((range a.length).filter fun j => a.getD j 0 ≠ 0).card ≤ NR) : ∀ x ∈ a, x = 0 := by
  have hz : Codeword P NR FCR (List.replicate a.length 0) := by
    intro i _
    unfold polyAt
    refine Finset.sum_eq_zero fun j hj => ?_
    rw [List.length_replicate, mem_range] at hj
    rw [List.getD_replicate _ hj, toR_zero, zero_mul]
  have hcard : diff a (List.replicate a.length 0) = ((range a.length).filter fun j => a.getD j 0 ≠ 0).card := by
    unfold diff diffPos
    congr 1
    refine Finset.filter_congr fun j hj => ?_
    rw [List.getD_replicate _ (mem_range.1 hj)]
  by_contra hc
  have hne : a ≠ List.replicate a.length 0 := by
    intro h
    apply hc
    intro x hx
    rw [h] at hx
    exact List.eq_of_mem_replicate hx
  have := C23_mds R hM (by simp) hn ha (by
    intro x hx
    rw [List.eq_of_mem_replicate hx]; positivity) hca hz hne
  rw [hcard] at this
  omega

/-- The codewords with given data are exactly what the encoder writes: a block is a codeword iff
its parity symbols are the ones the encoder writes for its data. -/
theorem C23_systematic (R : Ready w M P T) (hM : 1 < M) (u : Val M) (ui : Fin (2 ^ M - 1)) (p : Params M NR FCR dl)
    {gen : List (Fin (2 ^ M - 1))} (hgen : encInit (tableOps w M T u ui) NR FCR = some gen)
    (data parity : List (Val M)) (hd : dl ≤ data.length) (hp : NR ≤ parity.length) :
    Codeword P NR FCR (blk data parity dl NR) ↔
      encode (tableOps w M T u ui) NR gen data parity dl = some parity := by
  have hlen := p.len
  have hpos := p.pos
  obtain ⟨gen', hg, he⟩ := C22_encoder (NR := NR) (FCR := FCR) R hM u ui p.fcr p.nr (by omega)
  rw [hgen] at hg
  cases hg
  obtain ⟨q, hq, h1, h2, h3⟩ := he data parity dl p.pos p.len hd hp
  have hql : NR ≤ q.length := by omega
  have hlt : ∀ (d e : List (Val M)), ∀ x ∈ blk d e dl NR, x < 2 ^ M := by
    intro d e x hx
    unfold blk at hx
    rw [List.mem_map] at hx
    obtain ⟨v, _, rfl⟩ := hx
    exact v.lt
  constructor
  · intro hc
    rw [hq]
    congr 1
    by_contra hne
    have hbne : blk data parity dl NR ≠ blk data q dl NR := by
      intro h
      unfold blk at h
      rw [List.map_append, List.map_append, List.append_cancel_left_eq] at h
      have h4 : parity.take NR = q.take NR := List.map_injective_iff.2 (fun a b h => Val.ext' h) h
      apply hne
      rw [← List.take_append_drop NR q, ← List.take_append_drop NR parity, h2, h4]
    have := C23_mds R hM (by rw [blk_length hd hp, blk_length hd hql]) (by rw [blk_length hd hp]; exact p.len)
      (hlt _ _) (hlt _ _) hc h3 hbne
    have hsub : diffPos (blk data parity dl NR) (blk data q dl NR) ⊆ (range (dl + NR)).filter (fun j => dl ≤ j) := by
      intro j hj
      unfold diffPos at hj
      rw [mem_filter, mem_range, blk_length hd hp] at hj
      rw [mem_filter, mem_range]
      refine ⟨hj.1, ?_⟩
      by_contra hjd
      apply hj.2
      unfold blk
      rw [List.map_append, List.map_append, List.getD_append _ _ _ _ (by simp; omega),
        List.getD_append _ _ _ _ (by simp; omega)]
    have hcard := Finset.card_le_card hsub
    have : ((range (dl + NR)).filter (fun j => dl ≤ j)).card ≤ NR := by
      have : (range (dl + NR)).filter (fun j => dl ≤ j) = Finset.Ico dl (dl + NR) := by
        ext j; simp; omega
      rw [this, Nat.card_Ico]; omega
    unfold diff at *
    omega
  · intro h
    rw [hq] at h
    cases h
    exact h3

/-- Codewords of different data blocks differ in more than `NR` symbols. -/
theorem C23_encoded_distance (R : Ready w M P T) (hM : 1 < M) (u : Val M) (ui : Fin (2 ^ M - 1))
    (p : Params M NR FCR dl) {gen : List (Fin (2 ^ M - 1))} (hgen : encInit (tableOps w M T u ui) NR FCR = some gen)
    {d1 d2 p1 p2 q1 q2 : List (Val M)} (hd1 : d1.length = dl) (hd2 : d2.length = dl) (hp1 : NR ≤ p1.length)
    (hp2 : NR ≤ p2.length) (h1 : encode (tableOps w M T u ui) NR gen d1 p1 dl = some q1)
    (h2 : encode (tableOps w M T u ui) NR gen d2 p2 dl = some q2) (hne : d1 ≠ d2) :
    NR + 1 ≤ diff (blk d1 q1 dl NR) (blk d2 q2 dl NR) := by
  have hlen := p.len
  have hpos := p.pos
  obtain ⟨gen', hg, he⟩ := C22_encoder (NR := NR) (FCR := FCR) R hM u ui p.fcr p.nr (by omega)
  rw [hgen] at hg
  cases hg
  obtain ⟨r1, hr1, l1, _, c1⟩ := he d1 p1 dl p.pos p.len (by omega) hp1
  obtain ⟨r2, hr2, l2, _, c2⟩ := he d2 p2 dl p.pos p.len (by omega) hp2
  rw [h1] at hr1
  rw [h2] at hr2
  cases hr1
  cases hr2
  have hlt : ∀ (d e : List (Val M)), ∀ x ∈ blk d e dl NR, x < 2 ^ M := by
    intro d e x hx
    unfold blk at hx
    rw [List.mem_map] at hx
    obtain ⟨v, _, rfl⟩ := hx
    exact v.lt
  refine C23_mds R hM (by rw [blk_length (by omega) (by omega), blk_length (by omega) (by omega)])
    (by rw [blk_length (by omega) (by omega)]; exact p.len) (hlt _ _) (hlt _ _) c1 c2 ?_
  intro h
  apply hne
  unfold blk at h
  rw [List.map_append, List.map_append] at h
  have h3 := List.append_inj_left h (by simp; omega)
  have h4 : d1.take dl = d2.take dl := List.map_injective_iff.2 (fun a b h => Val.ext' h) h3
  rw [List.take_of_length_le (by omega), List.take_of_length_le (by omega)] at h4
  exact h4

/-! ### C24, C25 -/

/-- A call of the decoder as the interface allows it: the member `search` was constructed, the
buffers are large enough, and the announced erasures are distinct positions in the block. -/
structure Call (O : Ops (Val M) (Fin (2 ^ M - 1))) (NR dl : Nat) (im data parity : List (Val M))
    (er : List (Fin (2 ^ M - 1))) (count : Nat) : Prop where
  built : artin O = some im
  hdata : dl ≤ data.length
  hparity : NR ≤ parity.length
  few : count ≤ NR
  her : count ≤ er.length
  nodup : (er.take count).Nodup
  inside : ∀ e ∈ er.take count, e.1 < dl + NR

/-- The set of announced erasures. -/
def erased {n : Nat} (er : List (Fin n)) (count : Nat) : Finset Nat := ((er.take count).map Fin.val).toFinset

/-- The constructor of the decoder succeeds. -/
theorem C24_constructor (R : Ready w M P T) (hM : 1 < M) (u : Val M) (ui : Fin (2 ^ M - 1)) :
    ∃ im, artin (tableOps w M T u ui) = some im := by
  letI := valField R
  rw [tableOps_eq R hM]
  obtain ⟨im, h, _⟩ := artin_ok (valGf R hM) u ui
  exact ⟨im, h⟩

theorem decode_sem (R : Ready w M P T) (hM : 1 < M) (u : Val M) (ui : Fin (2 ^ M - 1)) (p : Params M NR FCR dl)
    {im data parity : List (Val M)} {er : List (Fin (2 ^ M - 1))} {count : Nat}
    (c : Call (tableOps w M T u ui) NR dl im data parity er count) :
    letI := valField R
    ∃ r, decode (tableOps w M T u ui) NR FCR im data parity er count dl = some r ∧
      r.data.length = data.length ∧ r.parity.length = parity.length ∧ r.data.drop dl = data.drop dl ∧
      r.parity.drop NR = parity.drop NR ∧ r.erasures.length = er.length ∧
      (r.ret ≤ 0 → r.data = data ∧ r.parity = parity) ∧
      DecSem (valGf R hM) NR FCR (dl + NR) (erased er count) (word data parity dl) (word r.data r.parity dl) r.ret := by
  letI := valField R
  have hlen := p.len
  have hpos := p.pos
  have him := c.built
  rw [tableOps_eq R hM] at him ⊢
  have hI : Imap (valGf R hM) im := by
    obtain ⟨im', h, hI⟩ := artin_ok (valGf R hM) u ui
    have h' := h.symm.trans him
    cases h'
    exact hI
  obtain ⟨r, hr, h⟩ := decode_ok (valGf R hM) u ui (data := data) (parity := parity) (er := er) (dl := dl) hI
    p.fcr p.nr (show NR < 2 ^ M - 1 by omega) p.pos (show dl ≤ 2 ^ M - 1 - NR by omega)
    c.hdata c.hparity c.few c.her (by
      unfold posOf
      exact c.nodup.map (fun a b h => Fin.ext h)) (by
      intro q hq
      unfold posOf at hq
      rw [List.mem_map] at hq
      obtain ⟨e, he, rfl⟩ := hq
      exact c.inside e he)
  exact ⟨r, hr, h⟩

theorem erased_card {n : Nat} {er : List (Fin n)} {count : Nat} (hnd : (er.take count).Nodup) (hc : count ≤ er.length) :
    (erased er count).card = count := by
  unfold erased
  rw [List.toFinset_card_of_nodup (hnd.map (fun a b h => Fin.ext h)), List.length_map, List.length_take]
  omega

theorem erased_lt {n m : Nat} {er : List (Fin n)} {count : Nat} (h : ∀ e ∈ er.take count, e.1 < m) :
    ∀ q ∈ erased er count, q < m := by
  intro q hq
  unfold erased at hq
  rw [List.mem_toFinset, List.mem_map] at hq
  obtain ⟨e, he, rfl⟩ := hq
  exact h e he

theorem blk_eq_of {a b : List Nat} {n : Nat} (ha : a.length = n) (hb : b.length = n)
    (h : ∀ j, j < n → a.getD j 0 = b.getD j 0) : a = b :=
  ext_getD 0 (by omega) (fun i hi => h i (by omega))

/-- The decoder restores every codeword `c` of which the received block differs in `e` positions
outside the `count` announced erasures, `2 e + count ≤ NR`; it returns the number of positions it
changed.  Not covered are exactly the two-position patterns of `Excluded`, see C26. -/
theorem C24_correct (R : Ready w M P T) (hM : 1 < M) (u : Val M) (ui : Fin (2 ^ M - 1)) (p : Params M NR FCR dl)
    {im data parity : List (Val M)} {er : List (Fin (2 ^ M - 1))} {count : Nat}
    (call : Call (tableOps w M T u ui) NR dl im data parity er count)
    {c : List Nat} (hcl : c.length = dl + NR) (hcv : ∀ x ∈ c, x < 2 ^ M) (hc : Codeword P NR FCR c)
    (hcap : 2 * (diffPos (blk data parity dl NR) c \ erased er count).card + count ≤ NR)
    (hex : ¬ Excluded P M (dl + NR) (erased er count ∪ (diffPos (blk data parity dl NR) c \ erased er count))) :
    ∃ r, decode (tableOps w M T u ui) NR FCR im data parity er count dl = some r ∧
      blk r.data r.parity dl NR = c ∧ r.ret = diff (blk data parity dl NR) c ∧
      r.data.length = data.length ∧ r.parity.length = parity.length ∧
      r.data.drop dl = data.drop dl ∧ r.parity.drop NR = parity.drop NR := by
  letI := valField R
  obtain ⟨r, hr, h1, h2, h3, h4, _, _, hs⟩ := decode_sem R hM u ui p call
  have hlen := p.len
  have hd := call.hdata
  have hp := call.hparity
  have hbl := blk_length hd hp
  have hbl' := blk_length (data := r.data) (parity := r.parity) (dl := dl) (NR := NR) (by omega) (by omega)
  obtain ⟨W, hW⟩ := lift_block hcv
  have hlt := erased_lt call.inside
  have hcw : Cw (valGf R hM) NR FCR (dl + NR) W := by
    rw [← hcl]; exact (cw_iff R hM hW).2 hc
  have hbW : ∀ j, j < dl + NR → (blk data parity dl NR).getD j 0 = (word data parity dl j).v :=
    fun j hj => blk_getD R hd hp hj
  have hmem : ∀ j, j ∈ diffPos (blk data parity dl NR) c \ erased er count ↔
      j < dl + NR ∧ j ∉ erased er count ∧ word data parity dl j ≠ W j := by
    intro j
    rw [mem_sdiff, diffPos, mem_filter, mem_range, hbl]
    constructor
    · rintro ⟨⟨hj, hne⟩, hnot⟩
      refine ⟨hj, hnot, ?_⟩
      rw [hbW j hj, hW j (by omega)] at hne
      exact fun h => hne (by rw [h])
    · rintro ⟨hj, hnot, hne⟩
      refine ⟨⟨hj, ?_⟩, hnot⟩
      rw [hbW j hj, hW j (by omega)]
      exact fun h => hne (Val.ext' h)
  have key := hs.cap W _ hcw hmem (by rw [erased_card call.nodup call.her]; exact hcap)
  rw [exc'_iff R hM p.len (by
    intro q hq
    rcases Finset.mem_union.1 hq with hq | hq
    · exact hlt q hq
    · exact ((hmem q).1 hq).1)] at key
  obtain ⟨hne, hfix⟩ := key.2 hex
  have hfin : blk r.data r.parity dl NR = c := by
    refine blk_eq_of hbl' hcl fun j hj => ?_
    rw [blk_getD R (by omega) (by omega) hj, hfix j hj, hW j (by omega)]
  refine ⟨r, hr, hfin, ?_, h1, h2, h3, h4⟩
  refine hs.count hne (diffPos (blk data parity dl NR) c) ?_
  intro j
  rw [diffPos, mem_filter, mem_range, hbl]
  refine and_congr_right fun hj => ?_
  rw [hbW j hj, hW j (by omega), hfix j hj]
  exact ⟨fun h1 h2 => h1 (by rw [h2]), fun h1 h2 => h1 (Val.ext' h2.symm)⟩

/-- The contract on arbitrary words: the call terminates with all accesses in bounds and all
assertions true; it returns -1 or 0..NR; nothing is changed unless the result is positive; a
result `≥ 0` is the number of changed symbols; nothing outside the block is touched; codewords are
left alone. -/
theorem C25_contract (R : Ready w M P T) (hM : 1 < M) (u : Val M) (ui : Fin (2 ^ M - 1)) (p : Params M NR FCR dl)
    {im data parity : List (Val M)} {er : List (Fin (2 ^ M - 1))} {count : Nat}
    (call : Call (tableOps w M T u ui) NR dl im data parity er count) :
    ∃ r, decode (tableOps w M T u ui) NR FCR im data parity er count dl = some r ∧
      (r.ret = -1 ∨ (0 ≤ r.ret ∧ r.ret ≤ NR)) ∧
      (r.ret ≤ 0 → r.data = data ∧ r.parity = parity) ∧
      (0 ≤ r.ret → r.ret = diff (blk data parity dl NR) (blk r.data r.parity dl NR)) ∧
      r.data.length = data.length ∧ r.parity.length = parity.length ∧
      r.data.drop dl = data.drop dl ∧ r.parity.drop NR = parity.drop NR ∧
      (Codeword P NR FCR (blk data parity dl NR) → r.ret = 0) := by
  letI := valField R
  obtain ⟨r, hr, h1, h2, h3, h4, h5, h6, hs⟩ := decode_sem R hM u ui p call
  have hd := call.hdata
  have hp := call.hparity
  have hbl := blk_length hd hp
  refine ⟨r, hr, hs.range, h6, ?_, h1, h2, h3, h4, ?_⟩
  · intro h0
    refine hs.count (by omega) _ ?_
    intro j
    rw [diffPos, mem_filter, mem_range, hbl]
    refine and_congr_right fun hj => ?_
    rw [blk_getD R hd hp hj, blk_getD R (by omega) (by omega) hj]
    exact ⟨fun h1 h2 => h1 (by rw [h2]), fun h1 h2 => h1 (Val.ext' h2.symm)⟩
  · intro hc
    apply hs.clean
    rw [← hbl]
    exact (cw_iff R hM (fun j hj => blk_getD R hd hp (by omega))).2 hc

/-- When a result `≥ 0` on a word that is no codeword leaves a codeword: exactly if the number of
positions it located, which include the erasures and all changed positions, equals the length of
the shortest linear recurrence of the syndromes compatible with the erasures. -/
theorem C25_validity (R : Ready w M P T) (hM : 1 < M) (u : Val M) (ui : Fin (2 ^ M - 1)) (p : Params M NR FCR dl)
    {im data parity : List (Val M)} {er : List (Fin (2 ^ M - 1))} {count : Nat}
    (call : Call (tableOps w M T u ui) NR dl im data parity er count)
    (hnc : ¬ Codeword P NR FCR (blk data parity dl NR)) {r : DecRes (Val M) (Fin (2 ^ M - 1))}
    (hr : decode (tableOps w M T u ui) NR FCR im data parity er count dl = some r) (h0 : 0 ≤ r.ret) :
    ∃ (A : Finset Nat) (L : Nat), (∀ j ∈ A, j < dl + NR) ∧ erased er count ⊆ A ∧
      diffPos (blk data parity dl NR) (blk r.data r.parity dl NR) ⊆ A ∧ A.card ≤ L ∧ A.card ≤ NR ∧
      Shortest P NR (dl + NR) (erased er count)
        (fun i => polyAt P (blk data parity dl NR) (xR P ^ (FCR + i))) L ∧
      (Codeword P NR FCR (blk r.data r.parity dl NR) ↔ A.card = L) := by
  letI := valField R
  obtain ⟨r', hr', h1, h2, h3, h4, h5, h6, hs⟩ := decode_sem R hM u ui p call
  rw [hr] at hr'
  cases hr'
  have hd := call.hdata
  have hp := call.hparity
  have hbl := blk_length hd hp
  have hbl' := blk_length (data := r.data) (parity := r.parity) (dl := dl) (NR := NR) (by omega) (by omega)
  have hbW : ∀ j, j < (blk data parity dl NR).length → (blk data parity dl NR).getD j 0 = (word data parity dl j).v :=
    fun j hj => blk_getD R hd hp (by omega)
  have hbW' : ∀ j, j < (blk r.data r.parity dl NR).length →
      (blk r.data r.parity dl NR).getD j 0 = (word r.data r.parity dl j).v :=
    fun j hj => blk_getD R (by omega) (by omega) (by omega)
  obtain ⟨A, hA1, hA2, hA3, hA4, L, hL, hAL, hiff⟩ := hs.valid (by omega) (by
    rw [← hbl, cw_iff R hM hbW]; exact hnc)
  refine ⟨A, L, hA1, hA2, ?_, hAL, hA3, ?_, ?_⟩
  · intro j hj
    rw [diffPos, mem_filter, mem_range, hbl] at hj
    refine hA4 j hj.1 fun h => hj.2 ?_
    rw [hbW j (by omega), hbW' j (by omega), h]
  · have hrec : ∀ ℓ, Recurs' (valGf R hM) NR (dl + NR) (erased er count)
        (fun i => ev (dl + NR) (word data parity dl) ((valGf R hM).al ^ (FCR + i))) ℓ ↔
        Recurrence P NR (dl + NR) (erased er count)
        (fun i => polyAt P (blk data parity dl NR) (xR P ^ (FCR + i))) ℓ := by
      intro ℓ
      refine recur_iff R hM ℓ _ _ fun i _ => ?_
      rw [← iso_ev R hM hbW, hbl]
    exact ⟨(hrec L).1 hL.1, fun L' h' => hL.2 ((hrec L').2 h')⟩
  · rw [← hiff, ← cw_iff R hM hbW', hbl']

end Verif.RS
