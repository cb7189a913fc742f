import Verif.Freezer.PropsBecList
import Verif.Polar.EraseFloat
/- C79 (polar_list_decoder.hh, polar_parity_aided.hh): the list decoders on `float` and `double` on the erasure channel. -/
namespace Verif.Freezer
open Verif.Polar
open FlList (FReg)
variable {L : Nat}

/-! ### Specification -/

/-- The symbols `x` received over the erasure channel as soft values: 0 at the positions in `E`, of the sign of the symbol elsewhere. -/
def ReceivedQ (level : Nat) (E : Finset Nat) (x : Nat → Int) (s : Nat → ℚ) : Prop := ∀ j, j < 2 ^ level → if j ∈ E then s j = 0 else 0 < s j * x j

/-! ### Proofs -/

theorem ReceivedQ.rel {F : Rounding} {level : Nat} {E : Finset Nat} {x : Nat → Int} {s : Nat → ℚ} (h : ReceivedQ level E x s) (hx : ∀ j, j < 2 ^ level → Sym (x j)) (hs : ∀ j, j < 2 ^ level → F.rep (s j)) :
    ∀ j, j < 2 ^ level → RelQ F (decide (j ∈ E)) (s j) (x j) := by
  intro j hj
  refine ⟨hs j hj, ?_⟩
  have := h j hj
  by_cases hE : j ∈ E
  · rw [if_pos hE] at this
    rw [if_pos (by simpa using hE), this]; rfl
  · rw [if_neg hE] at this
    rw [if_neg (by simpa using hE)]
    exact sign_of_mul (hx j hj) this

theorem metFl_zero {μ : WithTop ℚ} (h : metFl μ = .fin 0) : μ = 0 := by
  cases μ with
  | top => cases h
  | coe q => have : q = 0 := Fl.fin.inj h
             rw [this]; rfl

theorem flSym_map {m m' : List Int} (h : m.map flSym = m'.map flSym) : m = m' :=
  List.map_injective_iff.2 (fun a b h => by have := Fl.fin.inj h; exact_mod_cast this) h

open Classical in
theorem lost_sclF {F : Rounding} {level : Nat} {E : Finset Nat} {frozen : List Nat} {s : Nat → ℚ} {x : Nat → Int} (h6 : F.rep 1000000) (hh : 1000000 < F.huge)
    (hs : ∀ j, j < 2 ^ level → RelQ F (decide (j ∈ E)) (s j) (x j)) {Al : List Int → Int → Prop} {cost : List Int → WithTop ℚ → ℚ → Int → WithTop ℚ} (hc : Charges F Al cost) (Q : Nat → Prop)
    (hQ : ∀ w : List Int, w.length < 2 ^ level → ¬ Frozen frozen w.length → Al w 1 → Al w (-1) → Q w.length)
    (hL : 2 ^ ((Finset.range (2 ^ level)).filter fun i => Q i ∧ Lost level E i).card ≤ L) {v0 : Nat → Int} (hv0 : ∀ i, Sym (v0 i)) (hx0 : ∀ j, j < 2 ^ level → j ∉ E → polar level v0 j = x j) :
    (∀ a ∈ sclF F L level s (Frozen frozen) cost, Free F level (fun j => decide (j ∈ E)) x (Frozen frozen) Al (2 ^ level) a) ∧
      ∀ v : Nat → Int, (∀ i, Sym (v i)) → (∀ i, i < 2 ^ level → Frozen frozen i → v i = 1) → (∀ i, i < 2 ^ level → ¬ Frozen frozen i → Al (pre v i) (v i)) →
        (∀ j, j < 2 ^ level → j ∉ E → polar level v j = x j) → (pre v (2 ^ level), 0) ∈ sclF F L level s (Frozen frozen) cost := by
  have hcard : ∀ p, ((Finset.range (p + 1)).filter fun i => Q i ∧ Lost level E i).card =
      ((Finset.range p).filter fun i => Q i ∧ Lost level E i).card + if Q p ∧ Lost level E p then 1 else 0 := by
    intro p
    rw [Finset.range_add_one, Finset.filter_insert]
    split
    · rw [Finset.card_insert_of_notMem (by simp)]
    · rfl
  obtain ⟨q1, q2⟩ := zero_listF (L := L) (M := level) (e := fun j => decide (j ∈ E)) (fr := Frozen frozen) h6 hh hs hc
    (fun p => 2 ^ ((Finset.range p).filter fun i => Q i ∧ Lost level E i).card) Nat.one_le_two_pow
    (fun p => Nat.pow_le_pow_right (by omega) (by rw [hcard]; omega))
    (fun w _ hp hfr he c1 c2 => by rw [hcard, if_pos ⟨hQ w hp hfr c1 c2, eAt_lost hp he⟩, pow_succ]; omega) hL hv0 (fun j hj he => hx0 j hj (by simpa using he))
  exact ⟨q1, fun v v1 v2 v3 v4 => q2 v v1 v2 v3 fun j hj he => v4 j hj (by simpa using he)⟩

/-- The codeword of a path that costs nothing. -/
theorem free_codeword {F : Rounding} {level : Nat} {E : Finset Nat} {frozen : List Nat} {x : Nat → Int} {Al : List Int → Int → Prop} {a : List Int × WithTop ℚ}
    (h : Free F level (fun j => decide (j ∈ E)) x (Frozen frozen) Al (2 ^ level) a) (h0 : a.2 = 0) :
    ∀ j, j < 2 ^ level → j ∉ E → codewordOf frozen level (freeSymbols (Frozen frozen) a.1) j = x j := by
  intro j hj hE
  obtain ⟨v, -, v2, v3⟩ := h.fits h0
  rw [← v3 j hj (by simpa using hE)]
  unfold codewordOf
  refine polar_congr (fun i hi => ?_) j
  rw [v2 i (by rw [h.len]; exact hi), path_symbols h.len h.ones i hi]

/-- If some lane has metric 0 then lane 0 has. -/
theorem first_zero {F : Rounding} {level : Nat} {s : Nat → ℚ} {e : Nat → Bool} {x : Nat → Int} {frozen : List Nat} {Al : List Int → Int → Prop} {cost : List Int → WithTop ℚ → ℚ → Int → WithTop ℚ}
    {symbols : List Int → List Int} {K : Nat} {rank rank' : Option (List Nat)} {message message' : List (FReg L)} {metric' : List Fl} (hlast : ¬ Frozen frozen (2 ^ level - 1))
    (res : FSclResult L (sclF F L level s (Frozen frozen) cost) symbols K rank message rank' message' metric')
    (q1 : ∀ a ∈ sclF F L level s (Frozen frozen) cost, Free F level e x (Frozen frozen) Al (2 ^ level) a) {k : Fin L} (hk : k.val = 0) {A : Fin L → Prop}
    (hz : ∃ k : Fin L, A k ∧ metric'.getD k .nan = .fin 0) : metric'.getD k .nan = .fin 0 := by
  obtain ⟨k1, -, z1⟩ := hz
  have hf := q1 _ (lane_mem res.paths k ([], 0))
  rw [res.metrics, metric_lane res.paths] at z1 ⊢
  have hs := scl_sorted (L := L) (M := level) (A := minSum F.rnd) (s := s) (fr := Frozen frozen) (z := (0 : WithTop ℚ)) (ph := 1000000) (pay := fun μ s => fadd F μ (penaltyQ s 1)) (cost := cost) hlast
  change (sclF F L level s (Frozen frozen) cost).Pairwise _ at hs
  have h0 : ((sclF F L level s (Frozen frozen) cost).getD k ([], 0)).2 ≤ ((sclF F L level s (Frozen frozen) cost).getD k1 ([], 0)).2 := by
    rcases Nat.eq_zero_or_pos k1.val with h0 | h0
    · rw [h0, hk]
    · have := List.pairwise_iff_getElem.1 hs k.val k1.val (by rw [res.paths]; exact k.isLt) (by rw [res.paths]; exact k1.isLt) (by omega)
      rwa [getElem_eq_getD _ ([], 0), getElem_eq_getD _ ([], 0)] at this
  rw [metFl_zero z1] at h0
  rw [le_antisymm h0 (mok_nonneg hf.met)]; rfl

/-! ### C79 -/

/-- The list decoder on `float` and `double` on the erasure channel, rounding included.  If there is room for two alternatives for every position that is not frozen and lost, then the lanes of
metric 0 hold exactly the messages whose codewords agree with the one sent at the positions that are left, the message sent among them.
If moreover the last position is not frozen then lane 0 holds one of them, and the message sent if nothing that is not frozen is lost. -/
theorem C79_list_float (F : Rounding) (U MAX_M : Nat) (soft hard : List (FReg L)) (maps : List (LMap L)) (metric : List Fl) (rank : Option (List Nat)) (message : List (FReg L))
    (codeword : List Fl) (frozen : List Nat) (level : Nat) (s : Nat → ℚ) (B : ℚ) (h : FListCall F U L MAX_M soft hard maps metric rank codeword frozen level s B)
    (hmsg : freeBelow frozen (2 ^ level) ≤ message.length)
    (data : List Int) (hd : data.length = freeBelow frozen (2 ^ level)) (hi : ∀ x ∈ data, x = 1 ∨ x = -1) (E : Finset Nat) (hr : ReceivedQ level E (codewordOf frozen level data) s)
    (hL : 2 ^ lostFree frozen level E ≤ L) :
    ∃ rank' message' metric', FlList.listDecode F U MAX_M soft hard maps metric rank message codeword frozen level = some (rank', message', metric') ∧
      (∀ m : List Int, m.length = freeBelow frozen (2 ^ level) → (∀ x ∈ m, x = 1 ∨ x = -1) →
        ((∃ k : Fin L, LaneHolds message' k m ∧ metric'.getD k .nan = .fin 0) ↔
          ∀ j, j < 2 ^ level → j ∉ E → codewordOf frozen level m j = codewordOf frozen level data j)) ∧
      (∃ k : Fin L, LaneHolds message' k data ∧ metric'.getD k .nan = .fin 0) ∧
      (¬ Frozen frozen (2 ^ level - 1) → ∀ k : Fin L, k.val = 0 → metric'.getD k .nan = .fin 0 ∧
        ((∀ i, i < 2 ^ level → ¬ Frozen frozen i → ¬ Lost level E i) → LaneHolds message' k data)) := by
  obtain ⟨rank', message', metric', e, res⟩ := C62_list F U MAX_M soft hard maps metric rank message codeword frozen level s B h hmsg
  have hcs : ∀ m : List Int, (∀ x ∈ m, x = 1 ∨ x = -1) → ∀ j, j < 2 ^ level → Sym (codewordOf frozen level m j) := fun m hs j hj => polar_sym (symbolAt_sym hs) hj
  obtain ⟨q1, q2⟩ := lost_sclF (L := L) h.million.1 h.million.2 (hr.rel (hcs data hi) fun j hj => (h.values j hj).2.1) (charges_add F) (fun i => ¬ Frozen frozen i) (fun _ _ hf _ _ => hf)
    (by unfold lostFree at hL; convert hL) (symbolAt_sym (frozen := frozen) hi) (fun _ _ _ => rfl)
  have lane : ∀ k : Fin L, metric'.getD k .nan = .fin 0 → ∃ m : List Int, m.length = freeBelow frozen (2 ^ level) ∧ (∀ x ∈ m, x = 1 ∨ x = -1) ∧ LaneHolds message' k m ∧
      ∀ j, j < 2 ^ level → j ∉ E → codewordOf frozen level m j = codewordOf frozen level data j := by
    intro k hk
    have hf := q1 _ (lane_mem res.paths k ([], 0))
    rw [res.metrics, metric_lane res.paths] at hk
    have hl : (freeSymbols (Frozen frozen) ((sclF F L level s (Frozen frozen) (addF F)).getD k ([], 0)).1).length = freeBelow frozen (2 ^ level) := by rw [freeSymbols_length]; congr 1; exact hf.len
    refine ⟨_, hl, freeSymbols_sym _ hf.sym, ?_, free_codeword hf (metFl_zero hk)⟩
    unfold LaneHolds
    rw [hl]; exact res.messages k
  have main : ∀ m : List Int, m.length = freeBelow frozen (2 ^ level) → (∀ x ∈ m, x = 1 ∨ x = -1) →
        ((∃ k : Fin L, LaneHolds message' k m ∧ metric'.getD k .nan = .fin 0) ↔
          ∀ j, j < 2 ^ level → j ∉ E → codewordOf frozen level m j = codewordOf frozen level data j) := by
    intro m hm hs
    constructor
    · rintro ⟨k, hk, h0⟩
      obtain ⟨m', l1, -, l2, l3⟩ := lane k h0
      unfold LaneHolds at hk l2
      rw [hm] at hk
      rw [l1, hk] at l2
      rw [flSym_map l2]; exact l3
    · intro hE
      obtain ⟨k, hk⟩ := mem_lane res.paths (q2 (symbolAt frozen m) (symbolAt_sym hs) (fun i _ hf => by unfold symbolAt; exact if_pos hf) (fun _ _ _ => trivial) hE) ([], 0)
      refine ⟨k, ?_, ?_⟩
      · unfold LaneHolds
        rw [hm, res.messages k]
        have := congrArg Prod.fst hk
        rw [this]
        dsimp only
        rw [free_pre, range_getD _ (by omega), List.take_of_length_le (by omega)]
      · rw [res.metrics, metric_lane res.paths]
        exact congrArg metFl (congrArg Prod.snd hk)
  have hdata := (main data hd hi).2 fun _ _ _ => rfl
  refine ⟨rank', message', metric', e, main, hdata, fun hlast k hk => ?_⟩
  have hz : metric'.getD k .nan = .fin 0 := first_zero hlast res q1 hk hdata
  refine ⟨hz, fun hkept => ?_⟩
  obtain ⟨m, l1, l2, l3, l4⟩ := lane k hz
  rw [← unique_of_kept l1 hd l2 hi hkept l4]; exact l3

/-- The same for the parity-aided list decoder: lost parity symbols need no room. -/
theorem C79_parity_float (F : Rounding) (U MAX_M : Nat) (soft hard : List (FReg L)) (maps : List (LMap L)) (metric : List Fl) (rank : Option (List Nat)) (message : List (FReg L))
    (codeword : List Fl) (frozen : List Nat) (level stride first : Nat) (s : Nat → ℚ) (B : ℚ) (h : FListCall F U L MAX_M soft hard maps metric rank codeword frozen level s B)
    (hfirst : 1 ≤ first) (hmsg : dataBelow first stride (freeBelow frozen (2 ^ level)) ≤ message.length)
    (data : List Int) (hd : data.length = dataBelow first stride (freeBelow frozen (2 ^ level))) (hi : ∀ x ∈ data, x = 1 ∨ x = -1) (E : Finset Nat)
    (hr : ReceivedQ level E (codewordOf frozen level (withParity first stride data (freeBelow frozen (2 ^ level)))) s) (hL : 2 ^ lostData first stride frozen level E ≤ L) :
    ∃ rank' message' metric', FlList.parDecode F U MAX_M soft hard maps metric rank message codeword frozen level stride first = some (rank', message', metric') ∧
      (∀ m : List Int, m.length = dataBelow first stride (freeBelow frozen (2 ^ level)) → (∀ x ∈ m, x = 1 ∨ x = -1) →
        ((∃ k : Fin L, LaneHolds message' k m ∧ metric'.getD k .nan = .fin 0) ↔
          ∀ j, j < 2 ^ level → j ∉ E → codewordOf frozen level (withParity first stride m (freeBelow frozen (2 ^ level))) j =
            codewordOf frozen level (withParity first stride data (freeBelow frozen (2 ^ level))) j)) ∧
      (∃ k : Fin L, LaneHolds message' k data ∧ metric'.getD k .nan = .fin 0) ∧
      (¬ Frozen frozen (2 ^ level - 1) → ∀ k : Fin L, k.val = 0 → metric'.getD k .nan = .fin 0 ∧
        (lostData first stride frozen level E = 0 → LaneHolds message' k data)) := by
  obtain ⟨rank', message', metric', e, res⟩ := C62_parity F U MAX_M soft hard maps metric rank message codeword frozen level stride first s B h hfirst hmsg
  have hds := withParity_sym first stride hi (freeBelow frozen (2 ^ level))
  obtain ⟨q1, q2⟩ := lost_sclF (L := L) h.million.1 h.million.2 (hr.rel (fun j hj => polar_sym (symbolAt_sym hds) hj) fun j hj => (h.values j hj).2.1)
    (charges_parity F first stride (Frozen frozen)) (fun i => ¬ Frozen frozen i ∧ ¬ isParity first stride (freeBelow frozen i)) (fun w _ hf a1 a2 => by
      rw [freeSymbols_length] at a1 a2
      refine ⟨hf, fun hp => ?_⟩
      have hc := (isParity_iff first stride _).1 hp
      rcases a1 with a1 | a1
      · exact a1 hc
      · rcases a2 with a2 | a2
        · exact a2 hc
        · rw [← a1] at a2; omega)
    (by unfold lostData at hL; convert hL) (symbolAt_sym (frozen := frozen) hds) (fun _ _ _ => rfl)
  have lane : ∀ k : Fin L, metric'.getD k .nan = .fin 0 → ∃ m : List Int, m.length = dataBelow first stride (freeBelow frozen (2 ^ level)) ∧ (∀ x ∈ m, x = 1 ∨ x = -1) ∧ LaneHolds message' k m ∧
      ∀ j, j < 2 ^ level → j ∉ E → codewordOf frozen level (withParity first stride m (freeBelow frozen (2 ^ level))) j =
        codewordOf frozen level (withParity first stride data (freeBelow frozen (2 ^ level))) j := by
    intro k hk
    have hf := q1 _ (lane_mem res.paths k ([], 0))
    rw [res.metrics, metric_lane res.paths] at hk
    set a := (sclF F L level s (Frozen frozen) (parityF F first stride (Frozen frozen))).getD k ([], 0) with ha
    have hl : (freeSymbols (Frozen frozen) a.1).length = freeBelow frozen (2 ^ level) := by rw [freeSymbols_length, hf.len]
    have hl2 : (dataSymbols first stride (freeSymbols (Frozen frozen) a.1)).length = dataBelow first stride (freeBelow frozen (2 ^ level)) := by rw [dataSymbols_length, hl]
    refine ⟨_, hl2, ?_, ?_, ?_⟩
    · intro x hx
      unfold dataSymbols at hx
      obtain ⟨i, -, rfl⟩ := List.mem_map.1 hx
      exact getD_Sym (freeSymbols_sym _ hf.sym) i
    · unfold LaneHolds
      rw [hl2]; exact res.messages k
    · have := path_parity (fr := Frozen frozen) (first := first) (stride := stride) (w := a.1) (by rw [hf.len]; exact hf.allowed (metFl_zero hk))
      rw [hl] at this
      unfold withParity at *
      rw [← this]
      exact free_codeword hf (metFl_zero hk)
  have main : ∀ m : List Int, m.length = dataBelow first stride (freeBelow frozen (2 ^ level)) → (∀ x ∈ m, x = 1 ∨ x = -1) →
        ((∃ k : Fin L, LaneHolds message' k m ∧ metric'.getD k .nan = .fin 0) ↔
          ∀ j, j < 2 ^ level → j ∉ E → codewordOf frozen level (withParity first stride m (freeBelow frozen (2 ^ level))) j =
            codewordOf frozen level (withParity first stride data (freeBelow frozen (2 ^ level))) j) := by
    intro m hm hs
    constructor
    · rintro ⟨k, hk, h0⟩
      obtain ⟨m', l1, -, l2, l3⟩ := lane k h0
      unfold LaneHolds at hk l2
      rw [hm] at hk
      rw [l1, hk] at l2
      rw [flSym_map l2]; exact l3
    · intro hE
      set W := withParity first stride m (freeBelow frozen (2 ^ level)) with hW
      have hWs : ∀ x ∈ W, x = 1 ∨ x = -1 := withParity_sym _ _ hs _
      have hfree : ∀ n, n ≤ 2 ^ level → freeSymbols (Frozen frozen) (pre (symbolAt frozen W) n) = (List.range (freeBelow frozen n)).map (coded first stride m) := by
        intro n hn
        rw [free_pre]
        refine List.map_congr_left fun i hi => ?_
        have := freeBelow_mono frozen hn
        exact withParity_getD _ _ _ (by have := List.mem_range.1 hi; omega)
      obtain ⟨k, hk⟩ := mem_lane res.paths (q2 (symbolAt frozen W) (symbolAt_sym hWs) (fun i _ hf => by unfold symbolAt; exact if_pos hf) (fun n hn hf => by
        rw [hfree n hn.le, since_coded, List.length_map, List.length_range]
        by_cases hc : cAt first stride (freeBelow frozen n) = 0
        · refine Or.inr ?_
          have hlt : freeBelow frozen n < freeBelow frozen (2 ^ level) := by
            have := freeBelow_mono frozen (show n + 1 ≤ 2 ^ level from hn)
            rw [freeBelow_succ, if_neg hf] at this
            omega
          have : symbolAt frozen W n = coded first stride m (freeBelow frozen n) := by
            unfold symbolAt
            rw [if_neg hf]; exact withParity_getD _ _ _ hlt
          rw [this, coded_eq, if_neg (by simp [hc])]
        · exact Or.inl hc) hE) ([], 0)
      refine ⟨k, ?_, ?_⟩
      · unfold LaneHolds
        rw [hm, res.messages k]
        have := congrArg Prod.fst hk
        rw [this]
        dsimp only
        rw [hfree _ le_rfl, data_coded, range_getD _ (by omega), List.take_of_length_le (by omega)]
      · rw [res.metrics, metric_lane res.paths]
        exact congrArg metFl (congrArg Prod.snd hk)
  have hdata := (main data hd hi).2 fun _ _ _ => rfl
  refine ⟨rank', message', metric', e, main, hdata, fun hlast k hk => ?_⟩
  have hz : metric'.getD k .nan = .fin 0 := first_zero hlast res q1 hk hdata
  refine ⟨hz, fun hkept => ?_⟩
  obtain ⟨m, l1, l2, l3, l4⟩ := lane k hz
  rw [← unique_of_kept_parity (level := level) (frozen := frozen) (first := first) (stride := stride) l1 hd l2 hi hkept l4]; exact l3

section
variable {K : Type} [Field K] [LinearOrder K] [IsStrictOrderedRing K]

/-- With `2 ^ r` lanes the probability that the list does not hold the message sent with metric 0 is at most the sum of the freezer's numbers over the positions
that are not frozen, divided by `r + 1`. -/
theorem C79_list_float_failure (F : Rounding) (U r MAX_M : Nat) (soft hard : List (FReg (2 ^ r))) (maps : List (LMap (2 ^ r))) (metric : List Fl) (rank : Option (List Nat)) (message : List (FReg (2 ^ r)))
    (frozen : List Nat) (level : Nat) (received : Finset Nat → List Fl) (s : Finset Nat → Nat → ℚ) (B : ℚ)
    (h : ∀ E, FListCall F U (2 ^ r) MAX_M soft hard maps metric rank (received E) frozen level (s E) B) (hmsg : freeBelow frozen (2 ^ level) ≤ message.length)
    (data : List Int) (hd : data.length = freeBelow frozen (2 ^ level)) (hi : ∀ x ∈ data, x = 1 ∨ x = -1) (hr : ∀ E, ReceivedQ level E (codewordOf frozen level data) (s E))
    (p : K) (h0 : 0 ≤ p) (h1 : p ≤ 1) :
    prob p (2 ^ level) (fun E => ¬ ∃ rank' message' metric' k, FlList.listDecode F U MAX_M soft hard maps metric rank message (received E) frozen level = some (rank', message', metric') ∧
        LaneHolds message' k data ∧ metric'.getD k.val .nan = .fin 0) ≤
      (∑ i ∈ Finset.range (2 ^ level) with ¬ Frozen frozen i, erasure (exact K) level p i) / (r + 1) := by
  have hpos : (0 : K) < r + 1 := by positivity
  rw [le_div_iff₀ hpos, mul_comm]
  have e : ∑ i ∈ Finset.range (2 ^ level) with ¬ Frozen frozen i, erasure (exact K) level p i =
      ∑ i ∈ Finset.range (2 ^ level) with ¬ Frozen frozen i, prob p (2 ^ level) (fun E => Lost level E i) :=
    Finset.sum_congr rfl fun i hi => (C79_probability level p i (Finset.mem_range.1 (Finset.mem_filter.1 hi).1)).symm
  rw [e]
  have hm := markov (fun i => ¬ Frozen frozen i) level (r + 1) h0 h1
  push_cast at hm
  refine le_trans (mul_le_mul_of_nonneg_left (prob_mono h0 h1 fun E _ hA => ?_) hpos.le) (hm.trans (le_of_eq (by congr)))
  by_contra hlt
  have hlt : ¬ r + 1 ≤ lostFree frozen level E := by unfold lostFree; convert hlt
  refine hA ?_
  obtain ⟨rank', message', metric', e, -, ⟨k, k1, k2⟩, -⟩ := C79_list_float F U MAX_M soft hard maps metric rank message (received E) frozen level (s E) B (h E) hmsg data hd hi E (hr E)
    (Nat.pow_le_pow_right (by omega) (by omega))
  exact ⟨rank', message', metric', k, e, k1, k2⟩

open Classical in
/-- The same for the parity-aided list decoder: only the positions that carry message symbols count. -/
theorem C79_parity_float_failure (F : Rounding) (U r MAX_M : Nat) (soft hard : List (FReg (2 ^ r))) (maps : List (LMap (2 ^ r))) (metric : List Fl) (rank : Option (List Nat)) (message : List (FReg (2 ^ r)))
    (frozen : List Nat) (level stride first : Nat) (received : Finset Nat → List Fl) (s : Finset Nat → Nat → ℚ) (B : ℚ)
    (h : ∀ E, FListCall F U (2 ^ r) MAX_M soft hard maps metric rank (received E) frozen level (s E) B)
    (hfirst : 1 ≤ first) (hmsg : dataBelow first stride (freeBelow frozen (2 ^ level)) ≤ message.length)
    (data : List Int) (hd : data.length = dataBelow first stride (freeBelow frozen (2 ^ level))) (hi : ∀ x ∈ data, x = 1 ∨ x = -1)
    (hr : ∀ E, ReceivedQ level E (codewordOf frozen level (withParity first stride data (freeBelow frozen (2 ^ level)))) (s E))
    (p : K) (h0 : 0 ≤ p) (h1 : p ≤ 1) :
    prob p (2 ^ level) (fun E => ¬ ∃ rank' message' metric' k,
        FlList.parDecode F U MAX_M soft hard maps metric rank message (received E) frozen level stride first = some (rank', message', metric') ∧
        LaneHolds message' k data ∧ metric'.getD k.val .nan = .fin 0) ≤
      (∑ i ∈ Finset.range (2 ^ level) with ¬ Frozen frozen i ∧ ¬ isParity first stride (freeBelow frozen i), erasure (exact K) level p i) / (r + 1) := by
  have hpos : (0 : K) < r + 1 := by positivity
  rw [le_div_iff₀ hpos, mul_comm]
  have e : ∑ i ∈ Finset.range (2 ^ level) with ¬ Frozen frozen i ∧ ¬ isParity first stride (freeBelow frozen i), erasure (exact K) level p i =
      ∑ i ∈ Finset.range (2 ^ level) with ¬ Frozen frozen i ∧ ¬ isParity first stride (freeBelow frozen i), prob p (2 ^ level) (fun E => Lost level E i) :=
    Finset.sum_congr rfl fun i hi => (C79_probability level p i (Finset.mem_range.1 (Finset.mem_filter.1 hi).1)).symm
  rw [e]
  have hm := markov (fun i => ¬ Frozen frozen i ∧ ¬ isParity first stride (freeBelow frozen i)) level (r + 1) h0 h1
  push_cast at hm
  refine le_trans (mul_le_mul_of_nonneg_left (prob_mono h0 h1 fun E _ hA => ?_) hpos.le) (hm.trans (le_of_eq (by congr)))
  by_contra hlt
  have hlt : ¬ r + 1 ≤ lostData first stride frozen level E := by unfold lostData; convert hlt
  refine hA ?_
  obtain ⟨rank', message', metric', e, -, ⟨k, k1, k2⟩, -⟩ := C79_parity_float F U MAX_M soft hard maps metric rank message (received E) frozen level stride first (s E) B (h E) hfirst hmsg data hd hi E (hr E)
    (Nat.pow_le_pow_right (by omega) (by omega))
  exact ⟨rank', message', metric', k, e, k1, k2⟩

/-- The SC decoder on `float` and `double` (C79_failure for 8-bit soft values). -/
theorem C79_failure_float (F : Rounding) (MAX_M : Nat) (soft hard out : List Fl) (message : List Int) (frozen : List Nat) (level : Nat)
    (received : Finset Nat → List Fl) (hcall : ∀ E, Call MAX_M soft hard (received E) frozen level)
    (hm : freeBelow frozen (2 ^ level) ≤ message.length) (hi : ∀ x ∈ message, x = 1 ∨ x = -1)
    (hr : ∀ E j, j < 2 ^ level → if j ∈ E then (received E).getD j .nan = .fin 0 else HasSign F ((received E).getD j .nan) (codewordOf frozen level message j))
    (ho : freeBelow frozen (2 ^ level) ≤ out.length) (p : K) (h0 : 0 ≤ p) (h1 : p ≤ 1) :
    prob p (2 ^ level) (fun E => scDecode (phF F) MAX_M soft hard out (received E) frozen level ≠
        some ((message.take (freeBelow frozen (2 ^ level))).map flSym ++ out.drop (freeBelow frozen (2 ^ level)))) ≤
      ∑ i ∈ Finset.range (2 ^ level) with ¬ Frozen frozen i, erasure (exact K) level p i ∧
    ∀ i, i < 2 ^ level → ¬ Frozen frozen i → erasure (exact K) level p i ≤
      prob p (2 ^ level) (fun E => scDecode (phF F) MAX_M soft hard out (received E) frozen level ≠
        some ((message.take (freeBelow frozen (2 ^ level))).map flSym ++ out.drop (freeBelow frozen (2 ^ level)))) := by
  have key : ∀ E, scDecode (phF F) MAX_M soft hard out (received E) frozen level ≠
        some ((message.take (freeBelow frozen (2 ^ level))).map flSym ++ out.drop (freeBelow frozen (2 ^ level))) ↔
      ∃ i ∈ (Finset.range (2 ^ level)).filter (fun i => ¬ Frozen frozen i), Lost level E i := by
    intro E
    obtain ⟨l, d1, d2, d3, d4⟩ := C79_decode_float F MAX_M soft hard (received E) out message frozen level (hcall E) hm hi E (hr E) ho
    rw [d1]
    constructor
    · intro hne
      by_contra hno
      refine hne ?_
      rw [d3 fun i a b c => hno ⟨i, by simp [a, b], c⟩]
    · rintro ⟨i, hi', hlost⟩ heq
      simp only [Finset.mem_filter, Finset.mem_range] at hi'
      have h0' := d4 ⟨i, hi'.1, hi'.2, hlost⟩
      have : l = (message.take (freeBelow frozen (2 ^ level))).map flSym := List.append_cancel_right (Option.some.inj heq)
      rw [this] at h0'
      obtain ⟨x, hx, ex⟩ := List.mem_map.1 h0'
      have := hi x (List.mem_of_mem_take hx)
      have ex : (x : ℚ) = 0 := Fl.fin.inj ex
      have : x = 0 := by exact_mod_cast ex
      omega
  have hp : ∀ i ∈ (Finset.range (2 ^ level)).filter (fun i => ¬ Frozen frozen i), prob p (2 ^ level) (fun E => Lost level E i) = erasure (exact K) level p i := by
    intro i hi
    simp only [Finset.mem_filter, Finset.mem_range] at hi
    exact C79_probability level p i hi.1
  constructor
  · refine (prob_mono h0 h1 fun E _ h => (key E).1 h).trans ((prob_union h0 h1 _ fun i E => Lost level E i).trans (le_of_eq ?_))
    exact Finset.sum_congr rfl hp
  · intro i a b
    rw [← C79_probability level p i a]
    exact prob_mono h0 h1 fun E _ h => (key E).2 ⟨i, by simp [a, b], h⟩

end

/-! ### Cases -/

/-- The codeword of the message -1, 1, 1, -1, -1, 1 (information set {15, 23, 27, 29, 30, 31}) with the first 16 symbols erased.  The other soft values are 2^24 and 1 in turn, so
that sums of them are rounded: in `float` 2^24 + 1 is 2^24. -/
noncomputable def erased16 : List ℚ := (List.range 32).map fun j => if j < 16 then 0 else (codewordOf [0x177f7fff] 5 [-1, 1, 1, -1, -1, 1] j : ℚ) * if j % 2 = 0 then 16777216 else 1

theorem erased16_ok : ∀ j, j < 2 ^ 5 → (erased16.map Fl.fin).getD j .nan = .fin (erased16.getD j 0) ∧
    (erased16.getD j 0 = 0 ∨ erased16.getD j 0 = 1 ∨ erased16.getD j 0 = -1 ∨ erased16.getD j 0 = 16777216 ∨ erased16.getD j 0 = -16777216) ∧
    (if j < 16 then erased16.getD j 0 = 0 else 0 < erased16.getD j 0 * codewordOf [0x177f7fff] 5 [-1, 1, 1, -1, -1, 1] j) := by decide +kernel

theorem erased16_call : FListCall binary32 (2 ^ 32) 2 5 (List.replicate 64 fun _ => .nan) (List.replicate 32 fun _ => .nan) (List.replicate 32 fun _ => 200) (List.replicate 2 .nan)
    (some (List.replicate 2 9)) (erased16.map .fin) [0x177f7fff] 5 (erased16.getD · 0) 16777216 where
  lanes := by norm_num
  million := million32
  max_le := by norm_num
  level_ge := by norm_num
  level_le := by norm_num
  soft_len := by simp
  hard_len := by simp
  maps_len := by simp
  metric_len := by simp
  rank_len := by rintro r ⟨⟩; simp
  codeword_len := by simp [erased16]
  values j hj := by
    obtain ⟨a, b, -⟩ := erased16_ok j hj
    refine ⟨a, ?_, ?_⟩
    · rcases b with b | b | b | b | b <;> rw [b]
      · exact ⟨0, 0, by norm_num, by norm_num, by norm_num⟩
      · exact ⟨1, 0, by norm_num, by norm_num, by norm_num⟩
      · exact ⟨-1, 0, by norm_num, by norm_num, by norm_num⟩
      · exact ⟨1, 24, by norm_num, by norm_num, by norm_num⟩
      · exact ⟨-1, 24, by norm_num, by norm_num, by norm_num⟩
    · rcases b with b | b | b | b | b <;> rw [b] <;> norm_num
  bound := ⟨⟨1, 24, by norm_num, by norm_num, by norm_num⟩, by show (16777216 : ℚ) * 2 ^ 5 < 2 ^ 128; norm_num⟩
  frozen_len := by norm_num
  frozen_words := by simp
  free := by decide +kernel

theorem erased16_received : ReceivedQ 5 (Finset.range 16) (codewordOf [0x177f7fff] 5 [-1, 1, 1, -1, -1, 1]) (erased16.getD · 0) := by
  intro j hj
  have := (erased16_ok j hj).2.2
  by_cases h : j < 16
  · rw [if_pos h] at this; rw [if_pos (by simpa using h)]; exact this
  · rw [if_neg h] at this; rw [if_neg (by simpa using h)]; exact this

/-- All hypotheses of `C79_list_float` hold. -/
example : ∃ rank' message' metric', FlList.listDecode binary32 (2 ^ 32) 5 (List.replicate 64 fun _ => .nan) (List.replicate 32 fun _ => .nan) (List.replicate 32 fun _ => 200) (List.replicate 2 .nan)
    (some (List.replicate 2 9)) (List.replicate 6 fun (_ : Fin 2) => Fl.fin 5) (erased16.map .fin) [0x177f7fff] 5 = some (rank', message', metric') ∧
    ∃ k : Fin 2, LaneHolds message' k [-1, 1, 1, -1, -1, 1] ∧ metric'.getD k .nan = .fin 0 := by
  obtain ⟨rank', message', metric', e, -, h, -⟩ := C79_list_float binary32 (2 ^ 32) 5 _ _ _ _ _ (List.replicate 6 fun (_ : Fin 2) => Fl.fin 5) _ [0x177f7fff] 5 _ _ erased16_call (by decide +kernel)
    [-1, 1, 1, -1, -1, 1] (by decide +kernel) (by simp) (Finset.range 16) erased16_received lost16
  exact ⟨rank', message', metric', e, h⟩

/-- Two lanes are enough (see PropsBecList.lean): both messages that fit, and the metrics are 0 in spite of the rounding. -/
example : fListRun 2 0x177f7fff 6 (erased16.map .fin) =
    some (some [0, 0], [[1, -1], [1, 1], [1, 1], [-1, -1], [-1, -1], [1, 1]].map (fun l => l.map fun x => Fl.fin x), [.fin 0, .fin 0]) := by decide +kernel

end Verif.Freezer
