import Verif.Freezer.Bec
import Verif.Polar.EraseSimd
/- C79 (polar_freezer.hh, polar_encoder.hh, polar_decoder.hh): polar codes on the erasure channel. -/
namespace Verif.Freezer
open Verif.RS (sb)
open Verif.Polar
open PolarHelper (I8)

/-! ### Specification -/

/-- The symbols of the codeword at the positions in `E` are erased.  Then the input symbol at position `i` is lost if it does not follow from
the symbols that are left and the inputs before it: two inputs that agree before `i` and differ at `i` give the same symbols outside `E`. -/
def Lost (level : Nat) (E : Finset Nat) (i : Nat) : Prop :=
  ∃ u v : Nat → Int, (∀ k, u k = 1 ∨ u k = -1) ∧ (∀ k, v k = 1 ∨ v k = -1) ∧ (∀ k, k < i → u k = v k) ∧ u i ≠ v i ∧
    ∀ j, j < 2 ^ level → j ∉ E → polar level u j = polar level v j

open Classical in
/-- The probability of an event `A` about the set of erased positions, if each of `n` positions is erased with probability `p`,
independently of the others. -/
noncomputable def prob {F : Type} [Field F] (p : F) (n : Nat) (A : Finset Nat → Prop) : F :=
  ∑ E ∈ (Finset.range n).powerset with A E, p ^ E.card * (1 - p) ^ (n - E.card)

/-- The received soft values: 0 at the erased positions, `int8_t` values of the right sign at the others. -/
def Received (level : Nat) (E : Finset Nat) (cw codeword : List Int) : Prop :=
  ∀ j, j < 2 ^ level → if j ∈ E then codeword.getD j 0 = 0 else I8 (codeword.getD j 0) ∧ 0 < codeword.getD j 0 * cw.getD j 0

/-! ### Proofs -/

theorem lost_amb {level : Nat} {E : Finset Nat} {i : Nat} : Lost level E i ↔ Amb level ((List.range (2 ^ level)).map fun j => decide (j ∈ E)) i := by
  have hget : ∀ j, j < 2 ^ level → (((List.range (2 ^ level)).map fun j => decide (j ∈ E)).getD j false = false ↔ j ∉ E) := by
    intro j hj
    rw [getD_range_map _ _ hj]; simp
  constructor
  · rintro ⟨u, v, hu, hv, hb, hi, hj⟩
    refine ⟨fun k => u k * v k, fun k => Sym.mul (hu k) (hv k), fun k hk => ?_, ?_, fun j hjl he => ?_⟩
    · dsimp only
      rw [hb k hk]; exact Sym.sq (hv k)
    · dsimp only
      rcases hu i with a | a <;> rcases hv i with b | b <;> rw [a, b] at hi ⊢ <;> first | rfl | exact absurd rfl hi
    · rw [hget j hjl] at he
      have h := hj j hjl he
      unfold polar at h
      rw [← P_prod level u j hjl, ← P_prod level v j hjl] at h
      rw [P_mul, h]
      exact (P_sym level v hv j).sq
  · rintro ⟨w, h1, h2, h3, h4⟩
    refine ⟨w, fun _ => 1, h1, fun _ => Or.inl rfl, h2, by rw [h3]; norm_num, fun j hjl he => ?_⟩
    unfold polar
    rw [← P_prod level w j hjl, h4 j hjl ((hget j hjl).2 he)]
    simp

theorem lost_lostL {level : Nat} {E : Finset Nat} {i : Nat} (hi : i < 2 ^ level) :
    Lost level E i ↔ (lostL level ((List.range (2 ^ level)).map fun j => decide (j ∈ E))).getD i false = true := by
  rw [lost_amb, lost_iff level _ i (by simp) hi]

theorem bad_lost {level : Nat} {E : Finset Nat} (frozen : List Nat) :
    badL (fbits frozen 0 (2 ^ level)) (lostL level ((List.range (2 ^ level)).map fun j => decide (j ∈ E))) = false ↔
      ∀ i, i < 2 ^ level → ¬ Frozen frozen i → ¬ Lost level E i := by
  rw [badL_iff _ _ _ (lostL_length level _ (by simp))]
  refine forall_congr' fun i => forall_congr' fun hi => forall_congr' fun _ => ?_
  rw [lost_lostL hi]; simp

/-! ### C79 -/

/-- The SC decoder on the erasure channel: a codeword of `PolarEncoder` some symbols of which are erased is decoded if no position that is
not frozen is lost; otherwise a 0 appears among the decisions, so that the caller can tell. -/
theorem C79_decode (MAX_M : Nat) (soft hard : List Int) (message cw0 cw codeword out : List Int) (frozen : List Nat) (level : Nat)
    (hcall : Call MAX_M soft hard codeword frozen level)
    (hm : freeBelow frozen (2 ^ level) ≤ message.length) (hi : ∀ x ∈ message, x = 1 ∨ x = -1)
    (hc : 2 ^ level ≤ cw0.length) (henc : encode ph8 cw0 message frozen level = some cw) (E : Finset Nat) (hr : Received level E cw codeword)
    (ho : freeBelow frozen (2 ^ level) ≤ out.length) :
    ∃ l, scDecode ph8 MAX_M soft hard out codeword frozen level = some (l ++ out.drop (freeBelow frozen (2 ^ level))) ∧
      l.length = freeBelow frozen (2 ^ level) ∧
      ((∀ i, i < 2 ^ level → ¬ Frozen frozen i → ¬ Lost level E i) → l = message.take (freeBelow frozen (2 ^ level))) ∧
      ((∃ i, i < 2 ^ level ∧ ¬ Frozen frozen i ∧ Lost level E i) → 0 ∈ l) := by
  obtain ⟨g1, g2, g3, g4, g5, g6, g7, g8⟩ := hcall
  rw [← rank_eq] at hm ho ⊢
  obtain ⟨cw', e, h1, h2⟩ := encode_ok (H := ph8) (message := message) (frozen := frozen) (k := level) (c := cw0) 0 (by omega) g7 hm hc
  rw [henc] at e
  cases e
  obtain ⟨l, l1, l2, l3, l4⟩ := scDecode_erase elaws8 (soft := soft) (hard := hard) g2 (by omega) g3 g4 g5 g6 g7 g8 hm hi ho (fun j => decide (j ∈ E)) fun j hj => by
    have hs : Sym (P ph8.qmul level (complete ph8.one (fbit frozen) message) j) := by
      rw [complete_eq, P8_sym _ _ (symbolAt_sym hi)]
      exact P_sym _ _ (symbolAt_sym hi) _
    have hr := hr j hj
    have hg : codeword.getD j ph8.one = codeword.getD j 0 := by rw [← getElem_eq_getD (by omega), getElem_eq_getD _ 0]
    unfold RelE
    rw [hg]
    by_cases hE : j ∈ E
    · rw [if_pos hE] at hr; rw [if_pos (by simpa using hE)]; exact hr
    · rw [if_neg hE] at hr
      rw [if_neg (by simpa using hE)]
      obtain ⟨s1, s2⟩ := hr
      rw [h2, if_pos hj] at s2
      refine ⟨s1, ?_⟩
      rcases hs with h | h
      · rw [h, mul_one] at s2; exact Or.inl ⟨h, s2⟩
      · rw [h] at s2; exact Or.inr ⟨h, by omega⟩
  refine ⟨l, l2, l1, fun h => l3 ((bad_lost frozen).2 h), fun ⟨i, a, b, c⟩ => ?_⟩
  obtain ⟨z, hz, rfl⟩ := l4 (by
    by_contra hb
    exact (bad_lost frozen).1 (by simpa using hb) i a b c)
  exact hz

/-- The same for `PolarDecoder<float>` and `PolarDecoder<double>`. -/
theorem C79_decode_float (F : Rounding) (MAX_M : Nat) (soft hard codeword out : List Fl) (message : List Int) (frozen : List Nat) (level : Nat)
    (hcall : Call MAX_M soft hard codeword frozen level)
    (hm : freeBelow frozen (2 ^ level) ≤ message.length) (hi : ∀ x ∈ message, x = 1 ∨ x = -1) (E : Finset Nat)
    (hr : ∀ j, j < 2 ^ level → if j ∈ E then codeword.getD j .nan = .fin 0 else HasSign F (codeword.getD j .nan) (polar level (symbolAt frozen message) j))
    (ho : freeBelow frozen (2 ^ level) ≤ out.length) :
    ∃ l, scDecode (phF F) MAX_M soft hard out codeword frozen level = some (l ++ out.drop (freeBelow frozen (2 ^ level))) ∧
      l.length = freeBelow frozen (2 ^ level) ∧
      ((∀ i, i < 2 ^ level → ¬ Frozen frozen i → ¬ Lost level E i) → l = (message.take (freeBelow frozen (2 ^ level))).map flSym) ∧
      ((∃ i, i < 2 ^ level ∧ ¬ Frozen frozen i ∧ Lost level E i) → .fin 0 ∈ l) := by
  obtain ⟨g1, g2, g3, g4, g5, g6, g7, g8⟩ := hcall
  rw [← rank_eq] at hm ho ⊢
  rw [List.map_take]
  obtain ⟨l, l1, l2, l3, l4⟩ := scDecode_erase (elawsF F) (soft := soft) (hard := hard) (message := message.map flSym) g2 (by omega) g3 g4 g5 g6 g7 g8 (by simpa using hm)
      (by
        intro x hx
        obtain ⟨y, hy, rfl⟩ := List.mem_map.1 hx
        exact ⟨y, hi y hy, rfl⟩) ho (fun j => decide (j ∈ E)) fun j hj => by
    have := complete_F F frozen message
    change complete (phF F).one (fbit frozen) (message.map flSym) = _ at this
    rw [this, P_F F _ (symbolAt_sym hi), P_prod level _ j hj]
    have hg : codeword.getD j (phF F).one = codeword.getD j .nan := by rw [← getElem_eq_getD (by omega), ← getElem_eq_getD (by omega)]
    have hr := hr j hj
    unfold RelE
    rw [hg]
    by_cases hE : j ∈ E
    · rw [if_pos hE] at hr; rw [if_pos (by simpa using hE)]; exact hr
    · rw [if_neg hE] at hr
      rw [if_neg (by simpa using hE)]
      exact ⟨_, rfl, hr.spec (polar_sym (symbolAt_sym hi) hj)⟩
  refine ⟨l, l2, l1, fun h => l3 ((bad_lost frozen).2 h), fun ⟨i, a, b, c⟩ => ?_⟩
  obtain ⟨z, hz, rfl⟩ := l4 (by
    by_contra hb
    exact (bad_lost frozen).1 (by simpa using hb) i a b c)
  exact hz

/-- The same for `PolarDecoder<SIMD<int8_t, W>>`, lane by lane: each lane has its own message and its own erased positions, and a lane that fails does
not disturb the others. -/
theorem C79_decode_simd (W MAX_M : Nat) (soft hard codeword out : List (Fin W → Int)) (frozen : List Nat) (level : Nat)
    (hcall : Call MAX_M soft hard codeword frozen level) (ho : freeBelow frozen (2 ^ level) ≤ out.length) :
    ∃ l, scDecode (phV W) MAX_M soft hard out codeword frozen level = some (l ++ out.drop (freeBelow frozen (2 ^ level))) ∧
      l.length = freeBelow frozen (2 ^ level) ∧
      ∀ (k : Fin W) (message : List Int) (E : Finset Nat), freeBelow frozen (2 ^ level) ≤ message.length → (∀ x ∈ message, x = 1 ∨ x = -1) →
        Received level E ((List.range (2 ^ level)).map (polar level (symbolAt frozen message))) (codeword.map fun x => x k) →
        ((∀ i, i < 2 ^ level → ¬ Frozen frozen i → ¬ Lost level E i) → (l.map fun x => x k) = message.take (freeBelow frozen (2 ^ level))) ∧
        ((∃ i, i < 2 ^ level ∧ ¬ Frozen frozen i ∧ Lost level E i) → 0 ∈ l.map fun x => x k) := by
  obtain ⟨l, hl, e⟩ := C37_in_bounds (H := phV W) MAX_M soft hard codeword out frozen level hcall ho
  obtain ⟨g1, g2, g3, g4, g5, g6, g7, g8⟩ := hcall
  refine ⟨l, e, hl, fun k message E hm hi hr => ?_⟩
  rw [← rank_eq] at hm ho hl e ⊢
  have hhom := scDecode_hom (lane_hom k) (soft := soft) (hard := hard) (message := out) (codeword := codeword) (soft' := List.replicate (2 * 2 ^ MAX_M) 0)
    (hard' := List.replicate (2 ^ MAX_M) 0) g2 (by omega) g3 g4 g5 (by simp) (by simp) g6 g7 g8 ho
  rw [e, Option.map_some, List.map_append, List.map_drop] at hhom
  obtain ⟨l', l1, l2, l3, l4⟩ := scDecode_erase elawsL (soft := List.replicate (2 * 2 ^ MAX_M) 0) (hard := List.replicate (2 ^ MAX_M) 0) (message := message)
      (codeword := codeword.map fun x => x k) (out := out.map fun x => x k) (frozen := frozen) (level := level) (MAX_M := MAX_M)
      g2 (by omega) g3 (by simp) (by simp) (by simpa using g6) g7 g8 hm hi (by simpa using ho) (fun j => decide (j ∈ E)) fun j hj => by
    have hP : P phL.qmul level (complete phL.one (fbit frozen) message) j = polar level (symbolAt frozen message) j := by
      rw [show phL.one = ph8.one from rfl, complete_eq]
      have : ∀ s j, P phL.qmul s (symbolAt frozen message) j = P (· * ·) s (symbolAt frozen message) j := by
        intro s
        induction s with
        | zero => intro j; rfl
        | succ s ih =>
          intro j
          show ite _ _ _ = ite _ _ _
          split
          · rw [ih, ih]
            exact qmulV_sym (P_sym _ _ (symbolAt_sym hi) _) (P_sym _ _ (symbolAt_sym hi) _)
          · exact ih j
      rw [this, P_prod level _ j hj]
      rfl
    have hs := polar_sym (symbolAt_sym (frozen := frozen) hi) hj
    have hr := hr j hj
    rw [getD_range_map _ _ hj] at hr
    have hg : (codeword.map fun x => x k).getD j phL.one = (codeword.map fun x => x k).getD j 0 := by
      rw [← getElem_eq_getD (by simp; omega), getElem_eq_getD _ 0]
    unfold RelE
    rw [hg, hP]
    by_cases hE : j ∈ E
    · rw [if_pos hE] at hr; rw [if_pos (by simpa using hE)]; exact hr
    · rw [if_neg hE] at hr
      rw [if_neg (by simpa using hE)]
      obtain ⟨s1, s2⟩ := hr
      refine ⟨s1, ?_⟩
      rcases hs with h | h
      · rw [h, mul_one] at s2; exact Or.inl ⟨h, s2⟩
      · rw [h] at s2; exact Or.inr ⟨h, by omega⟩
  have hll : (l.map fun x => x k) = l' := by
    rw [hhom] at l2
    exact (List.append_inj_left (Option.some.inj l2) (by simp [hl, l1]))
  rw [hll]
  refine ⟨fun h => l3 ((bad_lost frozen).2 h), fun ⟨i, a, b, c⟩ => ?_⟩
  obtain ⟨z, hz, rfl⟩ := l4 (by
    by_contra hb
    exact (bad_lost frozen).1 (by simpa using hb) i a b c)
  exact hz

section
variable {F : Type} [Field F] [LinearOrder F] [IsStrictOrderedRing F]

/-- The recursion of polar_freezer.hh is right: with exact arithmetic the number it computes for position `i` is the probability that `i` is
lost. -/
theorem C79_probability (level : Nat) (p : F) (i : Nat) (hi : i < 2 ^ level) :
    prob p (2 ^ level) (fun E => Lost level E i) = erasure (exact F) level p i := by
  rw [← Ex_lost level p i hi, Ex_sum]
  unfold prob
  rw [Finset.sum_filter]
  refine Finset.sum_congr rfl fun E _ => ?_
  by_cases h : Lost level E i
  · rw [if_pos h, if_pos ((lost_lostL hi).1 h), mul_one]
  · rw [if_neg h, if_neg fun h' => h ((lost_lostL hi).2 h'), mul_zero]

omit [LinearOrder F] [IsStrictOrderedRing F] in
/-- The probabilities of the erased sets sum to 1. -/
theorem C79_total (n : Nat) (p : F) : prob p n (fun _ => True) = 1 := by
  unfold prob
  rw [Finset.filter_true]
  have := Finset.sum_pow_mul_eq_add_pow p (1 - p) (Finset.range n)
  simpa using this

theorem weight_nonneg {p : F} (h0 : 0 ≤ p) (h1 : p ≤ 1) (n : Nat) (E : Finset Nat) : 0 ≤ p ^ E.card * (1 - p) ^ (n - E.card) :=
  mul_nonneg (pow_nonneg h0 _) (pow_nonneg (by linarith) _)

theorem prob_mono {p : F} (h0 : 0 ≤ p) (h1 : p ≤ 1) {n : Nat} {A B : Finset Nat → Prop} (h : ∀ E, E ⊆ Finset.range n → A E → B E) : prob p n A ≤ prob p n B := by
  classical
  unfold prob
  refine Finset.sum_le_sum_of_subset_of_nonneg (fun E hE => ?_) fun E _ _ => weight_nonneg h0 h1 n E
  simp only [Finset.mem_filter, Finset.mem_powerset] at hE ⊢
  exact ⟨hE.1, h E hE.1 hE.2⟩

theorem prob_union {p : F} (h0 : 0 ≤ p) (h1 : p ≤ 1) {n : Nat} (S : Finset Nat) (A : Nat → Finset Nat → Prop) :
    prob p n (fun E => ∃ i ∈ S, A i E) ≤ ∑ i ∈ S, prob p n (A i) := by
  classical
  unfold prob
  simp only [Finset.sum_filter]
  rw [Finset.sum_comm]
  refine Finset.sum_le_sum fun E _ => ?_
  by_cases h : ∃ i ∈ S, A i E
  · rw [if_pos h]
    obtain ⟨i, hi, ha⟩ := h
    refine le_trans (le_of_eq ?_) (Finset.single_le_sum (fun j _ => ?_) hi)
    · rw [if_pos ha]
    · split
      · exact weight_nonneg h0 h1 n E
      · exact le_rfl
  · rw [if_neg h]
    refine Finset.sum_nonneg fun j _ => ?_
    split
    · exact weight_nonneg h0 h1 n E
    · exact le_rfl

/-- The probability that the SC decoder does not return the message: at most the sum of the freezer's numbers over the positions that are
not frozen, and at least each of them.  `received E` are the soft values when the positions in `E` are erased. -/
theorem C79_failure (MAX_M : Nat) (soft hard : List Int) (message cw0 cw out : List Int) (frozen : List Nat) (level : Nat)
    (received : Finset Nat → List Int) (hcall : ∀ E, Call MAX_M soft hard (received E) frozen level)
    (hm : freeBelow frozen (2 ^ level) ≤ message.length) (hi : ∀ x ∈ message, x = 1 ∨ x = -1)
    (hc : 2 ^ level ≤ cw0.length) (henc : encode ph8 cw0 message frozen level = some cw) (hr : ∀ E, Received level E cw (received E))
    (ho : freeBelow frozen (2 ^ level) ≤ out.length) (p : F) (h0 : 0 ≤ p) (h1 : p ≤ 1) :
    prob p (2 ^ level) (fun E => scDecode ph8 MAX_M soft hard out (received E) frozen level ≠
        some (message.take (freeBelow frozen (2 ^ level)) ++ out.drop (freeBelow frozen (2 ^ level)))) ≤
      ∑ i ∈ Finset.range (2 ^ level) with ¬ Frozen frozen i, erasure (exact F) level p i ∧
    ∀ i, i < 2 ^ level → ¬ Frozen frozen i → erasure (exact F) level p i ≤
      prob p (2 ^ level) (fun E => scDecode ph8 MAX_M soft hard out (received E) frozen level ≠
        some (message.take (freeBelow frozen (2 ^ level)) ++ out.drop (freeBelow frozen (2 ^ level)))) := by
  have key : ∀ E, scDecode ph8 MAX_M soft hard out (received E) frozen level ≠
        some (message.take (freeBelow frozen (2 ^ level)) ++ out.drop (freeBelow frozen (2 ^ level))) ↔
      ∃ i ∈ (Finset.range (2 ^ level)).filter (fun i => ¬ Frozen frozen i), Lost level E i := by
    intro E
    obtain ⟨l, d1, d2, d3, d4⟩ := C79_decode MAX_M soft hard message cw0 cw (received E) out frozen level (hcall E) hm hi hc henc E (hr E) ho
    rw [d1]
    constructor
    · intro hne
      by_contra hno
      refine hne ?_
      rw [d3 fun i a b c => hno ⟨i, by simp [a, b], c⟩]
    · rintro ⟨i, hi', hlost⟩ heq
      simp only [Finset.mem_filter, Finset.mem_range] at hi'
      have h0' := d4 ⟨i, hi'.1, hi'.2, hlost⟩
      have : l = message.take (freeBelow frozen (2 ^ level)) := List.append_cancel_right (Option.some.inj heq)
      rw [this] at h0'
      have := hi 0 (List.mem_of_mem_take h0')
      omega
  have hp : ∀ i ∈ (Finset.range (2 ^ level)).filter (fun i => ¬ Frozen frozen i), prob p (2 ^ level) (fun E => Lost level E i) = erasure (exact F) level p i := by
    intro i hi
    simp only [Finset.mem_filter, Finset.mem_range] at hi
    exact C79_probability level p i hi.1
  constructor
  · refine (prob_mono h0 h1 fun E _ h => (key E).1 h).trans ((prob_union h0 h1 _ fun i E => Lost level E i).trans (le_of_eq ?_))
    exact Finset.sum_congr rfl hp
  · intro i a b
    rw [← C79_probability level p i a]
    exact prob_mono h0 h1 fun E _ h => (key E).2 ⟨i, by simp [a, b], h⟩

/-- A code made by `PolarFreezer` with threshold `th` (exact arithmetic): the SC decoder fails with probability at most `K * th`, where `K` is
the number that `PolarFreezer` returns. -/
theorem C79_freezer (MAX_M : Nat) (soft hard : List Int) (message cw0 out : List Int) (frozen_bits : List Nat) (level : Nat) (p th : F)
    (hw : ∀ w ∈ frozen_bits, w < 2 ^ 32) (hl : 2 ^ level ≤ 32 * frozen_bits.length) (h0 : 0 ≤ p) (h1 : p ≤ 1)
    (hM : MAX_M ≤ 20) (hl5 : 5 ≤ level) (hlM : level ≤ MAX_M) (hs : soft.length = 2 * 2 ^ MAX_M) (hh : hard.length = 2 ^ MAX_M)
    (hm : 2 ^ level ≤ message.length) (hi : ∀ x ∈ message, x = 1 ∨ x = -1)
    (hc : 2 ^ level ≤ cw0.length) (ho : 2 ^ level ≤ out.length) :
    ∃ (bits : List Nat) (K : Nat) (cw : List Int), freezer (exact F) frozen_bits level p th = some (bits, (K : Int)) ∧ encode ph8 cw0 message bits level = some cw ∧
      ∀ received : Finset Nat → List Int, (∀ E, 2 ^ level ≤ (received E).length) → (∀ E, Received level E cw (received E)) →
        prob p (2 ^ level) (fun E => scDecode ph8 MAX_M soft hard out (received E) bits level ≠ some (message.take K ++ out.drop K)) ≤ K * th := by
  obtain ⟨bits, K, e, b1, b2, b3, -, b5⟩ := C40_freezer (exact F) frozen_bits level p th hw hl
  have hK : freeBelow bits (2 ^ level) ≤ 2 ^ level := (Finset.card_filter_le _ _).trans (by simp)
  obtain ⟨cw, ec, -, -⟩ := encode_ok (H := ph8) (message := message) (frozen := bits) (k := level) (c := cw0) 0 (by omega) (by rw [b1]; exact hl) (by rw [rank_eq]; omega) hc
  refine ⟨bits, freeBelow bits (2 ^ level), cw, by rw [e, b5], ec, fun received hlen hr => ?_⟩
  have hcall : ∀ E, Call MAX_M soft hard (received E) bits level := fun E => ⟨hM, hl5, hlM, hs, hh, hlen E, by rw [b1]; exact hl, b2⟩
  refine (C79_failure MAX_M soft hard message cw0 cw out bits level received hcall (by omega) hi hc ec hr (by omega) p h0 h1).1.trans ?_
  unfold freeBelow
  rw [← nsmul_eq_mul]
  refine Finset.sum_le_card_nsmul _ _ _ fun i hi => ?_
  simp only [Finset.mem_filter, Finset.mem_range] at hi
  have := (b3 i hi.1).not.1 hi.2
  simpa [exact] using this

/-- The code of `PolarCodeConst0` with `K` positions has the least sum of the freezer's numbers — the bound of `C79_failure` — among all
codes with `K` positions. -/
theorem C79_best (nth : (Nat → Nat → Option Bool) → Nat → List Nat → Option (List Nat)) (hnth : IsNth nth) (MAX_M : Nat) (probs : List F)
    (index frozen_bits : List Nat) (level K : Nat) (p : F) (hM : level ≤ MAX_M) (hp : probs.length = 2 ^ MAX_M) (hi : index.length = 2 ^ MAX_M)
    (hw : ∀ w ∈ frozen_bits, w < 2 ^ 32) (hl : 2 ^ level ≤ 32 * frozen_bits.length) (hK : K ≤ 2 ^ level) :
    ∃ bits, const0 (exact F) nth MAX_M probs index frozen_bits level K p = some bits ∧ freeBelow bits (2 ^ level) = K ∧
      ∀ other, freeBelow other (2 ^ level) = K →
        ∑ i ∈ Finset.range (2 ^ level) with ¬ Frozen bits i, erasure (exact F) level p i ≤
          ∑ i ∈ Finset.range (2 ^ level) with ¬ Frozen other i, erasure (exact F) level p i := by
  classical
  obtain ⟨bits, e, -, -, h2, h3, -⟩ := C40_const0 (exact F) nth hnth MAX_M probs index frozen_bits level K p hM hp hi hw hl hK (exact_weak _)
  refine ⟨bits, e, h2, fun other ho => ?_⟩
  set A := (Finset.range (2 ^ level)).filter fun i => ¬ Frozen bits i with hA
  set B := (Finset.range (2 ^ level)).filter fun i => ¬ Frozen other i with hB
  have hcard : A.card = B.card := h2.trans ho.symm
  have hd : (A \ B).card = (B \ A).card := by
    have a := Finset.card_sdiff_add_card_inter A B
    have b := Finset.card_sdiff_add_card_inter B A
    rw [Finset.inter_comm] at b
    omega
  rw [← Finset.sum_inter_add_sum_sdiff A B, ← Finset.sum_inter_add_sum_sdiff B A, Finset.inter_comm B A]
  refine add_le_add le_rfl ?_
  have hle : ∀ i ∈ A \ B, ∀ j ∈ B \ A, erasure (exact F) level p i ≤ erasure (exact F) level p j := by
    intro i hi j hj
    simp only [hA, hB, Finset.mem_sdiff, Finset.mem_filter, Finset.mem_range, not_and, not_not] at hi hj
    have := h3 i j hi.1.1 hj.1.1 hi.1.2 (hj.2 hj.1.1)
    simpa [exact] using this
  by_cases hne : (B \ A).Nonempty
  · obtain ⟨m, hm, hmin⟩ := Finset.exists_min_image (B \ A) (erasure (exact F) level p) hne
    refine (Finset.sum_le_card_nsmul _ _ (erasure (exact F) level p m) fun i hi => hle i hi m hm).trans ?_
    rw [hd]
    exact Finset.card_nsmul_le_sum _ _ _ hmin
  · rw [Finset.not_nonempty_iff_eq_empty] at hne
    rw [hne, Finset.card_empty, Finset.card_eq_zero] at hd
    rw [hne, hd]

end

/-! ### A code of length 32 -/

/-- Level 5, information set {15, 23, 27, 29, 30, 31}: the first 15 symbols are erased, and the message comes out. -/
example : (encode ph8 (List.replicate 32 0) [-1, 1, 1, -1, -1, 1] [0x177f7fff] 5 >>= fun cw =>
    scDecode ph8 5 (List.replicate 64 99) (List.replicate 32 77) (List.replicate 7 5)
      (List.zipWith (fun (i : Nat) (x : Int) => if i < 15 then 0 else x * (1 + i)) (List.range 32) cw)
      [0x177f7fff] 5) = some [-1, 1, 1, -1, -1, 1, 5] := by decide +kernel

/-- The first 16 symbols are erased: the first decision is 0. -/
example : (encode ph8 (List.replicate 32 0) [-1, 1, 1, -1, -1, 1] [0x177f7fff] 5 >>= fun cw =>
    scDecode ph8 5 (List.replicate 64 99) (List.replicate 32 77) (List.replicate 7 5)
      (List.zipWith (fun (i : Nat) (x : Int) => if i < 16 then 0 else x * (1 + i)) (List.range 32) cw)
      [0x177f7fff] 5) = some [0, 1, 1, -1, -1, 1, 5] := by decide +kernel

/-- Position 15 is lost if the first 16 symbols are erased, and not if only the first 15 are. -/
example : Lost 5 (Finset.range 16) 15 ∧ ¬ Lost 5 (Finset.range 15) 15 := by
  rw [lost_lostL (by omega), lost_lostL (by omega)]
  decide +kernel

/-- The last position of a code of length 32 is lost only if everything is erased. -/
example (p : Rat) : prob p 32 (fun E => Lost 5 E 31) = p ^ 32 := by
  have := C79_probability 5 p 31 (by omega)
  rw [show (2 : Nat) ^ 5 = 32 from rfl] at this
  rw [this]
  simp [erasure, exact, Nat.testBit]
  ring

/-- A received word for every set of erased positions. -/
example (cw : List Int) (hcw : cw.length = 32) (h : ∀ x ∈ cw, x = 1 ∨ x = -1) (E : Finset Nat) :
    Received 5 E cw ((List.range 32).map fun j => if j ∈ E then 0 else 3 * cw.getD j 0) := by
  intro j hj
  have hj : j < 32 := hj
  rw [getD_range_map _ _ hj]
  split
  · rfl
  · have := h (cw.getD j 0) (by rw [← getElem_eq_getD (by omega)]; exact List.getElem_mem _)
    rcases this with e | e <;> rw [e] <;> unfold I8 <;> omega

end Verif.Freezer
