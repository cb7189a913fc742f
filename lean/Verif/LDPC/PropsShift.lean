import Verif.LDPC.Shift
import Mathlib.Tactic.IntervalCases
/- C82 (ldpc_decoder.hh): the result of the LDPC decoder does not depend on the codeword sent, as long as nothing saturates. -/
namespace Verif.LDPC
open Finset

/-- `(message', parity')` are the soft values `(message, parity)` with the signs changed by a codeword. -/
structure Changed (T : Table) (sent : Var → Int) (message parity message' parity' : List Int) : Prop where
  message : ∀ i, message'.getD i 0 = sent (.data i) * message.getD i 0
  parity : ∀ i, parity'.getD i 0 = sent (.par i) * parity.getD i 0

theorem Changed.flip {T : Table} {sent : Var → Int} {message parity message' parity' : List Int} (h : Changed T sent message parity message' parity') :
    Flip sent (start message parity) (start message' parity') := by
  refine ⟨fun v => ?_, fun c v => ?_⟩
  · cases v with
    | data i => exact h.message i
    | par i => exact h.parity i
  · change (0 : Int) = sent v * 0
    rw [mul_zero]

/-- The two results. -/
theorem changed_result {T : Table} {β : Int} {D : Nat} {act : Nat → Nat → Nat → Prop} {N : Nat} {sent : Var → Int} {message parity message' parity' : List Int} {trials : Int}
    (hβ : 0 ≤ β) (hs : SentWord T sent) (hL : ∀ cs ∈ layersOf T D, ∀ c ∈ cs, c < T.R) (hc : Changed T sent message parity message' parity')
    (hR : ∀ k : Nat, (k : Int) < trials → (∀ j ≤ k, ¬ Word T (turns T β D act N (start message parity) j)) →
      Roomy T β D (act (N + k)) (turns T β D act N (start message parity) k))
    {n n' : Nat} {m p m' p' : List Int} {ret ret' : Int} (h : DecodedTurns T β D act N message parity trials n m p ret)
    (h' : DecodedTurns T β D act N message' parity' trials n' m' p' ret') : n' = n ∧ ret' = ret ∧
      (∀ i < T.K, m'.getD i 0 = sent (.data i) * m.getD i 0) ∧ ∀ i < T.R, p'.getD i 0 = sent (.par i) * p.getD i 0 := by
  obtain ⟨a1, a2, a3, a4, a5, a6, a7⟩ := h
  obtain ⟨b1, b2, b3, b4, b5, b6, b7⟩ := h'
  have hσ := signs_of_sent hs
  have hF : ∀ k ≤ n, Flip sent (turns T β D act N (start message parity) k) (turns T β D act N (start message' parity') k) := fun k hk =>
    hc.flip.turns hσ hβ hL N k fun j hj => hR j (by omega) fun i hi => a2 i (by omega)
  have hW : ∀ k ≤ n, (Word T (turns T β D act N (start message' parity') k) ↔ Word T (turns T β D act N (start message parity) k)) := fun k hk => (hF k hk).word hσ
  have hn : n' = n := by
    rcases Nat.lt_trichotomy n' n with hlt | he | hlt
    · exfalso
      rcases b7 with ⟨hw, -⟩ | ⟨-, ht, -⟩
      · exact a2 n' hlt ((hW n' hlt.le).1 hw)
      · omega
    · exact he
    · exfalso
      rcases a7 with ⟨hw, -⟩ | ⟨-, ht, -⟩
      · exact b2 n hlt ((hW n le_rfl).2 hw)
      · omega
  subst hn
  refine ⟨rfl, ?_, fun i hi => by rw [b4 i hi, a4 i hi]; exact (hF n' le_rfl).val _, fun i hi => by rw [b6 i hi, a6 i hi]; exact (hF n' le_rfl).val _⟩
  have := hW n' le_rfl
  rcases a7 with ⟨u1, u2⟩ | ⟨u1, -, u3⟩ <;> rcases b7 with ⟨v1, v2⟩ | ⟨v1, -, v3⟩
  · rw [u2, v2]
  · exact absurd (this.2 u1) v1
  · exact absurd (this.1 v1) u1
  · rw [u3, v3]

theorem pty_two {C : Cfg} (h : C.WF) (hDR : C.D < C.T.R) : 2 ≤ C.PTY := by
  have h1 := h.hT.hR
  rw [h.hDM] at h1
  rw [h.pty_eq]
  by_contra hc
  have : C.W * C.T.q ≤ 1 := by omega
  have h2 : C.T.q * (C.W * C.D) ≤ 1 * C.D := by
    rw [← Nat.mul_assoc, Nat.mul_comm C.T.q]; exact Nat.mul_le_mul_right _ this
  omega

theorem layers_good {C : Cfg} (h : C.WF) (hDR : C.D < C.T.R) {act : Nat → Nat → Nat → Prop} (hrr : RoundRobin C.T C.D act) (τ : Nat) :
    ∀ cs ∈ layersOf C.T C.D, (∀ c ∈ cs, c < C.T.R) ∧ Solo C.T (act τ) cs := by
  intro cs hcs
  exact good_iter h (pty_two h hDR) hrr τ (act τ, cs) (List.mem_map.2 ⟨cs, hcs, rfl⟩)

/-- **C82** (LDPC): two calls on objects that have made the same number of iterations, the second on soft values with the signs changed by a codeword.  If in message passing on
the first no sum saturates (before the first time that all checks are satisfied), the second result is the first one with the signs changed, and the same number is returned.
Erasures, soft values 0, are allowed. -/
theorem C82_ldpc (C : Cfg) (h : C.WF) (hDR : C.D < C.T.R) (hT : C.T.Proper) (hF : C.T.Fair C.D) (hb0 : 0 ≤ C.BETA) (h64 : C.BETA ≤ 64)
    (srt : List Loc → List Loc) (hsrt : IsSort srt) (pos0 cnc0 : List Nat) (loc0 : List Loc) (wd0 : List Nat)
    (hp : pos0.length = C.T.q * C.T.CNC) (hcn : cnc0.length = C.T.q) (hl : loc0.length = C.LOC) (hw : wd0.length = C.PTY) :
    ∃ X wd act, ∃ At : Nat → List Nat → Prop, mkDec C srt pos0 cnc0 loc0 wd0 = some (X, wd) ∧ wd.length = C.PTY ∧ At 0 wd ∧
      RoundRobin C.T C.D act ∧
      ∀ (N : Nat) (s s2 : St) (message parity message' parity' : List Int) (trials : Int) (sent : Var → Int), StOK C s → At N s.wd → StOK C s2 → At N s2.wd →
        message.length = C.T.K → parity.length = C.T.R → message'.length = C.T.K → parity'.length = C.T.R → 0 ≤ trials →
        SentWord C.T sent → Changed C.T sent message parity message' parity' →
        (∀ k : Nat, (k : Int) < trials → (∀ j ≤ k, ¬ Word C.T (turns C.T C.BETA C.D act N (start message parity) j)) →
          Roomy C.T C.BETA C.D (act (N + k)) (turns C.T C.BETA C.D act N (start message parity) k)) →
        ∃ r r' n, decode C X s message parity trials = some r ∧ decode C X s2 message' parity' trials = some r' ∧
          r'.trials = r.trials ∧ Changed C.T sent r.message r.parity r'.message r'.parity ∧
          StOK C r.s ∧ At (N + n) r.s.wd ∧ StOK C r'.s ∧ At (N + n) r'.s.wd := by
  obtain ⟨X, wd, act, At, h1, h2, h3, hrr, h4⟩ := C51_decode C h hDR hT hF hb0 h64 srt hsrt pos0 cnc0 loc0 wd0 hp hcn hl hw
  refine ⟨X, wd, act, At, h1, h2, h3, hrr, ?_⟩
  intro N s s2 message parity message' parity' trials sent hs hN hs2 hN2 l1 l2 l3 l4 ht hsent hc hR
  obtain ⟨r, n, g1, g2, g3, g4⟩ := h4 N s message parity trials hs hN l1 l2 ht
  obtain ⟨r', n', k1, k2, k3, k4⟩ := h4 N s2 message' parity' trials hs2 hN2 l3 l4 ht
  obtain ⟨e1, e2, e3, e4⟩ := changed_result hb0 hsent (fun cs hcs => (layers_good h hDR hrr 0 cs hcs).1) hc hR g4 k4
  subst e1
  refine ⟨r, r', n', g1, k1, e2, ⟨fun i => ?_, fun i => ?_⟩, g2, g3, k2, k3⟩
  · by_cases hi : i < C.T.K
    · exact e3 i hi
    · rw [List.getD_eq_default r'.message _ (by rw [k4.2.2.1]; omega), List.getD_eq_default r.message _ (by rw [g4.2.2.1]; omega), mul_zero]
  · by_cases hi : i < C.T.R
    · exact e4 i hi
    · rw [List.getD_eq_default r'.parity _ (by rw [k4.2.2.2.2.1]; omega), List.getD_eq_default r.parity _ (by rw [g4.2.2.2.2.1]; omega), mul_zero]

/-- **C82** (LDPC, small soft values): if the magnitude of each soft value plus 31 times the number of its checks is at most 127, nothing saturates, however many iterations
are made: on objects with the same masks, with any histories, the second result is the first one with the signs changed. -/
theorem C82_ldpc_small (C : Cfg) (h : C.WF) (hDR : C.D < C.T.R) (hT : C.T.Proper) (hF : C.T.Fair C.D) (hb0 : 0 ≤ C.BETA) (h64 : C.BETA ≤ 64)
    (srt : List Loc → List Loc) (hsrt : IsSort srt) (pos0 cnc0 : List Nat) (loc0 : List Loc) (wd0 : List Nat)
    (hp : pos0.length = C.T.q * C.T.CNC) (hcn : cnc0.length = C.T.q) (hl : loc0.length = C.LOC) (hw : wd0.length = C.PTY) :
    ∃ X wd, ∃ Ready : List Nat → Prop, mkDec C srt pos0 cnc0 loc0 wd0 = some (X, wd) ∧ wd.length = C.PTY ∧ Ready wd ∧
      ∀ (s s2 : St) (message parity message' parity' : List Int) (trials : Int) (sent : Var → Int), StOK C s → Ready s.wd → StOK C s2 → s2.wd = s.wd →
        message.length = C.T.K → parity.length = C.T.R → message'.length = C.T.K → parity'.length = C.T.R → 0 ≤ trials →
        SentWord C.T sent → Changed C.T sent message parity message' parity' → (∀ v, |value message parity v| + 31 * (C.T.checksOf v).card ≤ 127) →
        ∃ r r', decode C X s message parity trials = some r ∧ decode C X s2 message' parity' trials = some r' ∧
          r'.trials = r.trials ∧ Changed C.T sent r.message r.parity r'.message r'.parity ∧ StOK C r.s ∧ Ready r.s.wd ∧ StOK C r'.s ∧ Ready r'.s.wd := by
  obtain ⟨X, wd, act, At, h1, h2, h3, hrr, h4⟩ := C82_ldpc C h hDR hT hF hb0 h64 srt hsrt pos0 cnc0 loc0 wd0 hp hcn hl hw
  refine ⟨X, wd, fun w => ∃ N, At N w, h1, h2, ⟨0, h3⟩, ?_⟩
  rintro s s2 message parity message' parity' trials sent hs ⟨N, hN⟩ hs2 hw2 l1 l2 l3 l4 ht hsent hc ho
  have hS : Sums C.T (value message parity) (start message parity) := by
    refine ⟨fun c v => by simp [start], fun c v _ => rfl, fun v => ?_⟩
    rw [sum_eq_zero (f := fun c => (start message parity).msg c v) fun c _ => rfl, add_zero]
    cases v <;> rfl
  obtain ⟨r, r', n, g1, g2, g3, g4, g5, g6, g7, g8⟩ := h4 N s s2 message parity message' parity' trials sent hs hN hs2 (by rw [hw2]; exact hN) l1 l2 l3 l4 ht hsent hc
    fun k _ _ => (hS.turns hb0 ho (layers_good h hDR hrr) N k).roomy hb0 ho (layers_good h hDR hrr _)
  exact ⟨r, r', g1, g2, g3, g4, g5, ⟨_, g6⟩, g7, ⟨_, g8⟩⟩

/-- **C82** (LDPC, saturation): 8-bit numbers reach from -128 to 127, so when sums saturate the results may differ, here by one in a data bit and in a parity bit: the small
code of LDPC/Props.lean, with the signs changed by its word `1, -1, 1, 1 | 1, -1, 1, 1`. -/
theorem C82_ldpc_saturation : tinyDec [127, 120, -1, -3] [-127, -127, -126, -3] = some ([124, 127, 61, -31], [-128, -128, -122, 28], 4) ∧
    tinyDec [127, -120, -1, -3] [-127, 127, -126, -3] = some ([124, -128, 61, -31], [-128, 127, -122, 28], 4) := by decide +kernel

/-! ### Cases -/

theorem tinySent_word : SentWord tiny tinySent := by
  refine ⟨fun v => ?_, by unfold Table.checkOk; decide +kernel⟩
  unfold tinySent
  split <;> simp

/-- Soft values with an erasure and an error, and the same with the signs changed by the word; each data bit and each parity bit takes part in two checks. -/
theorem tiny_changed : Changed tiny tinySent [3, 2, 9, 1] [4, 0, -5, 6] [3, -2, 9, 1] [4, 0, -5, 6] := by
  constructor
  · intro i
    rcases i with _ | _ | _ | _ | i <;> rfl
  · intro i
    rcases i with _ | _ | _ | _ | i <;> rfl

theorem tiny_checks (v : Var) : (tiny.checksOf v).card ≤ 2 := by
  have hf : ∀ x, 4 ≤ x → ∀ c < 4, x ∉ tiny.feeds c := fun x hx c hc hm => by
    have := feeds_lt tiny_wf.hT hm
    exact absurd this (by change ¬ x < 4; omega)
  have hp : ∀ x, 4 ≤ x → tiny.checksOf (.par x) = ∅ := fun x hx => by
    refine filter_eq_empty_iff.2 fun c hc hv => ?_
    have hc4 : c < 4 := mem_range.1 hc
    rcases mem_vars.1 hv with ⟨y, -, e⟩ | e | ⟨-, e⟩
    · cases e
    · cases e; omega
    · cases e; omega
  cases v with
  | data x =>
    by_cases hx : x < 4
    · interval_cases x <;> decide +kernel
    · rw [show tiny.checksOf (.data x) = ∅ from ?_]
      · simp
      · refine filter_eq_empty_iff.2 fun c hc hv => ?_
        rcases mem_vars.1 hv with ⟨y, hy, e⟩ | e | ⟨-, e⟩
        · cases e; exact hf x (by omega) c (mem_range.1 hc) hy
        · cases e
        · cases e
  | par x =>
    by_cases hx : x < 4
    · interval_cases x <;> decide +kernel
    · rw [hp x (by omega)]; simp

example : ∀ v, |value [3, 2, 9, 1] [4, 0, -5, 6] v| + 31 * (tiny.checksOf v).card ≤ 127 := by
  intro v
  have h1 := tiny_checks v
  have h2 : |value [3, 2, 9, 1] [4, 0, -5, 6] v| ≤ 9 := by
    cases v with
    | data i => rcases i with _ | _ | _ | _ | i <;> simp [value]
    | par i => rcases i with _ | _ | _ | _ | i <;> simp [value]
  omega

example : tinyDec [3, 2, 9, 1] [4, 0, -5, 6] = some ([-2, -1, 7, 2], [1, -1, -3, 5], -1) ∧
    tinyDec [3, -2, 9, 1] [4, 0, -5, 6] = some ([-2, 1, 7, 2], [1, 1, -3, 5], -1) := by decide +kernel
example : tinyDec [3, 2, -9, 1] [4, 0, 5, 6] = some ([8, 4, -11, 8], [7, -4, 9, 10], 4) ∧
    tinyDec [3, -2, -9, 1] [4, 0, 5, 6] = some ([8, -4, -11, 8], [7, 4, 9, 10], 4) := by decide +kernel

example : tinyC.WF ∧ tinyC.D < tinyC.T.R ∧ tiny.Proper ∧ tiny.Fair 2 ∧ 0 ≤ tinyC.BETA ∧ tinyC.BETA ≤ 64 :=
  ⟨tiny_wf, by decide, by unfold Table.Proper; decide +kernel, fair_of_classes tiny_wf.hT (by decide +kernel) (by decide +kernel), by decide, by decide⟩

end Verif.LDPC
