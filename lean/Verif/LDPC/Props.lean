import Verif.LDPC.Run
import Verif.LDPC.Tables
import Mathlib.Data.List.Sort
/- C44 (ldpc_encoder.hh, ldpc_decoder.hh): the encoder computes the code described by the table (LDPC/Spec.lean) and the decoder's
stopping rule is exactly membership in that code. -/
namespace Verif.LDPC
open Verif.RS (sb)

/-- The checks only look at the first `K` and `R` values. -/
theorem checkOk_congr {T : Table} (h : T.WF) {d p d' p' : Nat → Int} (hd : ∀ x < T.K, d x = d' x) (hp : ∀ c < T.R, p c = p' c)
    {c : Nat} (hc : c < T.R) : T.checkOk d p c ↔ T.checkOk d' p' c := by
  have ht : c / T.q < T.M := by
    rw [Nat.div_lt_iff_lt_mul h.hq, Nat.mul_comm, ← h.hR]; exact hc
  have hn : c % T.q < T.q := Nat.mod_lt _ h.hq
  have hf : (T.feeds c).map (fun i => (d i).sign) = (T.feeds c).map fun i => (d' i).sign := by
    apply List.map_congr_left
    intro i hi
    rw [← Nat.div_add_mod c T.q, feeds_eq h ht hn] at hi
    obtain ⟨e, he, rfl⟩ := List.mem_map.1 hi
    rw [hd _ (bitAt_lt h (ent_mem he).1 _)]
  unfold Table.checkOk
  rw [hf, hp c hc]
  by_cases h0 : c = 0
  · rw [if_pos h0, if_pos h0]
  · rw [if_neg h0, if_neg h0, hp (c - 1) (by omega)]

/-- `(message, parity)`, numbers whose signs carry the bits, is a word of the code without undecided bits. -/
def IsWord (T : Table) (message parity : List Int) : Prop :=
  ∀ c < T.R, T.checkOk (fun i => message.getD i 0) (fun i => parity.getD i 0) c

theorem allOk_iff {C : Cfg} (h : C.WF) {msg pty : List Reg} {m p : List Int} (hm : ∀ x < C.T.K, m.getD x 0 = dOf C msg x)
    (hp : ∀ c < C.T.R, p.getD c 0 = pOf C pty c) : AllOk C.T (dOf C msg) (pOf C pty) ↔ IsWord C.T m p := by
  unfold AllOk IsWord
  refine forall_congr' fun c => ?_
  refine ⟨fun hh hc => (checkOk_congr h.hT hm hp hc).2 (hh hc), fun hh hc => (checkOk_congr h.hT hm hp hc).1 (hh hc)⟩

/-- For every well-formed table the encoder's constructor succeeds, and every message of `±1` values is encoded (no undefined
behaviour) to parity values `±1` that satisfy the recursion of the code: each parity value is the previous one times the product of
the data values that take part in its check. -/
theorem C44_encode (T : Table) (h : T.WF) (pos0 cnc0 : List Nat) (hp : pos0.length = T.R * T.CNC) (hc : cnc0.length = T.q) :
    ∃ e, mkEnc T pos0 cnc0 = some e ∧ ∀ data parity : List Int, data.length = T.K → (∀ x ∈ data, x = 1 ∨ x = -1) →
      parity.length = T.R → ∃ par, encode T e data parity = some par ∧ par.length = T.R ∧ ∀ c < T.R,
        (par.getD c 0 = 1 ∨ par.getD c 0 = -1) ∧
        par.getD c 0 = ((T.feeds c).map fun i => data.getD i 0).prod * (if c = 0 then 1 else par.getD (c - 1) 0) := by
  obtain ⟨e, he, hok⟩ := mkEnc_ok h pos0 cnc0 hp hc
  exact ⟨e, he, fun data parity h1 h2 h3 => encode_ok h e hok data parity h1 h2 h3⟩

/-- The decoder, for every well-formed table and word size, every behaviour of `std::sort` within its contract, every history of the
object (any contents of its members), every input and every non-negative `trials`: it has no undefined behaviour, returns a number
from `-1` to `trials`; it returns a non-negative number exactly if its output is a word of the code; it returns `trials` exactly if the
input was one, and then the buffers are unchanged. -/
theorem C44_decode (C : Cfg) (h : C.WF) (srt : List Loc → List Loc) (hsrt : IsSort srt) (pos0 cnc0 : List Nat) (loc0 : List Loc)
    (wd0 : List Nat) (hp : pos0.length = C.T.q * C.T.CNC) (hcn : cnc0.length = C.T.q) (hl : loc0.length = C.LOC)
    (hw : wd0.length = C.PTY) :
    ∃ X wd, mkDec C srt pos0 cnc0 loc0 wd0 = some (X, wd) ∧ wd.length = C.PTY ∧
      ∀ (s : St) (message parity : List Int) (trials : Int), StOK C s → message.length = C.T.K → parity.length = C.T.R → 0 ≤ trials →
        ∃ r, decode C X s message parity trials = some r ∧ StOK C r.s ∧ r.message.length = C.T.K ∧ r.parity.length = C.T.R ∧
          -1 ≤ r.trials ∧ r.trials ≤ trials ∧
          (0 ≤ r.trials ↔ IsWord C.T r.message r.parity) ∧
          (r.trials = trials ↔ IsWord C.T message parity) ∧
          (IsWord C.T message parity → r.message = message ∧ r.parity = parity) := by
  obtain ⟨⟨X, wd⟩, he, hX, hwd, _⟩ := mkDec_ok h srt hsrt pos0 cnc0 loc0 wd0 hp hcn hl hw
  refine ⟨X, wd, he, hwd, fun s message parity trials hs hm hpa ht => ?_⟩
  obtain ⟨s1, e1, hs1, _, _, hd1, hp1⟩ := load_ok h hs message parity hm hpa
  obtain ⟨⟨s2, t⟩, e2, hs2, g1, g2, g3, g4, g5⟩ := iter_ok h hX (trials.toNat + 1) s1 trials hs1 (by omega)
  obtain ⟨⟨m', p'⟩, e3, k1, k2, k3, k4⟩ := unload_ok h hs2 message parity hm hpa
  dsimp only at g1 g2 g3 g4 g5 k1 k2 k3 k4
  have hin : AllOk C.T (dOf C s1.msg) (pOf C s1.pty) ↔ IsWord C.T message parity :=
    allOk_iff h (fun x hx => (hd1 x hx).symm) (fun c hc => (hp1 c hc).symm)
  have hout : AllOk C.T (dOf C s2.msg) (pOf C s2.pty) ↔ IsWord C.T m' p' := allOk_iff h k3 k4
  refine ⟨⟨s2, m', p', t⟩, ?_, hs2, k1, k2, g2 ht, g1, ?_, ?_, ?_⟩
  · unfold decode
    rw [e1, sb, e2, sb, e3, sb]
    rfl
  · exact (g5 ht).trans hout
  · rw [← hin]
    constructor
    · intro hh
      by_contra hc
      have := g4 hc
      dsimp only at hh
      omega
    · intro hh
      have := g3 hh
      injection this
  · intro hh
    have hst := g3 (hin.2 hh)
    injection hst with hst1 hst2
    subst hst1
    constructor
    · exact ext_getD 0 (k1.trans hm.symm) fun x hx => by
        dsimp only at hx ⊢
        rw [k3 x (by omega), hd1 x (by omega)]
    · exact ext_getD 0 (k2.trans hpa.symm) fun x hx => by
        dsimp only at hx ⊢
        rw [k4 x (by omega), hp1 x (by omega)]

/-- A vector has the signs of `bits` and is nowhere zero: `bits` transmitted with positive amplitudes. -/
def SameSigns (soft bits : List Int) : Prop := soft.length = bits.length ∧ ∀ i < bits.length, ∃ a : Int, 0 < a ∧ soft.getD i 0 = a * bits.getD i 0

/-- The encoder's codewords are accepted by the decoder: for every well-formed table, message and positive amplitudes, the decoder
returns `trials` and leaves the buffers unchanged. -/
theorem C44_roundtrip (C : Cfg) (h : C.WF) (srt : List Loc → List Loc) (hsrt : IsSort srt)
    (epos0 ecnc0 : List Nat) (hep : epos0.length = C.T.R * C.T.CNC) (hec : ecnc0.length = C.T.q)
    (pos0 cnc0 : List Nat) (loc0 : List Loc) (wd0 : List Nat) (hp : pos0.length = C.T.q * C.T.CNC) (hcn : cnc0.length = C.T.q)
    (hl : loc0.length = C.LOC) (hw : wd0.length = C.PTY) :
    ∃ e X wd, mkEnc C.T epos0 ecnc0 = some e ∧ mkDec C srt pos0 cnc0 loc0 wd0 = some (X, wd) ∧
      ∀ (data parity0 : List Int), data.length = C.T.K → (∀ x ∈ data, x = 1 ∨ x = -1) → parity0.length = C.T.R →
      ∃ parity, encode C.T e data parity0 = some parity ∧
      ∀ (s : St) (soft softP : List Int) (trials : Int), StOK C s → SameSigns soft data → SameSigns softP parity → 0 ≤ trials →
      ∃ r, decode C X s soft softP trials = some r ∧ r.trials = trials ∧ r.message = soft ∧ r.parity = softP := by
  obtain ⟨e, he, henc⟩ := C44_encode C.T h.hT epos0 ecnc0 hep hec
  obtain ⟨X, wd, hX, _, hdec⟩ := C44_decode C h srt hsrt pos0 cnc0 loc0 wd0 hp hcn hl hw
  refine ⟨e, X, wd, he, hX, fun data parity0 hd hpm hp0 => ?_⟩
  obtain ⟨par, h1, h2, h3⟩ := henc data parity0 hd hpm hp0
  refine ⟨par, h1, fun s soft softP trials hs hsd hsp ht => ?_⟩
  obtain ⟨r, k1, _, _, _, _, _, _, k7, k8⟩ := hdec s soft softP trials hs (hsd.1.trans hd) (hsp.1.trans h2) ht
  have hword : IsWord C.T soft softP := by
    have hsig : ∀ (soft bits : List Int), SameSigns soft bits → ∀ i < bits.length, (bits.getD i 0 = 1 ∨ bits.getD i 0 = -1) →
        (soft.getD i 0).sign = bits.getD i 0 := by
      intro soft bits hss i hi hb
      obtain ⟨a, ha, hv⟩ := hss.2 i hi
      rw [hv]
      rcases hb with hb | hb <;> rw [hb]
      · rw [mul_one]; exact Int.sign_eq_one_of_pos ha
      · rw [mul_neg_one]; exact Int.sign_eq_neg_one_of_neg (by omega)
    intro c hc
    have hdat : ∀ i < C.T.K, (soft.getD i 0).sign = data.getD i 0 := fun i hi =>
      hsig soft data hsd i (by omega) (by rw [← getElem_eq_getD (show i < data.length by omega)]; exact hpm _ (List.getElem_mem _))
    have hpar : ∀ i < C.T.R, (softP.getD i 0).sign = par.getD i 0 := fun i hi => hsig softP par hsp i (by omega) (h3 i hi).1
    have ht : c / C.T.q < C.T.M := by
      rw [Nat.div_lt_iff_lt_mul h.hT.hq, Nat.mul_comm, ← h.hT.hR]; exact hc
    have hf : (C.T.feeds c).map (fun i => (soft.getD i 0).sign) = (C.T.feeds c).map fun i => data.getD i 0 := by
      apply List.map_congr_left
      intro i hi
      rw [← Nat.div_add_mod c C.T.q, feeds_eq h.hT ht (Nat.mod_lt _ h.hT.hq)] at hi
      obtain ⟨e, he, rfl⟩ := List.mem_map.1 hi
      exact hdat _ (bitAt_lt h.hT (ent_mem he).1 _)
    unfold Table.checkOk
    have hsq : ∀ x : Int, (x = 1 ∨ x = -1) → x * x = 1 := by rintro x (rfl | rfl) <;> rfl
    have hprev : (if c = 0 then (1 : Int) else (softP.getD (c - 1) 0).sign) = if c = 0 then 1 else par.getD (c - 1) 0 := by
      split
      · rfl
      · exact hpar _ (by omega)
    rw [hf, hprev, hpar c hc]
    have h4 := h3 c hc
    set P := ((C.T.feeds c).map fun i => data.getD i 0).prod
    set Q : Int := if c = 0 then 1 else par.getD (c - 1) 0
    rw [show P * par.getD c 0 * Q = par.getD c 0 * (P * Q) by ring, ← h4.2]
    exact hsq _ h4.1
  exact ⟨r, k1, k7.2 hword, (k8 hword).1, (k8 hword).2⟩

/-! The tables of the regression test are well-formed, for both word sizes. -/

theorem dvb_a1_wf : dvb_t2_table_a1.WF := by
  constructor <;> decide +kernel
theorem dvb_a3_wf : dvb_t2_table_a3.WF := by
  constructor <;> decide +kernel
theorem dvb_a6_wf : dvb_t2_table_a6.WF := by
  constructor <;> decide +kernel
theorem dvb_b7_wf : dvb_t2_table_b7.WF := by
  constructor <;> decide +kernel

/-- AVX2: 30 of 32 lanes. -/
def avx2 (T : Table) : Cfg := ⟨T, 30, 32, 1, List.replicate 32 0⟩
/-- Otherwise: 15 of 16 lanes. -/
def sse (T : Table) : Cfg := ⟨T, 15, 16, 1, List.replicate 16 0⟩

theorem C44_tables : ∀ T ∈ [dvb_t2_table_a1, dvb_t2_table_a3, dvb_t2_table_a6, dvb_t2_table_b7], (avx2 T).WF ∧ (sse T).WF := by
  intro T hT
  simp only [List.mem_cons, List.not_mem_nil, or_false] at hT
  rcases hT with rfl | rfl | rfl | rfl
  · exact ⟨⟨dvb_a1_wf, by decide, by decide +kernel, by decide, by decide +kernel, rfl⟩,
      ⟨dvb_a1_wf, by decide, by decide +kernel, by decide, by decide +kernel, rfl⟩⟩
  · exact ⟨⟨dvb_a3_wf, by decide, by decide +kernel, by decide, by decide +kernel, rfl⟩,
      ⟨dvb_a3_wf, by decide, by decide +kernel, by decide, by decide +kernel, rfl⟩⟩
  · exact ⟨⟨dvb_a6_wf, by decide, by decide +kernel, by decide, by decide +kernel, rfl⟩,
      ⟨dvb_a6_wf, by decide, by decide +kernel, by decide, by decide +kernel, rfl⟩⟩
  · exact ⟨⟨dvb_b7_wf, by decide, by decide +kernel, by decide, by decide +kernel, rfl⟩,
      ⟨dvb_b7_wf, by decide, by decide +kernel, by decide, by decide +kernel, rfl⟩⟩

/-- A sort that satisfies the contract. -/
def insSort (l : List Loc) : List Loc := l.insertionSort fun a b => a.off ≤ b.off

theorem insSort_isSort : IsSort insSort := by
  have ht : IsTrans Loc fun a b => a.off ≤ b.off := ⟨fun _ _ _ h1 h2 => le_trans h1 h2⟩
  have hto : Std.Total fun a b : Loc => a.off ≤ b.off := ⟨fun a b => le_total a.off b.off⟩
  exact fun l => ⟨List.perm_insertionSort _ l, List.pairwise_insertionSort _ l⟩

/-- A small code: four data bits, four parity bits, two lanes of three in use. -/
def tiny : Table := ⟨2, 8, 4, 4, 15, [2, 0], [2, 0], [0, 3, 1, 2]⟩
def tinyC : Cfg := ⟨tiny, 2, 3, 0, [7, 7, 7]⟩

theorem tiny_wf : tinyC.WF := by
  refine ⟨?_, by decide, by decide, by decide, by decide, rfl⟩
  constructor <;> decide +kernel

/-- The checks of the small code. -/
example : (List.range 4).map tiny.feeds = [[0, 3], [1, 2], [1, 2], [0, 3]] := by decide +kernel

def tinyEnc : Option (List Int) := do
  let e ← mkEnc tiny (List.replicate 8 0) [5, 5]
  encode tiny e [1, -1, 1, 1] [0, 0, 0, 0]

def tinyDec (message parity : List Int) : Option (List Int × List Int × Int) := do
  let x ← mkDec tinyC insSort [0, 0, 0, 0] [0, 0] (List.replicate 4 ⟨0, 0⟩) [0, 0]
  let r ← decode tinyC x.1 ⟨List.replicate 8 [0, 0, 0], List.replicate 2 [0, 0, 0], List.replicate 2 [0, 0, 0], x.2⟩ message parity 5
  return (r.message, r.parity, r.trials)

example : tinyEnc = some [1, -1, 1, 1] := by decide +kernel
/-- The codeword with amplitudes is returned as it is; a wrong parity sign is corrected in one iteration. -/
example : tinyDec [3, -2, 9, 1] [4, -1, 5, 6] = some ([3, -2, 9, 1], [4, -1, 5, 6], 5) := by decide +kernel
example : tinyDec [3, -2, 9, 1] [4, 1, 5, 6] = some ([8, -2, 9, 8], [6, -2, 8, 10], 4) := by decide +kernel

end Verif.LDPC
