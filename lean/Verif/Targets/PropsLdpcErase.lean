import Verif.Targets.PropsLdpc
import Verif.LDPC.PropsErase
/- C81 on every target the LDPC decoder is compiled for. -/
namespace Verif.Targets
open Verif.SIMD
open Verif.LDPC (Table Loc IsSort Var SentWord Received Outcome)
variable {R : Type}

/-- **C81** (targets): what C81_decode says of the decoder holds on every target of C61, whatever its registers, the lanes not in use and uninitialised
registers hold. -/
theorem C81_targets (C : LdpcT R) (H : COk C) (h : C.cfg.WF) (hDR : C.D < C.tab.R) (hT : C.tab.Proper) (hF : C.tab.Fair C.D) (hb0 : 0 ≤ C.BETA) (h64 : C.BETA ≤ 64)
    (srt : List Loc → List Loc) (hsrt : IsSort srt) (pos0 cnc0 : List Nat) (loc0 : List Loc)
    (wd0 : List Nat) (hp : pos0.length = C.tab.q * C.tab.CNC) (hcn : cnc0.length = C.tab.q) (hl : loc0.length = C.cfg.LOC) (hw : wd0.length = C.cfg.PTY) :
    ∃ X wd, ∃ Ready : List Nat → Prop, LDPC.mkDec C.cfg srt pos0 cnc0 loc0 wd0 = some (X, wd) ∧ wd.length = C.cfg.PTY ∧ Ready wd ∧
      ∀ (s : StT R) (message parity : List Int) (trials : Int) (E : Finset Var) (sent : Var → Int), StTOk C s → Ready s.wd → message.length = C.tab.K →
        parity.length = C.tab.R → 0 ≤ trials → SentWord C.tab sent → Received C.tab E 1 sent message parity →
        ∃ r, C.decode X s message parity trials = some r ∧ StTOk C r.s ∧ Ready r.s.wd ∧
          ∀ G, C.tab.Shares C.D G → Outcome C.tab C.BETA G E sent message parity trials r.message r.parity r.trials := by
  obtain ⟨X, wd, Ready, he, hwl, hA, hd⟩ := LDPC.C81_decode C.cfg h hDR hT hF hb0 h64 srt hsrt pos0 cnc0 loc0 wd0 hp hcn hl hw
  obtain ⟨⟨X', wd'⟩, he', hXok, _⟩ := LDPC.mkDec_ok h srt hsrt pos0 cnc0 loc0 wd0 hp hcn hl hw
  rw [he] at he'
  cases he'
  refine ⟨X, wd, Ready, he, hwl, hA, fun s message parity trials E sent hs hsw hml hpl ht hS hR => ?_⟩
  obtain ⟨r, e, h1, h2, h3⟩ := hd (listSt C s) message parity trials E sent (listSt_ok hs) hsw hml hpl ht hS hR
  obtain ⟨s', e', h4, h5⟩ := run H h (shi_lt h hXok) hs hR.bytes.1 hR.bytes.2 e h1
  exact ⟨_, e', h4, by rw [h5]; exact h2, h3⟩

/-- It applies to three tables of the regression test on AVX2 and NEON. -/
example (T : Table) (hT : T ∈ [LDPC.dvb_t2_table_a1, LDPC.dvb_t2_table_a6, LDPC.dvb_t2_table_b7]) (junk : BitVec 256) :
    COk (ldpcAvx T 1 junk) ∧ (ldpcAvx T 1 junk).cfg.WF ∧ (ldpcAvx T 1 junk).D < T.R ∧ T.Proper ∧ T.Fair (ldpcAvx T 1 junk).D ∧ T.Shares (ldpcAvx T 1 junk).D 30 := by
  obtain ⟨-, h1, h2, h3, h4⟩ := LDPC.C81_tables.2.2 T hT
  refine ⟨((C61_targets T 1).2.2.1 junk).1, ((C61_tables 1 T ?_).2.2.1 junk), h1, h2, h3, h4⟩
  simp only [List.mem_cons, List.not_mem_nil, or_false] at hT ⊢
  tauto
example (T : Table) (hT : T ∈ [LDPC.dvb_t2_table_a1, LDPC.dvb_t2_table_a3, LDPC.dvb_t2_table_a6]) (junk : BitVec 128) :
    COk (ldpcA64 T 1 junk) ∧ (ldpcA64 T 1 junk).cfg.WF ∧ (ldpcA64 T 1 junk).D < T.R ∧ T.Proper ∧ T.Fair (ldpcA64 T 1 junk).D ∧ T.Shares (ldpcA64 T 1 junk).D 1 := by
  obtain ⟨-, h1, h2, h3, h4⟩ := LDPC.C81_tables.1 T hT
  refine ⟨((C61_targets T 1).2.2.2.1 junk).1, ((C61_tables 1 T ?_).2.2.2.1 junk), h1, h2, h3, h4⟩
  simp only [List.mem_cons, List.not_mem_nil, or_false] at hT ⊢
  tauto

/-- The small code of LDPC/Props.lean, with one data and one parity symbol erased, on registers that start with other contents on every target. -/
example : tinyT ⟨sse, rotSse, LDPC.tiny, 2, 0, 0x123456789abcdef⟩ [8, -2, 9, 0] [6, 0, 8, 10] = some ([14, -4, 11, 14], [8, -4, 14, 16], 4) := by decide +kernel
example : tinyT ⟨avx, rotAvx, LDPC.tiny, 2, 0, 77⟩ [8, -2, 9, 0] [6, 0, 8, 10] = some ([14, -4, 11, 14], [8, -4, 14, 16], 4) := by decide +kernel

/-- With offset 1 an amplitude of 2 is enough to find the erased symbol in one round, an amplitude of 1 is not. -/
example : tinyT ⟨sse, rotSse, LDPC.tiny, 2, 1, 5⟩ [2, -2, 2, 0] [2, -2, 2, 2] = some ([2, -4, 4, 2], [4, -4, 3, 2], 4) := by decide +kernel
example : tinyT ⟨sse, rotSse, LDPC.tiny, 2, 1, 5⟩ [1, -1, 1, 0] [1, -1, 1, 1] = some ([1, -1, 1, 0], [1, -1, 1, 1], -1) := by decide +kernel

end Verif.Targets
