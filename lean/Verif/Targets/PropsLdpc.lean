import Verif.Targets.LdpcRot
import Verif.LDPC.PropsTurns
/- C61: the LDPC decoder on every target. -/
namespace Verif.Targets
open Verif.SIMD
open Verif.LDPC (Table Cfg Dec Loc IsSort IsWord Decoded DecodedTurns RoundRobin)
open Verif.PolarHelper (I8)
variable {R : Type}

/-- The decoder as compiled for each of the targets: `TYPE` has the functions of simd.hh, `Rotate<TYPE, D>` rotates the lanes in use,
and there are as many lanes as the source asks for. -/
theorem C61_targets (tab : Table) (BETA : Int) :
    (∀ junk, COk (ldpcPort tab BETA junk) ∧ (ldpcPort tab BETA junk).T.n = 16 ∧ (ldpcPort tab BETA junk).D = 15) ∧
    (∀ junk, COk (ldpcSse tab BETA junk) ∧ (ldpcSse tab BETA junk).T.n = 16 ∧ (ldpcSse tab BETA junk).D = 15) ∧
    (∀ junk, COk (ldpcAvx tab BETA junk) ∧ (ldpcAvx tab BETA junk).T.n = 32 ∧ (ldpcAvx tab BETA junk).D = 30) ∧
    (∀ junk, COk (ldpcA64 tab BETA junk) ∧ (ldpcA64 tab BETA junk).T.n = 16 ∧ (ldpcA64 tab BETA junk).D = 15) ∧
    (∀ junk, COk (ldpcA32 tab BETA junk) ∧ (ldpcA32 tab BETA junk).T.n = 16 ∧ (ldpcA32 tab BETA junk).D = 15) :=
  ⟨fun _ => ⟨⟨port_ok 16 false, (show 2 ≤ 15 by decide), (show 15 ≤ 16 by decide), rotGen_ok (port_ok 16 false) (D := 15) (show 15 ≤ 16 by decide)⟩, rfl, rfl⟩,
   fun _ => ⟨⟨sse_ok, (show 2 ≤ 15 by decide), (show 15 ≤ 16 by decide), rotSse_ok (D := 15) (show 15 ≤ 16 by decide)⟩, rfl, rfl⟩,
   fun _ => ⟨⟨avx_ok, (show 2 ≤ 30 by decide), (show 30 ≤ 32 by decide), rotAvx_ok (D := 30) (show 30 ≤ 32 by decide)⟩, rfl, rfl⟩,
   fun _ => ⟨⟨neon_a64_ok, (show 2 ≤ 15 by decide), (show 15 ≤ 16 by decide), rotA64_ok (D := 15) (show 15 ≤ 16 by decide)⟩, rfl, rfl⟩,
   fun _ => ⟨⟨neon_a32_ok, (show 2 ≤ 15 by decide), (show 15 ≤ 16 by decide), rotA32_ok (D := 15) (show 15 ≤ 16 by decide)⟩, rfl, rfl⟩⟩

/-- The registers of an object, as lists of lanes. -/
def listSt (C : LdpcT R) (s : StT R) : LDPC.St := ⟨s.bnl.map C.lanes, s.msg.map C.lanes, s.pty.map C.lanes, s.wd⟩

theorem listSt_ok {C : LdpcT R} {s : StT R} (hs : StTOk C s) : LDPC.StOK C.cfg (listSt C s) := by
  have hr : ∀ (l : List R), ∀ r ∈ l.map C.lanes, r.length = C.cfg.S := by
    intro l r hr
    obtain ⟨a, _, rfl⟩ := List.mem_map.1 hr
    unfold LdpcT.lanes; simp; rfl
  refine ⟨⟨?_, ?_, hr _, hr _⟩, ?_, hr _, hs.wd⟩
  · exact (List.length_map _).trans hs.msg
  · exact (List.length_map _).trans hs.pty
  · exact (List.length_map _).trans hs.bnl

theorem stRel_ok {C : LdpcT R} {s : StT R} {s' : LDPC.St} {J : List Int} (h : StRel C s s') (hs' : LDPC.StOK (C.cfgJ J) s') : StTOk C s :=
  ⟨h.bnl.length_eq.trans hs'.hb, h.msg.length_eq.trans hs'.hsh.hm, h.pty.length_eq.trans hs'.hsh.hp, by rw [h.wd]; exact hs'.hw⟩

theorem lanes_len (C : LdpcT R) (a : R) : (C.lanes a).length = C.T.n := by simp [LdpcT.lanes]

theorem run {C : LdpcT R} (H : COk C) (h : C.cfg.WF) {X : Dec} (hX : ∀ l ∈ X.loc, l.shi < C.D) {s : StT R} (hs : StTOk C s) {message parity : List Int}
    (hm : ∀ x ∈ message, I8 x) (hp : ∀ x ∈ parity, I8 x) {trials : Int} {r : LDPC.Res} (e : LDPC.decode C.cfg X (listSt C s) message parity trials = some r)
    (hr : LDPC.StOK C.cfg r.s) :
    ∃ s', C.decode X s message parity trials = some ⟨s', r.message, r.parity, r.trials⟩ ∧ StTOk C s' ∧ s'.wd = r.s.wd := by
  obtain ⟨s', e', h'⟩ := decode_sim H (lanes_len C C.junk) h hX hs (listSt_ok hs) rfl hm hp e
  exact ⟨s', e', stRel_ok (J := C.lanes C.junk) h' hr, h'.wd⟩

/-- What C44 says of the decoder holds on every target, whatever its registers, buffers and lanes not in use hold: no undefined
behaviour, a number from `-1` to `trials` is returned, non-negative exactly if the output is a word of the code and equal to `trials`
exactly if the input was one, which then is unchanged. -/
theorem C61_decode (C : LdpcT R) (H : COk C) (h : C.cfg.WF) (srt : List Loc → List Loc) (hsrt : IsSort srt) (pos0 cnc0 : List Nat) (loc0 : List Loc)
    (wd0 : List Nat) (hp : pos0.length = C.tab.q * C.tab.CNC) (hcn : cnc0.length = C.tab.q) (hl : loc0.length = C.cfg.LOC) (hw : wd0.length = C.cfg.PTY) :
    ∃ X wd, LDPC.mkDec C.cfg srt pos0 cnc0 loc0 wd0 = some (X, wd) ∧ wd.length = C.cfg.PTY ∧
      ∀ (s : StT R) (message parity : List Int) (trials : Int), StTOk C s → message.length = C.tab.K → parity.length = C.tab.R →
        (∀ x ∈ message, I8 x) → (∀ x ∈ parity, I8 x) → 0 ≤ trials →
        ∃ r, C.decode X s message parity trials = some r ∧ StTOk C r.s ∧ r.message.length = C.tab.K ∧ r.parity.length = C.tab.R ∧
          -1 ≤ r.trials ∧ r.trials ≤ trials ∧
          (0 ≤ r.trials ↔ IsWord C.tab r.message r.parity) ∧
          (r.trials = trials ↔ IsWord C.tab message parity) ∧
          (IsWord C.tab message parity → r.message = message ∧ r.parity = parity) := by
  obtain ⟨X, wd, he, hwl, hd⟩ := LDPC.C44_decode C.cfg h srt hsrt pos0 cnc0 loc0 wd0 hp hcn hl hw
  obtain ⟨⟨X', wd'⟩, he', hXok, _⟩ := LDPC.mkDec_ok h srt hsrt pos0 cnc0 loc0 wd0 hp hcn hl hw
  rw [he] at he'
  cases he'
  refine ⟨X, wd, he, hwl, fun s message parity trials hs hml hpl hm hp ht => ?_⟩
  obtain ⟨r, e, h1, h2⟩ := hd (listSt C s) message parity trials (listSt_ok hs) hml hpl ht
  obtain ⟨s', e', h3, _⟩ := run H h (shi_lt h hXok) hs hm hp e h1
  exact ⟨_, e', h3, h2⟩

/-- What C50 says of the decoder holds on every target: if no check has two data bits in one register, the result is exactly that of the
message passing algorithm. -/
theorem C61_exact (C : LdpcT R) (H : COk C) (h : C.cfg.WF) (hDR : C.D < C.tab.R) (hT : C.tab.Spread C.D) (hb0 : 0 ≤ C.BETA) (h64 : C.BETA ≤ 64)
    (srt : List Loc → List Loc) (hsrt : IsSort srt) (pos0 cnc0 : List Nat) (loc0 : List Loc)
    (wd0 : List Nat) (hp : pos0.length = C.tab.q * C.tab.CNC) (hcn : cnc0.length = C.tab.q) (hl : loc0.length = C.cfg.LOC) (hw : wd0.length = C.cfg.PTY) :
    ∃ X wd, LDPC.mkDec C.cfg srt pos0 cnc0 loc0 wd0 = some (X, wd) ∧ wd.length = C.cfg.PTY ∧
      ∀ (s : StT R) (message parity : List Int) (trials : Int), StTOk C s → s.wd = wd → message.length = C.tab.K → parity.length = C.tab.R →
        (∀ x ∈ message, I8 x) → (∀ x ∈ parity, I8 x) → 0 ≤ trials →
        ∃ r, C.decode X s message parity trials = some r ∧ StTOk C r.s ∧ r.s.wd = wd ∧
          Decoded C.tab C.BETA C.D message parity trials r.message r.parity r.trials := by
  obtain ⟨X, wd, he, hwl, hd⟩ := LDPC.C50_decode C.cfg h hDR hT hb0 h64 srt hsrt pos0 cnc0 loc0 wd0 hp hcn hl hw
  obtain ⟨⟨X', wd'⟩, he', hXok, _⟩ := LDPC.mkDec_ok h srt hsrt pos0 cnc0 loc0 wd0 hp hcn hl hw
  rw [he] at he'
  cases he'
  refine ⟨X, wd, he, hwl, fun s message parity trials hs hsw hml hpl hm hp ht => ?_⟩
  obtain ⟨r, e, h1, h2, h3⟩ := hd (listSt C s) message parity trials (listSt_ok hs) hsw hml hpl ht
  obtain ⟨s', e', h4, h5⟩ := run H h (shi_lt h hXok) hs hm hp e h1
  exact ⟨_, e', h4, h5.trans h2, h3⟩

/-- What C51 says of the decoder holds on every target: checks that share a register take turns. -/
theorem C61_turns (C : LdpcT R) (H : COk C) (h : C.cfg.WF) (hDR : C.D < C.tab.R) (hT : C.tab.Proper) (hF : C.tab.Fair C.D) (hb0 : 0 ≤ C.BETA) (h64 : C.BETA ≤ 64)
    (srt : List Loc → List Loc) (hsrt : IsSort srt) (pos0 cnc0 : List Nat) (loc0 : List Loc)
    (wd0 : List Nat) (hp : pos0.length = C.tab.q * C.tab.CNC) (hcn : cnc0.length = C.tab.q) (hl : loc0.length = C.cfg.LOC) (hw : wd0.length = C.cfg.PTY) :
    ∃ X wd act, ∃ At : Nat → List Nat → Prop, LDPC.mkDec C.cfg srt pos0 cnc0 loc0 wd0 = some (X, wd) ∧ wd.length = C.cfg.PTY ∧ At 0 wd ∧
      RoundRobin C.tab C.D act ∧
      ∀ (N : Nat) (s : StT R) (message parity : List Int) (trials : Int), StTOk C s → At N s.wd → message.length = C.tab.K →
        parity.length = C.tab.R → (∀ x ∈ message, I8 x) → (∀ x ∈ parity, I8 x) → 0 ≤ trials →
        ∃ r n, C.decode X s message parity trials = some r ∧ StTOk C r.s ∧ At (N + n) r.s.wd ∧
          DecodedTurns C.tab C.BETA C.D act N message parity trials n r.message r.parity r.trials := by
  obtain ⟨X, wd, act, At, he, hwl, hA, hR, hd⟩ := LDPC.C51_decode C.cfg h hDR hT hF hb0 h64 srt hsrt pos0 cnc0 loc0 wd0 hp hcn hl hw
  obtain ⟨⟨X', wd'⟩, he', hXok, _⟩ := LDPC.mkDec_ok h srt hsrt pos0 cnc0 loc0 wd0 hp hcn hl hw
  rw [he] at he'
  cases he'
  refine ⟨X, wd, act, At, he, hwl, hA, hR, fun N s message parity trials hs hsw hml hpl hm hp ht => ?_⟩
  obtain ⟨r, n, e, h1, h2, h3⟩ := hd N (listSt C s) message parity trials (listSt_ok hs) hsw hml hpl ht
  obtain ⟨s', e', h4, h5⟩ := run H h (shi_lt h hXok) hs hm hp e h1
  exact ⟨_, n, e', h4, by rw [h5]; exact h2, h3⟩

/-- The constructor makes the same tables on all targets with the same word size. -/
theorem mkDec_same {C : LdpcT R} {R' : Type} {C' : LdpcT R'} (ht : C.tab = C'.tab) (hD : C.D = C'.D) (srt : List Loc → List Loc) (pos0 cnc0 : List Nat) (loc0 : List Loc) (wd0 : List Nat) :
    LDPC.mkDec C'.cfg srt pos0 cnc0 loc0 wd0 = LDPC.mkDec C.cfg srt pos0 cnc0 loc0 wd0 := by
  obtain ⟨T, rot, tab, D, BETA, junk⟩ := C
  obtain ⟨T', rot', tab', D', BETA', junk'⟩ := C'
  dsimp only at ht hD
  subst ht hD
  rfl

/-- Any two targets with the same word size return the same number and leave the same buffers and the same write disable masks: also for
tables that C50 and C51 do not cover, and whatever the registers of the two objects, the lanes not in use and uninitialised
registers hold. -/
theorem C61_same {R' : Type} (C : LdpcT R) (C' : LdpcT R') (H : COk C) (H' : COk C') (h : C.cfg.WF) (ht : C.tab = C'.tab) (hD : C.D = C'.D) (hn : C.T.n = C'.T.n) (hB : C.BETA = C'.BETA)
    (srt : List Loc → List Loc) (hsrt : IsSort srt) (pos0 cnc0 : List Nat) (loc0 : List Loc)
    (wd0 : List Nat) (hp : pos0.length = C.tab.q * C.tab.CNC) (hcn : cnc0.length = C.tab.q) (hl : loc0.length = C.cfg.LOC) (hw : wd0.length = C.cfg.PTY) :
    ∃ X wd, LDPC.mkDec C.cfg srt pos0 cnc0 loc0 wd0 = some (X, wd) ∧ LDPC.mkDec C'.cfg srt pos0 cnc0 loc0 wd0 = some (X, wd) ∧
      ∀ (s : StT R) (s' : StT R') (message parity : List Int) (trials : Int), StTOk C s → StTOk C' s' → s.wd = s'.wd →
        message.length = C.tab.K → parity.length = C.tab.R → (∀ x ∈ message, I8 x) → (∀ x ∈ parity, I8 x) → 0 ≤ trials →
        ∃ t t' message' parity' ret, C.decode X s message parity trials = some ⟨t, message', parity', ret⟩ ∧
          C'.decode X s' message parity trials = some ⟨t', message', parity', ret⟩ ∧ t.wd = t'.wd ∧ StTOk C t ∧ StTOk C' t' := by
  obtain ⟨X, wd, he, hwl, hd⟩ := LDPC.C44_decode C.cfg h srt hsrt pos0 cnc0 loc0 wd0 hp hcn hl hw
  obtain ⟨⟨X', wd'⟩, he', hXok, _⟩ := LDPC.mkDec_ok h srt hsrt pos0 cnc0 loc0 wd0 hp hcn hl hw
  rw [he] at he'
  cases he'
  refine ⟨X, wd, he, (mkDec_same ht hD ..).trans he, fun s s' message parity trials hs hs' hsw hml hpl hm hp ht0 => ?_⟩
  have hX := shi_lt h hXok
  obtain ⟨r, e, h1, _⟩ := hd (listSt C s) message parity trials (listSt_ok hs) hml hpl ht0
  obtain ⟨t, e1, h2, h3⟩ := run H h hX hs hm hp e h1
  have hcfg : C.cfg = C'.cfgJ (C.lanes C.junk) := by
    unfold LdpcT.cfg LdpcT.cfgJ
    rw [ht, hD, hn, hB]
  have h' : C'.cfg.WF := by
    have hh := h
    rw [hcfg] at hh
    exact ⟨hh.hT, hh.hD, hh.hDM, hh.hDS, hh.hLT, lanes_len C' C'.junk⟩
  obtain ⟨t', e2, h4⟩ := decode_sim H' (J := C.lanes C.junk) (by rw [lanes_len, hn]) h' (by rw [← hD]; exact hX) hs' (s' := listSt C s) (by rw [← hcfg]; exact listSt_ok hs) hsw.symm hm hp
    (by rw [← hcfg]; exact e)
  exact ⟨t, t', r.message, r.parity, r.trials, e1, e2, by rw [h3, h4.wd], h2, stRel_ok h4 (by rw [← hcfg]; exact h1)⟩

/-- The tables of the regression test satisfy what C61 asks for, on every target. -/
theorem C61_tables (BETA : Int) : ∀ T ∈ [LDPC.dvb_t2_table_a1, LDPC.dvb_t2_table_a3, LDPC.dvb_t2_table_a6, LDPC.dvb_t2_table_b7],
    (∀ junk, (ldpcPort T BETA junk).cfg.WF) ∧ (∀ junk, (ldpcSse T BETA junk).cfg.WF) ∧ (∀ junk, (ldpcAvx T BETA junk).cfg.WF) ∧
    (∀ junk, (ldpcA64 T BETA junk).cfg.WF) ∧ ∀ junk, (ldpcA32 T BETA junk).cfg.WF := by
  intro T hT
  obtain ⟨ha, hs⟩ := LDPC.C44_tables T hT
  exact ⟨fun j => ⟨hs.hT, hs.hD, hs.hDM, hs.hDS, hs.hLT, lanes_len (ldpcPort T BETA j) j⟩,
    fun j => ⟨hs.hT, hs.hD, hs.hDM, hs.hDS, hs.hLT, lanes_len (ldpcSse T BETA j) j⟩,
    fun j => ⟨ha.hT, ha.hD, ha.hDM, ha.hDS, ha.hLT, lanes_len (ldpcAvx T BETA j) j⟩,
    fun j => ⟨hs.hT, hs.hD, hs.hDM, hs.hDS, hs.hLT, lanes_len (ldpcA64 T BETA j) j⟩,
    fun j => ⟨hs.hT, hs.hD, hs.hDM, hs.hDS, hs.hLT, lanes_len (ldpcA32 T BETA j) j⟩⟩

/-- New objects, with any contents, satisfy `StTOk`. -/
example (C : LdpcT R) (b m p : R) : StTOk C ⟨List.replicate C.cfg.BNL b, List.replicate C.cfg.MSG m, List.replicate C.cfg.PTY p, List.replicate C.cfg.PTY 0⟩ :=
  ⟨by simp, by simp, by simp, by simp⟩

/-- C61_exact applies to three of the tables on SSE4.1 and NEON, C61_turns to all four there and to three on AVX2. -/
example (T : Table) (hT : T ∈ [LDPC.dvb_t2_table_a1, LDPC.dvb_t2_table_a3, LDPC.dvb_t2_table_a6]) (junk : BitVec 128) :
    (ldpcSse T 1 junk).D < T.R ∧ T.Spread (ldpcSse T 1 junk).D := (LDPC.C50_tables T hT).2
example (T : Table) (hT : T ∈ [LDPC.dvb_t2_table_a1, LDPC.dvb_t2_table_a6, LDPC.dvb_t2_table_b7]) (junk : BitVec 256) :
    (ldpcAvx T 1 junk).D < T.R ∧ T.Proper ∧ T.Fair (ldpcAvx T 1 junk).D := (LDPC.C51_tables.2 T hT).2

/-- The small code of LDPC/Props.lean, two lanes in use, on registers that start with other contents on every target. -/
def tinyT (C : LdpcT R) (message parity : List Int) : Option (List Int × List Int × Int) := do
  let x ← LDPC.mkDec C.cfg LDPC.insSort [0, 0, 0, 0] [0, 0] (List.replicate 4 ⟨0, 0⟩) [0, 0]
  let r ← C.decode x.1 ⟨List.replicate 8 C.junk, List.replicate 2 C.junk, List.replicate 2 C.junk, x.2⟩ message parity 5
  return (r.message, r.parity, r.trials)

example : tinyT ⟨sse, rotSse, LDPC.tiny, 2, 0, 0x123456789abcdef⟩ [3, -2, 9, 1] [4, 1, 5, 6] = some ([8, -2, 9, 8], [6, -2, 8, 10], 4) := by decide +kernel
example : tinyT ⟨avx, rotAvx, LDPC.tiny, 2, 0, 0xfedcba987654321⟩ [3, -2, 9, 1] [4, 1, 5, 6] = some ([8, -2, 9, 8], [6, -2, 8, 10], 4) := by decide +kernel
example : tinyT ⟨neon_a64, rotA64, LDPC.tiny, 2, 0, 77⟩ [3, -2, 9, 1] [4, 1, 5, 6] = some ([8, -2, 9, 8], [6, -2, 8, 10], 4) := by decide +kernel
example : tinyT ⟨neon_a32, rotA32, LDPC.tiny, 2, 0, 99⟩ [3, -2, 9, 1] [4, 1, 5, 6] = some ([8, -2, 9, 8], [6, -2, 8, 10], 4) := by decide +kernel

end Verif.Targets
