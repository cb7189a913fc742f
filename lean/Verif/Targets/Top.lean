import Verif.Targets.Par
import Verif.Polar.PropsScl
/- The whole decoders on the registers of a target. -/
namespace Verif.Targets
open Verif.SIMD Verif.Polar
open Verif.PolarHelper (I8)
open Verif.RS (sb)
variable {R : Type} {T : Target R}

theorem list_sim (h : T.Ok) (MAX_M : Nat) (soft hard maps : List R) (metric : List Int) (rank : Option (List Nat)) (message : List R) (codeword : List Int)
    (frozen : List Nat) (level : Nat)
    (hc : ListCall T.n MAX_M (soft.map T.reg) (hard.map T.reg) (maps.map T.map) metric rank (message.map T.reg) codeword frozen level)
    {rank' : Option (List Nat)} {msg' : List (Reg T.n)} {metric' : List Int}
    (hd : Polar.listDecode MAX_M (soft.map T.reg) (hard.map T.reg) (maps.map T.map) metric rank (message.map T.reg) codeword frozen level = some (rank', msg', metric')) :
    ∃ message', T.listDecode MAX_M soft hard maps metric rank message codeword frozen level = some (rank', message', metric') ∧ message'.map T.reg = msg' := by
  obtain ⟨⟨hL, hL'⟩, g1, g2, g3, g4, g5, g6, g7, g8, g9, g10, g11, g12, g13, g14⟩ := hc
  haveI : NeZero T.n := ⟨by omega⟩
  have hp : (2 : Nat) ^ level ≤ 2 ^ MAX_M := Nat.pow_le_pow_right (by omega) g3
  have hKle : freeBelow frozen (2 ^ level) ≤ 2 ^ level := by
    rw [← cnt_fbits]
    exact (List.length_filter_le _ _).trans (by simp [fbits])
  unfold Polar.listDecode at hd
  rw [show assertUB (level ≤ MAX_M) = some () from if_pos g3, sb] at hd
  obtain ⟨m0, em0, m1, m2, m3⟩ := metric0_ok (by omega) g7
  obtain ⟨a, ea, a1, a2⟩ := dupLoop_ok (L := T.n) (level := level) (soft := soft.map T.reg) (by omega) g9
  obtain ⟨b, eb, b1, b2⟩ := dupLoopT_ok (T := T) (level := level) (codeword := codeword) (soft := soft) T.ph.one (by rw [List.length_map] at g4; omega) g9
  rw [em0, sb, ea, sb] at hd
  have hsl : ((codeword.take (2 ^ level)).map fun v (_ : Fin T.n) => v).length = 2 ^ level := by simp [g9]
  have hsl' : ((codeword.take (2 ^ level)).map fun v => T.O.vdup (BitVec.ofInt 8 v)).length = 2 ^ level := by simp [g9]
  obtain ⟨r, er⟩ := top_tree (listLfOk hL' (message.map T.reg) (2 ^ MAX_M)) g2 (by omega) g13 g9 g10 (x := ⟨m0, message.map T.reg, maps.map T.map, 0⟩) (by
    refine ⟨⟨m1, fun k hk => ?_⟩, rfl, fun _ _ => rfl, g6, ?_, ?_, fun i hi => absurd hi (Nat.not_lt_zero i)⟩
    · show 0 ≤ m0.getD k 0 ∧ m0.getD k 0 ≤ 1000000
      rcases Nat.eq_zero_or_pos k with rfl | hk0
      · rw [m2]; omega
      · rw [m3 k hk0 hk]; omega
    · show 0 + freeBelow frozen (2 ^ level) ≤ (message.map T.reg).length
      omega
    · show 0 + freeBelow frozen (2 ^ level) ≤ 2 ^ MAX_M
      omega)
  obtain ⟨q, eq, ⟨q1, q2, q3, q4, q5, q6⟩, -, -⟩ := tree_sim (listSim h hL hL') level (fbits frozen 0 (2 ^ level)) ⟨m0, message, maps, 0⟩ ⟨m0, message.map T.reg, maps.map T.map, 0⟩ _ _ r
    ⟨rfl, rfl, rfl, rfl, m1, ⟨Nat.zero_le _, fun i hi => absurd hi (Nat.not_lt_zero i)⟩⟩ (soft_rel h g10 g9) er
  obtain ⟨t, et, t1, -⟩ := treeTop_ok (listAgree 0) g12 g2 (show level ≤ 16 by omega) g11 (m := ⟨⟨m0, message.map T.reg, maps.map T.map, 0⟩, hard.map T.reg, a⟩) hsl a2 (by dsimp only; omega) er
  obtain ⟨t', et', t1', -⟩ := treeTop_ok (listAgreeT T.ph.one) g12 g2 (show level ≤ 16 by omega) g11 (m := ⟨⟨m0, message, maps, 0⟩, hard, b⟩) hsl' b2
    (by rw [List.length_map] at g5; dsimp only; omega) eq
  rw [et, sb, t1] at hd
  obtain ⟨rk, erk, hd⟩ := bind_some hd
  obtain ⟨ms, ems, hd⟩ := bind_some hd
  cases hd
  have hcnt : 0 < r.1.count := by
    obtain ⟨t2, r2, U, et2, t3, -, run⟩ := top_run (A := listLf T.n (message.map T.reg) (2 ^ MAX_M)) (listLfOk hL' (message.map T.reg) (2 ^ MAX_M)) (listAgree 0) g12 g2 (by omega)
      g11 g13 g9 g10 (m := ⟨⟨m0, message.map T.reg, maps.map T.map, 0⟩, hard.map T.reg, a⟩) a2 (by dsimp only; omega) (by
        refine ⟨⟨m1, fun k hk => ?_⟩, rfl, fun _ _ => rfl, g6, ?_, ?_, fun i hi => absurd hi (Nat.not_lt_zero i)⟩
        · show 0 ≤ m0.getD k 0 ∧ m0.getD k 0 ≤ 1000000
          rcases Nat.eq_zero_or_pos k with rfl | hk0
          · rw [m2]; omega
          · rw [m3 k hk0 hk]; omega
        · show 0 + freeBelow frozen (2 ^ level) ≤ (message.map T.reg).length
          omega
        · show 0 + freeBelow frozen (2 ^ level) ≤ 2 ^ MAX_M
          omega)
    rw [et] at et2
    cases et2
    rw [← t1, t3]
    have he : ∀ n c, (listLf T.n (message.map T.reg) (2 ^ MAX_M)).step^[n] c = c + n := by
      intro n
      induction n with
      | zero => intro c; rfl
      | succ n ih => intro c; rw [Function.iterate_succ_apply, ih]; show c + 1 + n = _; omega
    have := run.ctl
    rw [he, cnt_fbits] at this
    change r2.1.count = 0 + _ at this
    omega
  rw [← q2, ← q3] at ems
  obtain ⟨out, eo, ho⟩ := backLoopT_ok h hcnt (q3.symm ▸ q6) ems
  refine ⟨out, ?_, ho⟩
  unfold Target.listDecode
  rw [show assertUB (level ≤ MAX_M) = some () from if_pos g3, sb, em0, sb, eb, sb, et', sb, t1', q1, erk, sb, q4, eo, sb]
  rfl

theorem par_sim (h : T.Ok) (MAX_M : Nat) (soft hard maps : List R) (metric : List Int) (rank : Option (List Nat)) (message : List R) (codeword : List Int)
    (frozen : List Nat) (level stride first : Nat)
    (hc : ParCall T.n MAX_M (soft.map T.reg) (hard.map T.reg) (maps.map T.map) metric rank (message.map T.reg) codeword frozen level stride first)
    {rank' : Option (List Nat)} {msg' : List (Reg T.n)} {metric' : List Int}
    (hd : Polar.parDecode MAX_M (soft.map T.reg) (hard.map T.reg) (maps.map T.map) metric rank (message.map T.reg) codeword frozen level stride first = some (rank', msg', metric')) :
    ∃ message', T.parDecode MAX_M soft hard maps metric rank message codeword frozen level stride first = some (rank', message', metric') ∧ message'.map T.reg = msg' := by
  obtain ⟨⟨hL, hL'⟩, g1, g2, g3, g4, g5, g6, g7, g8, g9, g10, g11, g12, g13, gf, g14⟩ := hc
  haveI : NeZero T.n := ⟨by omega⟩
  have hp : (2 : Nat) ^ level ≤ 2 ^ MAX_M := Nat.pow_le_pow_right (by omega) g3
  set F := freeBelow frozen (2 ^ level) with hF
  have hFle : F ≤ 2 ^ level := by
    rw [hF, ← cnt_fbits]
    exact (List.length_filter_le _ _).trans (by simp [fbits])
  have hKle : dataBelow first stride F ≤ F := dataBelow_le _ _ _
  have hKpos : 1 ≤ dataBelow first stride F := dataBelow_pos gf g13
  unfold Polar.parDecode at hd
  rw [show assertUB (level ≤ MAX_M) = some () from if_pos g3, sb] at hd
  obtain ⟨m0, em0, m1, m2, m3⟩ := metric0_ok (by omega) g7
  obtain ⟨a, ea, a1, a2⟩ := dupLoop_ok (L := T.n) (level := level) (soft := soft.map T.reg) (by omega) g9
  obtain ⟨b, eb, b1, b2⟩ := dupLoopT_ok (T := T) (level := level) (codeword := codeword) (soft := soft) T.ph.one (by rw [List.length_map] at g4; omega) g9
  rw [em0, sb, ea, sb] at hd
  have hsl : ((codeword.take (2 ^ level)).map fun v (_ : Fin T.n) => v).length = 2 ^ level := by simp [g9]
  have hsl' : ((codeword.take (2 ^ level)).map fun v => T.O.vdup (BitVec.ofInt 8 v)).length = 2 ^ level := by simp [g9]
  have hc0 : cAt first stride 0 = first := by rw [cAt, if_pos (by omega)]; omega
  have hneed : need stride first F = dataBelow first stride F := by
    have := need_eq first stride F 0
    rw [dataBelow_zero, hc0, Nat.zero_add, Nat.zero_add] at this
    exact this
  have hinv : (parLf T.n stride (message.map T.reg) (2 ^ MAX_M)).Inv F 1000000 ⟨m0, message.map T.reg, maps.map T.map, 0, (phV T.n).one, first⟩ := by
    refine ⟨le_rfl, ⟨m1, fun k hk => ?_⟩, rfl, fun _ _ => rfl, g6, ?_, ?_, fun i hi => absurd hi (Nat.not_lt_zero i), Or.inr gf⟩
    · show 0 ≤ m0.getD k 0 ∧ m0.getD k 0 ≤ 1000000
      rcases Nat.eq_zero_or_pos k with rfl | hk0
      · rw [m2]; omega
      · rw [m3 k hk0 hk]; omega
    · show 0 + need stride first F ≤ (message.map T.reg).length
      omega
    · show 0 + need stride first F ≤ 2 ^ MAX_M
      omega
  obtain ⟨r, er⟩ := top_tree (parLfOk stride hL' (message.map T.reg) (2 ^ MAX_M)) g2 (by omega) g13 g9 g10 hinv
  obtain ⟨q, eq, ⟨q1, q2, q3, q4, -, -, q5, q6⟩, -, -⟩ := tree_sim (parSim h hL hL' stride) level (fbits frozen 0 (2 ^ level)) ⟨m0, message, maps, 0, T.ph.one, first⟩
    ⟨m0, message.map T.reg, maps.map T.map, 0, (phV T.n).one, first⟩ _ _ r
    ⟨rfl, rfl, rfl, rfl, ⟨reg_one h, fun k => Or.inl rfl⟩, rfl, m1, ⟨Nat.zero_le _, fun i hi => absurd hi (Nat.not_lt_zero i)⟩⟩ (soft_rel h g10 g9) er
  obtain ⟨t, et, t1, -⟩ := treeTop_ok (parAgree stride 0) g12 g2 (show level ≤ 16 by omega) g11 (m := ⟨⟨m0, message.map T.reg, maps.map T.map, 0, (phV T.n).one, first⟩, hard.map T.reg, a⟩) hsl a2
    (by dsimp only; omega) er
  obtain ⟨t', et', t1', -⟩ := treeTop_ok (parAgreeT stride T.ph.one) g12 g2 (show level ≤ 16 by omega) g11 (m := ⟨⟨m0, message, maps, 0, T.ph.one, first⟩, hard, b⟩) hsl' b2
    (by rw [List.length_map] at g5; dsimp only; omega) eq
  rw [et, sb, t1] at hd
  obtain ⟨rk, erk, hd⟩ := bind_some hd
  obtain ⟨ms, ems, hd⟩ := bind_some hd
  cases hd
  have hcnt : 0 < r.1.index := by
    obtain ⟨t2, r2, U, et2, t3, -, run⟩ := top_run (A := parLf T.n stride (message.map T.reg) (2 ^ MAX_M)) (parLfOk stride hL' (message.map T.reg) (2 ^ MAX_M)) (parAgree stride 0) g12 g2 (by omega)
      g11 g13 g9 g10 (m := ⟨⟨m0, message.map T.reg, maps.map T.map, 0, (phV T.n).one, first⟩, hard.map T.reg, a⟩) a2 (by dsimp only; omega) hinv
    rw [et] at et2
    cases et2
    rw [← t1, t3]
    have := run.ctl
    have hc : (parLf T.n stride (message.map T.reg) (2 ^ MAX_M)).ctl ⟨m0, message.map T.reg, maps.map T.map, 0, (phV T.n).one, first⟩ = (dataBelow first stride 0, cAt first stride 0) := by
      rw [hc0]; rfl
    rw [hc, step_iter, cnt_fbits, Nat.zero_add] at this
    have := congrArg Prod.fst this
    change r2.1.index = dataBelow first stride F at this
    omega
  rw [← q2, ← q3] at ems
  obtain ⟨out, eo, ho⟩ := backLoopT_ok h hcnt (q3.symm ▸ q6) ems
  refine ⟨out, ?_, ho⟩
  unfold Target.parDecode
  rw [show assertUB (level ≤ MAX_M) = some () from if_pos g3, sb, em0, sb, eb, sb, et', sb, t1', q1, erk, sb, q4, eo, sb]
  rfl

end Verif.Targets
