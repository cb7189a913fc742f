import Verif.ShortBCH.Props
/- C82 for the short BCH decoders: what they do depends on the error pattern alone, except for the
Chase algorithm. -/
namespace Verif.ShortBCH
open Finset Verif.GF2
open Verif.RS (sb)

/-- The soft values received when the same noise hits another codeword: the signs at the ones of `c`
are changed. -/
def flip (c : Nat) (code : List Int) : List Int := code.mapIdx fun i s => if c.testBit i then -s else s

/-- The result for the word with the codeword added: `-1` stays `-1`. -/
def shift (c : Nat) (r : Int) : Int := if r = -1 then -1 else ((r.toNat ^^^ c : Nat) : Int)

/-- The hard decoder. -/
theorem C82_short_bch_hard {N K G T x c : Nat} {err par : List Nat} (h : Params N K G) (hT : 1 ≤ T) (he : err.length = 2 ^ (N - K))
    (hp : par.length = 2 ^ K) (hx : x < 2 ^ N) (hc : Codeword N G c) :
    (mkDec N K G T err par >>= fun d => hard (N - K) d.1 d.2 (x ^^^ c)) =
      (mkDec N K G T err par >>= fun d => hard (N - K) d.1 d.2 x).map (shift c) := by
  obtain ⟨⟨err', par'⟩, hd, rfl, hv, ha⟩ := mkDec_ok h hT he hp
  dsimp only at hv
  rw [hd, sb, sb]
  dsimp only
  have e : syn N K G (x ^^^ c) = syn N K G x := by
    rw [syn_xor h hx hc.1, (syn_zero_iff h hc.1).2 hc.2, Nat.xor_zero]
  rw [hard_eq h hv hx, hard_eq h hv (Nat.xor_lt_two_pow hx hc.1), e, Option.map_some]
  congr 1
  unfold shift
  split
  · rw [if_neg (by omega), Int.toNat_natCast, Nat.xor_assoc, Nat.xor_assoc, Nat.xor_comm c]
  · rw [if_pos rfl]

theorem flip_getD {c : Nat} {code : List Int} {i : Nat} : (flip c code).getD i 0 = if c.testBit i then -code.getD i 0 else code.getD i 0 := by
  unfold flip
  rw [List.getD_eq_getElem?_getD, List.getElem?_mapIdx, List.getD_eq_getElem?_getD]
  cases code[i]? <;> simp

theorem corr_flip (N c x : Nat) (code : List Int) : corr N (flip c code) (x ^^^ c) = corr N code x := by
  unfold corr
  refine sum_congr rfl fun i _ => ?_
  rw [flip_getD, Nat.testBit_xor]
  cases x.testBit i <;> cases c.testBit i <;> simp

theorem Codeword.xor {N G a b : Nat} (ha : Codeword N G a) (hb : Codeword N G b) : Codeword N G (a ^^^ b) :=
  ⟨Nat.xor_lt_two_pow ha.1 hb.1, Div.xor ha.2 hb.2⟩

theorem xor_cancel (a c : Nat) : a ^^^ c ^^^ c = a := by rw [Nat.xor_assoc, Nat.xor_self, Nat.xor_zero]

theorem best_flip {N G c : Nat} {code : List Int} (hc : Codeword N G c) (x : Nat) : Best N G (flip c code) (x ^^^ c) ↔ Best N G code x := by
  constructor
  · rintro ⟨h1, h2⟩
    have hx : Codeword N G x := by rw [← xor_cancel x c]; exact h1.xor hc
    refine ⟨hx, fun y hy hne => ?_⟩
    have := h2 (y ^^^ c) (hy.xor hc) (fun hh => hne (by rw [← xor_cancel y c, hh, xor_cancel]))
    rwa [corr_flip, corr_flip] at this
  · rintro ⟨h1, h2⟩
    refine ⟨h1.xor hc, fun y hy hne => ?_⟩
    have := h2 (y ^^^ c) (hy.xor hc) (fun hh => hne (by rw [← xor_cancel y c, hh]))
    rw [← corr_flip N c, xor_cancel] at this
    rwa [corr_flip N c x]

/-- The soft decoder that searches all codewords (`K <= 4`). -/
theorem C82_short_bch_soft {N K G T c : Nat} {err par : List Nat} {code : List Int} (h : Params N K G) (hT : 1 ≤ T)
    (he : err.length = 2 ^ (N - K)) (hp : par.length = 2 ^ K) (hK : K ≤ 4) (hl : code.length = N) (hb : ∀ x ∈ code, -127 ≤ x ∧ x ≤ 127)
    (hc : Codeword N G c) :
    (mkDec N K G T err par >>= fun d => soft N K T d.1 d.2 (flip c code)) =
      (mkDec N K G T err par >>= fun d => soft N K T d.1 d.2 code).map (shift c) := by
  obtain ⟨r, hr, h1, h2⟩ := C32_maximum_likelihood (code := code) h hT he hp hK hl (fun x hx => by have := hb x hx; omega)
  obtain ⟨r', hr', h1', h2'⟩ := C32_maximum_likelihood (code := flip c code) h hT he hp hK (by unfold flip; rw [List.length_mapIdx]; exact hl)
    (fun x hx => by
      unfold flip at hx
      rw [List.mem_mapIdx] at hx
      obtain ⟨i, hi, rfl⟩ := hx
      have := hb _ (List.getElem_mem hi)
      split <;> omega)
  rw [hr, hr', Option.map_some]
  congr 1
  by_cases hr1 : r = -1
  · subst hr1
    unfold shift
    rw [if_pos rfl, h2']
    rintro ⟨y, hy⟩
    refine h2.1 rfl ⟨y ^^^ c, ?_⟩
    rw [← best_flip hc, xor_cancel]; exact hy
  · have : ∃ x, Best N G code x := by
      by_contra hn
      exact hr1 (h2.2 hn)
    obtain ⟨x, hx⟩ := this
    have e := (h1 x).2 hx
    subst e
    unfold shift
    rw [if_neg hr1, Int.toNat_natCast]
    exact (h1' _).2 ((best_flip hc x).2 hx)

/-- The Chase algorithm (`K > 4`) does not have this property: for a (9, 5) code, `T = 1`, the decoder
finds the zero codeword, but with the same noise on the codeword `110101` it returns -1.  (`best` and
`next` start at the metrics -1 and -2, and the metric of a word is the sum over its ones only, so
that a codeword with a negative metric is never taken.) -/
theorem C82_short_bch_chase_asymmetric :
    Codeword 9 0b10011 0b110101 ∧
    flip 0b110101 [-1, 9, 2, 9, 2, -5, 9, 9, 9] = [1, 9, -2, 9, -2, 5, 9, 9, 9] ∧
    (mkDec 9 5 0b10011 1 (List.replicate 16 0) (List.replicate 32 0) >>= fun d => soft 9 5 1 d.1 d.2 [-1, 9, 2, 9, 2, -5, 9, 9, 9]) = some 0 ∧
    (mkDec 9 5 0b10011 1 (List.replicate 16 0) (List.replicate 32 0) >>= fun d =>
      soft 9 5 1 d.1 d.2 (flip 0b110101 [-1, 9, 2, 9, 2, -5, 9, 9, 9])) = some (-1) := by
  refine ⟨?_, by decide +kernel, by decide +kernel, by decide +kernel⟩
  have h : Params 9 5 0b10011 := by constructor <;> norm_num
  refine ⟨by norm_num, (syn_zero_iff h (by norm_num)).1 (by decide +kernel)⟩

/-- The hypotheses are met: the Golay code with three errors, and four errors. -/
example {err par : List Nat} (he : err.length = 2 ^ 11) (hp : par.length = 2 ^ 12) (c : Nat) (hc : Codeword 23 0b101011100011 c) :
    (mkDec 23 12 0b101011100011 3 err par >>= fun d => hard 11 d.1 d.2 (0b10000000100000001000001 ^^^ c)) =
      (mkDec 23 12 0b101011100011 3 err par >>= fun d => hard 11 d.1 d.2 0b10000000100000001000001).map (shift c) :=
  C82_short_bch_hard params_golay (by norm_num) he hp (by norm_num) hc

/-- The repetition code of length 3, evaluated on both sides. -/
example : (mkDec 3 1 7 1 [9, 9, 9, 9] [9, 9] >>= fun d => soft 3 1 1 d.1 d.2 (flip 7 [-5, -4, 10])) = some 7 ∧
    (mkDec 3 1 7 1 [9, 9, 9, 9] [9, 9] >>= fun d => soft 3 1 1 d.1 d.2 [-5, -4, 10]) = some 0 ∧
    (mkDec 3 1 7 1 [9, 9, 9, 9] [9, 9] >>= fun d => soft 3 1 1 d.1 d.2 (flip 7 [-5, -5, 10])) = some (-1) := by decide +kernel

end Verif.ShortBCH
