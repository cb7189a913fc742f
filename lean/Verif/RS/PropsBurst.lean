import Verif.RS.PropsExample
import Verif.Interleave.PropsBurst
/-
Property C65 (interleave.hh with the Reed-Solomon coder): interleaved code words survive bursts.
-/
namespace Verif.RS
open Verif.GF Verif.Interleave

theorem diffPos_eq {M : Nat} (a b : List (Val M)) (h : a.length = b.length) :
    diffPos (a.map Val.v) (b.map Val.v) = differ a b := by
  unfold diffPos differ
  rw [List.length_map, ← h, max_self]
  apply Finset.filter_congr
  intro i hi
  rw [Finset.mem_range] at hi
  rw [List.getD_eq_getElem _ _ (by simpa using hi), List.getD_eq_getElem _ _ (by rw [List.length_map]; omega),
    List.getElem_map, List.getElem_map, List.getElem?_eq_getElem hi, List.getElem?_eq_getElem (by omega)]
  constructor
  · intro hne he; rw [Option.some.injEq] at he; exact hne (by rw [he])
  · intro hne he; exact hne (by rw [Val.ext' he])

/-- **C65.** `ORDER` code words of `dl + NR` symbols are interleaved and sent, and a burst hits at most `ORDER * t`
consecutive symbols, where the code corrects `t` errors.  After deinterleaving, the decoder restores every code word.
(For the fields of the tests in which the decoder's two-error shortcut is complete, see C26.) -/
theorem C65_reed_solomon {w M P : Nat} {T : Tab} {NR FCR dl : Nat} (R : Ready w M P T)
    (hf : (M = 4 ∧ P = 0b10011) ∨ (M = 7 ∧ P = 0b10001001) ∨ (M = 8 ∧ P = 0b100011101) ∨
      (M = 14 ∧ P = 0b100000000101011))
    (u : Val M) (ui : Fin (2 ^ M - 1)) (p : Params M NR FCR dl) {im : List (Val M)}
    (him : artin (tableOps w M T u ui) = some im) (ORDER : Nat) (hO : 0 < ORDER)
    (sent out air air' out' : List (Val M)) (hsent : sent.length = ORDER * (dl + NR))
    (hcw : ∀ j < ORDER, Codeword P NR FCR ((row (dl + NR) sent j).map Val.v))
    (hout : out.length = ORDER * (dl + NR)) (hout' : out'.length = ORDER * (dl + NR))
    (hair : interleave (ORDER * (dl + NR)) ORDER out sent = some air) (hlen : air'.length = ORDER * (dl + NR))
    (k t : Nat) (ht : 2 * t ≤ NR) (hwin : ∀ i ∈ differ air' air, k ≤ i ∧ i < k + ORDER * t) :
    ∃ got, deinterleave (ORDER * (dl + NR)) ORDER out' air' = some got ∧
      ∀ j < ORDER, ∃ r, decode (tableOps w M T u ui) NR FCR im ((row (dl + NR) got j).take dl)
          ((row (dl + NR) got j).drop dl) [] 0 dl = some r ∧
        r.data ++ r.parity = row (dl + NR) sent j ∧ 0 ≤ r.ret ∧ r.ret ≤ t := by
  obtain ⟨got, h1, h2, h3⟩ := C65_burst ORDER (dl + NR) hO sent out air air' out' hsent hout hout' hair hlen k
    (ORDER * t) hwin
  refine ⟨got, h1, ?_⟩
  intro j hj
  have hM : 1 < M := by omega
  have lg := row_length (dl + NR) ORDER got j hj h2
  have ls := row_length (dl + NR) ORDER sent j hj hsent
  have h3 := h3 j hj
  have hc := hcw j hj
  generalize row (dl + NR) got j = g at *
  generalize row (dl + NR) sent j = c at *
  have ht' : (ORDER * t + ORDER - 1) / ORDER = t := by
    rw [show ORDER * t + ORDER - 1 = ORDER * t + (ORDER - 1) by omega, Nat.mul_add_div hO,
      Nat.div_eq_of_lt (by omega), Nat.add_zero]
  rw [ht'] at h3
  have hb : blk (g.take dl) (g.drop dl) dl NR = g.map Val.v := by
    unfold blk
    rw [List.take_take, min_self, List.take_of_length_le (l := g.drop dl) (by simp; omega), List.take_append_drop]
  have hd : diffPos (blk (g.take dl) (g.drop dl) dl NR) (c.map Val.v) = differ g c := by
    rw [hb, diffPos_eq _ _ (by omega)]
  have call : Call (tableOps w M T u ui) NR dl im (g.take dl) (g.drop dl) [] 0 :=
    ⟨him, by simp; omega, by simp; omega, by omega, by simp, by simp, by simp⟩
  have he : erased ([] : List (Fin (2 ^ M - 1))) 0 = ∅ := by simp [erased]
  obtain ⟨r, hr, hb', hret, hl1, hl2, _, _⟩ := C24_correct R hM u ui p call (c := c.map Val.v) (by simp; omega)
    (by intro x hx; rw [List.mem_map] at hx; obtain ⟨y, _, rfl⟩ := hx; exact y.lt) hc
    (by rw [he, Finset.sdiff_empty, hd]; omega)
    (by
      apply C26_unaffected p.len _ R hf
      intro q hq
      rcases Finset.mem_union.1 hq with hq | hq
      · exact erased_lt call.inside q hq
      · rw [Finset.mem_sdiff, diffPos, Finset.mem_filter, Finset.mem_range, blk_length call.hdata call.hparity] at hq
        exact hq.1.1)
  refine ⟨r, hr, ?_, ?_, ?_⟩
  · rw [List.length_take, min_eq_left (by omega)] at hl1
    rw [List.length_drop] at hl2
    unfold blk at hb'
    rw [List.take_of_length_le (by omega), List.take_of_length_le (by omega)] at hb'
    exact List.map_injective_iff.2 (fun a b h => Val.ext' h) hb'
  · rw [hret]; exact Int.natCast_nonneg _
  · rw [hret, diff, hd]; exact_mod_cast h3

end Verif.RS

namespace Verif.RS.Example
open Verif.GF Verif.Interleave

/-- Two code words, row by row. -/
def two : List (Val 4) := data ++ sent ++ data ++ sent
/-- The channel spoils four consecutive symbols. -/
def spoil (l : List (Val 4)) : List (Val 4) := l.take 5 ++ ((l.drop 5).take 4).map (fun a => v (a.v + 1)) ++ l.drop 9

theorem spoiled : ∃ air, interleave (2 * (3 + 4)) 2 (List.replicate 14 (v 0)) two = some air ∧ (spoil air).length = 14 ∧
    (∀ i ∈ differ (spoil air) air, 5 ≤ i ∧ i < 5 + 2 * 2) ∧ (differ (spoil air) air).card = 4 := by
  decide +kernel

/-- All hypotheses of `C65_reed_solomon` are met: two words of a two error correcting code and a burst of four errors. -/
example : ∃ air got, interleave (2 * (3 + 4)) 2 (List.replicate 14 (v 0)) two = some air ∧
    deinterleave (2 * (3 + 4)) 2 (List.replicate 14 (v 0)) (spoil air) = some got ∧
    ∀ j < 2, ∃ r, decode (tableOps 8 4 T (v 5) (x 3)) 4 1 im ((row (3 + 4) got j).take 3)
      ((row (3 + 4) got j).drop 3) [] 0 3 = some r ∧ r.data ++ r.parity = row (3 + 4) two j ∧ 0 ≤ r.ret ∧ r.ret ≤ (2 : Nat) := by
  obtain ⟨air, h1, h2, h3, _⟩ := spoiled
  have hc : Codeword 0b10011 4 1 (blk data sent 3 4) := by
    rw [C23_systematic ready (by norm_num) (v 5) (x 3) params gen_ok data sent (by decide) (by rw [sent_len])]
    have h : (encode O 4 gen data sent 3) = some sent := by decide +kernel
    exact h
  have hrow : ∀ j < 2, (row (3 + 4) two j).map Val.v = blk data sent 3 4 := by decide +kernel
  obtain ⟨got, h4, h5⟩ := C65_reed_solomon ready (Or.inl ⟨rfl, rfl⟩) (v 5) (x 3) params call.built 2 (by norm_num) two
    (List.replicate 14 (v 0)) air (spoil air) (List.replicate 14 (v 0)) (by decide +kernel)
    (fun j hj => by rw [hrow j hj]; exact hc) (by simp) (by simp) h1 h2 5 2 (by norm_num) h3
  exact ⟨air, got, h1, h4, h5⟩

end Verif.RS.Example
