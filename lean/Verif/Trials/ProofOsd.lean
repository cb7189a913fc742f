import Verif.Trials.Osd
import Verif.Trials.PropsSoft
import Verif.Trials.PropsBCH
import Verif.OSD.PropsGen
import Verif.OSD.PropsList
/- The loops of the trials of tests/osd_regression_test.cc and tests/osld_regression_test.cc. -/
namespace Verif.Trials
open Verif.Polar (Fl Rounding)
open Verif.GF Verif.RS
open Verif.BCH (beBit getBe_bit setBe_bit)
open Verif.Hadamard (count)

theorem checkBits_ok {lo n : Nat} {a b : List (BitVec 8)} (ha : lo + n ≤ 8 * a.length) (hb : n ≤ 8 * b.length) (h : ∀ i, i < n → beBit a (lo + i) = beBit b i) :
    checkBits lo n a b = some () := by
  obtain ⟨r, hr, -⟩ := forUp_inv (f := fun i (_ : Unit) => do
    let x ← Bits.getBe a ((lo + i : Nat) : Int)
    let y ← Bits.getBe b (i : Int)
    assertUB (x = y)) (fun _ _ => True) (Nat.zero_le n) (s := ()) trivial (by
      intro k s _ hk _
      rw [getBe_bit (by omega), sb, getBe_bit (by omega), sb]
      unfold assertUB
      rw [if_pos (h k hk)]
      exact ⟨(), rfl, trivial⟩)
  exact hr

theorem unequal_eq {lo n : Nat} {a b : List (BitVec 8)} (ha : lo + n ≤ 8 * a.length) (hb : n ≤ 8 * b.length) :
    unequal lo n a b = some (count n fun i => beBit a (lo + i) ≠ beBit b i) := by
  apply forUp_count
  intro i cnt hi
  rw [getBe_bit (by omega), sb, getBe_bit (by omega), sb]
  rfl

/-- The symbol sent for a bit. -/
def sign (b : Bool) : Int := if b then -1 else 1

theorem sign_pm (b : Bool) : sign b = 1 ∨ sign b = -1 := by cases b <;> simp [sign]

theorem bpskBits_eq {N : Nat} {codeword : List (BitVec 8)} {orig : List Int} (hc : N ≤ 8 * codeword.length) (ho : orig.length = N) :
    bpskBits N codeword orig = some ((List.range N).map fun i => sign (beBit codeword i)) := by
  unfold bpskBits
  rw [forUp_write (v := fun i => sign (beBit codeword i)) ho (by
    intro i o hi ho _
    rw [getBe_bit (by omega), sb, wr_of_lt (by omega)]
    cases beBit codeword i <;> rfl)]

theorem osdJudge_eq {N : Nat} {unique : Bool} {decoded codeword : List (BitVec 8)} (hd : N ≤ 8 * decoded.length) (hc : N ≤ 8 * codeword.length) :
    osdJudge N unique decoded codeword = some (count N fun i => beBit decoded i ≠ beBit codeword i, if unique then 0 else N,
      if unique = true ∧ ∀ i, i < N → beBit decoded i = beBit codeword i then 0 else 1) := by
  have e := unequal_eq (lo := 0) (n := N) (a := decoded) (b := codeword) (by omega) hc
  simp only [Nat.zero_add] at e
  unfold osdJudge
  rw [e, sb]
  cases unique
  · simp
  · obtain ⟨r, hr, h⟩ := forUp_inv (f := fun i (error : Bool) => do
      let x ← Bits.getBe decoded (i : Int)
      let y ← Bits.getBe codeword (i : Int)
      return error || x != y) (fun k (error : Bool) => error = true ↔ ∃ i, i < k ∧ beBit decoded i ≠ beBit codeword i) (Nat.zero_le N) (s := false) (by simp) (by
        intro k s _ hk hs
        rw [getBe_bit (by omega), sb, getBe_bit (by omega), sb]
        refine ⟨_, rfl, ?_⟩
        dsimp only
        rw [Bool.or_eq_true, hs, bne_iff_ne]
        constructor
        · rintro (⟨i, hi, h⟩ | h)
          · exact ⟨i, by omega, h⟩
          · exact ⟨k, by omega, h⟩
        · rintro ⟨i, hi, h⟩
          rcases Nat.lt_succ_iff_lt_or_eq.mp hi with hi | rfl
          · exact Or.inl ⟨i, hi, h⟩
          · exact Or.inr h)
    simp only [if_true, true_and]
    rw [hr, sb]
    refine congrArg some ?_
    refine Prod.ext rfl (Prod.ext rfl ?_)
    dsimp only
    by_cases hh : ∀ i, i < N → beBit decoded i = beBit codeword i
    · rw [if_pos hh, if_neg]
      rw [h]
      rintro ⟨i, hi, hne⟩
      exact hne (hh i hi)
    · rw [if_neg hh, if_pos]
      rw [h]
      push Not at hh
      exact hh

theorem harden_ok {lo n : Nat} {noisy : List Int} {buf : List (BitVec 8)} (hn : lo + n ≤ noisy.length) (hb : n ≤ 8 * buf.length) :
    ∃ b', harden lo n noisy buf = some b' ∧ b'.length = buf.length ∧ (∀ i, i < n → beBit b' i = decide (noisy.getD (lo + i) 0 < 0)) := by
  obtain ⟨r, hr, h1, h2⟩ := forUp_inv (f := fun i (buf : List (BitVec 8)) => do
    let s ← rd noisy (lo + i)
    Bits.setBe buf (i : Int) (decide (s < 0))) (fun k (b : List (BitVec 8)) => b.length = buf.length ∧ ∀ i, i < k → beBit b i = decide (noisy.getD (lo + i) 0 < 0)) (Nat.zero_le n)
    (s := buf) ⟨rfl, fun i hi => absurd hi (by omega)⟩ (by
      rintro k s - hk ⟨h1, h2⟩
      rw [rd_getD (d := 0) (by omega), sb]
      obtain ⟨b', e1, e2, e3⟩ := setBe_bit (buf := s) (i := k) (decide (noisy.getD (lo + k) 0 < 0)) (by omega)
      refine ⟨b', e1, e2.trans h1, fun i hi => ?_⟩
      rw [e3 i (by omega)]
      split
      · rename_i h; rw [h]
      · exact h2 i (by omega))
  exact ⟨r, hr, h1, h2⟩

/-- The positions of the first `NR` zeros. -/
def zeros (N NR : Nat) (noisy : List Int) : List Nat := ((List.range N).filter fun i => noisy.getD i 0 = 0).take NR

theorem findErasures_ok {w N NR : Nat} {noisy : List Int} {erasures : List Nat} (hn : noisy.length = N) (he : NR ≤ erasures.length) (hw : N ≤ 2 ^ w) :
    ∃ l, findErasures w N NR noisy erasures = some (l, (zeros N NR noisy).length) ∧ l.take (zeros N NR noisy).length = zeros N NR noisy := by
  obtain ⟨r, hr, h1, h2, h3⟩ := forUp_inv (f := fun i (s : List Nat × Nat) =>
    if s.2 < NR then do
      let x ← rd noisy i
      if x = 0 then do
        let erasures ← wr s.1 s.2 (i % 2 ^ w)
        return (erasures, s.2 + 1)
      else some s
    else some s) (fun k (s : List Nat × Nat) => s.1.length = erasures.length ∧ s.2 = (zeros k NR noisy).length ∧ s.1.take s.2 = zeros k NR noisy) (Nat.zero_le N)
    (s := (erasures, 0)) ⟨rfl, by simp [zeros], by simp [zeros]⟩ (by
      rintro k ⟨l, c⟩ - hk ⟨h1, h2, h3⟩
      dsimp only at h1 h2 h3 ⊢
      have hle : (zeros k NR noisy).length ≤ NR := by unfold zeros; rw [List.length_take]; omega
      have hsucc : zeros (k + 1) NR noisy = (((List.range k).filter fun i => noisy.getD i 0 = 0) ++ if noisy.getD k 0 = 0 then [k] else []).take NR := by
        unfold zeros
        rw [List.range_succ, List.filter_append]
        congr 2
        by_cases hz : noisy.getD k 0 = 0
        · rw [if_pos hz, List.filter_cons_of_pos (by simpa using hz), List.filter_nil]
        · rw [if_neg hz, List.filter_cons_of_neg (by simpa using hz), List.filter_nil]
      by_cases hc : c < NR
      · have hfull : zeros k NR noisy = (List.range k).filter fun i => noisy.getD i 0 = 0 := by
          unfold zeros at h2 ⊢
          rw [List.length_take] at h2
          exact List.take_of_length_le (by omega)
        have hlen : ((List.range k).filter fun i => noisy.getD i 0 = 0).length = c := by rw [← hfull, ← h2]
        rw [if_pos hc, rd_getD (d := 0) (by omega), sb]
        by_cases hz : noisy.getD k 0 = 0
        · rw [if_pos hz] at hsucc
          have hs : zeros (k + 1) NR noisy = zeros k NR noisy ++ [k] := by
            rw [hsucc, List.take_of_length_le (by rw [List.length_append, hlen, List.length_singleton]; omega), ← hfull]
          rw [if_pos hz, wr_of_lt (by omega), sb]
          refine ⟨_, rfl, ?_, ?_, ?_⟩
          · dsimp only; rw [List.length_set]; exact h1
          · dsimp only; rw [hs, List.length_append, List.length_singleton, ← h2]
          · dsimp only
            rw [hs, ← h3, Nat.mod_eq_of_lt (by omega)]
            refine List.ext_getElem (by simp; omega) fun j j1 j2 => ?_
            rw [List.getElem_take, List.getElem_set]
            simp only [List.length_append, List.length_take, List.length_singleton] at j2
            by_cases hj : c = j
            · subst hj
              rw [if_pos rfl, List.getElem_append_right (by simp)]
              simp
            · rw [if_neg hj, List.getElem_append_left (by rw [List.length_take]; omega), List.getElem_take]
        · rw [if_neg hz, List.append_nil] at hsucc
          have hs : zeros (k + 1) NR noisy = zeros k NR noisy := hsucc
          rw [if_neg hz]
          exact ⟨_, rfl, h1, by rw [hs]; exact h2, by rw [hs]; exact h3⟩
      · have hs : zeros (k + 1) NR noisy = zeros k NR noisy := by
          rw [hsucc, List.take_append_of_le_length]
          · rfl
          · unfold zeros at h2
            rw [List.length_take] at h2
            omega
        rw [if_neg hc]
        exact ⟨_, rfl, h1, by rw [hs]; exact h2, by rw [hs]; exact h3⟩)
  obtain ⟨l, c⟩ := r
  dsimp only at h2 h3
  subst h2
  exact ⟨l, hr, h3⟩

/-- Word `j` of the list is the codeword. -/
def Listed (N : Nat) (decoded codeword : List (BitVec 8)) (j : Nat) : Prop := ∀ i, i < N → beBit decoded (8 * ((N + 7) / 8 * j) + i) = beBit codeword i

theorem found_ok {N lo : Nat} {decoded codeword : List (BitVec 8)} (hd : lo + N ≤ 8 * decoded.length) (hc : N ≤ 8 * codeword.length) :
    ∃ r, forUp 0 N true (fun i (found : Bool) => do
        let x ← Bits.getBe decoded ((lo + i : Nat) : Int)
        let y ← Bits.getBe codeword (i : Int)
        return found && x == y) = some r ∧ (r = true ↔ ∀ i, i < N → beBit decoded (lo + i) = beBit codeword i) :=
  forUp_inv (fun k (found : Bool) => found = true ↔ ∀ i, i < k → beBit decoded (lo + i) = beBit codeword i) (Nat.zero_le N) (by simp) (by
    intro k s _ hk hs
    rw [getBe_bit (by omega), sb, getBe_bit (by omega), sb]
    refine ⟨_, rfl, ?_⟩
    dsimp only
    rw [Bool.and_eq_true, hs, beq_iff_eq]
    constructor
    · rintro ⟨h1, h2⟩ i hi
      rcases Nat.lt_succ_iff_lt_or_eq.mp hi with hi | rfl
      · exact h1 i hi
      · exact h2
    · intro h
      exact ⟨fun i hi => h i (by omega), h k (by omega)⟩)

/-- The copy of the word to the front. -/
theorem copy_front {NW lo : Nat} {d : List (BitVec 8)} (h : lo + NW ≤ d.length) (hlo : NW ≤ lo) :
    ∃ d', forUp 0 NW d (fun i (d : List (BitVec 8)) => do
        let x ← rd d (lo + i)
        wr d i x) = some d' ∧ d'.length = d.length ∧ ∀ i, i < NW → d'.getD i 0 = d.getD (lo + i) 0 := by
  obtain ⟨d', e, e1, e2, -⟩ := forUp_inv (f := fun i (d : List (BitVec 8)) => do
        let x ← rd d (lo + i)
        wr d i x) (fun k (e : List (BitVec 8)) => e.length = d.length ∧ (∀ i, i < k → e.getD i 0 = d.getD (lo + i) 0) ∧ ∀ i, k ≤ i → e.getD i 0 = d.getD i 0) (Nat.zero_le NW)
    (s := d) ⟨rfl, fun i hi => absurd hi (by omega), fun _ _ => rfl⟩ (by
      rintro k e - hk ⟨h1, h2, h3⟩
      rw [rd_getD (d := 0) (by omega), sb, wr_of_lt (by omega)]
      refine ⟨_, rfl, by rw [List.length_set]; exact h1, fun i hi => ?_, fun i hi => ?_⟩
      · rw [List.getD_eq_getElem?_getD, List.getElem?_set]
        by_cases hik : k = i
        · subst hik
          rw [if_pos rfl, if_pos (by omega), Option.getD_some, h3 _ (by omega)]
        · rw [if_neg hik, ← List.getD_eq_getElem?_getD]
          exact h2 i (by omega)
      · rw [List.getD_eq_getElem?_getD, List.getElem?_set, if_neg (by omega), ← List.getD_eq_getElem?_getD]
        exact h3 i (by omega))
  exact ⟨d', e, e1, e2⟩

theorem beBit_front {NW lo i : Nat} {d d' : List (BitVec 8)} (h : ∀ i, i < NW → d'.getD i 0 = d.getD (lo + i) 0) (hi : i < 8 * NW) : beBit d' i = beBit d (8 * lo + i) := by
  unfold beBit
  rw [h (i / 8) (by omega), show (8 * lo + i) / 8 = lo + i / 8 by omega, show (8 * lo + i) % 8 = i % 8 by omega]

/-- The oracle: if the codeword is in the list, it comes first and counts as unique; otherwise nothing changes. -/
theorem askOracle_ok {N L : Nat} {codeword decoded : List (BitVec 8)} {unique : Bool} (hc : N ≤ 8 * codeword.length) (hd : (N + 7) / 8 * L ≤ decoded.length) :
    ∃ u d, askOracle N L codeword unique decoded = some (u, d) ∧ d.length = decoded.length ∧
      ((∃ j, j < L ∧ Listed N decoded codeword j) → u = true ∧ ∀ i, i < N → beBit d i = beBit codeword i) ∧
      (¬ (∃ j, j < L ∧ Listed N decoded codeword j) → u = unique ∧ d = decoded) := by
  obtain ⟨r, hr, h1, h2⟩ := forUp_inv (f := fun j (s : Bool × Bool × List (BitVec 8)) =>
    if s.1 then some s
    else do
      let found ← forUp 0 N true fun i found => do
        let x ← Bits.getBe s.2.2 ((8 * ((N + 7) / 8 * j) + i : Nat) : Int)
        let y ← Bits.getBe codeword (i : Int)
        return found && x == y
      if found then do
        let d ← forUp 0 (if j = 0 then 0 else (N + 7) / 8) s.2.2 fun i d => do
          let x ← rd d ((N + 7) / 8 * j + i)
          wr d i x
        return (true, true, d)
      else some s)
    (fun k (s : Bool × Bool × List (BitVec 8)) =>
      (s.1 = true → (∃ j, j < k ∧ Listed N decoded codeword j) ∧ s.2.1 = true ∧ s.2.2.length = decoded.length ∧ ∀ i, i < N → beBit s.2.2 i = beBit codeword i) ∧
      (s.1 = false → (¬ ∃ j, j < k ∧ Listed N decoded codeword j) ∧ s.2 = (unique, decoded))) (Nat.zero_le L)
    (s := (false, unique, decoded)) ⟨fun h => absurd h (by simp), fun _ => ⟨by rintro ⟨j, hj, -⟩; omega, rfl⟩⟩ (by
      rintro k ⟨b, u, d⟩ - hk ⟨h1, h2⟩
      dsimp only at h1 h2 ⊢
      cases b
      · obtain ⟨h3, h4⟩ := h2 rfl
        injection h4 with h4 h5
        subst h4 h5
        have hNW : (N + 7) / 8 * k + (N + 7) / 8 ≤ d.length := by
          have : (N + 7) / 8 * (k + 1) ≤ (N + 7) / 8 * L := Nat.mul_le_mul_left _ hk
          rw [Nat.mul_succ] at this
          omega
        obtain ⟨r, e1, e2⟩ := found_ok (N := N) (lo := 8 * ((N + 7) / 8 * k)) (decoded := d) (codeword := codeword) (by omega) hc
        simp only [Bool.false_eq_true, if_false]
        rw [e1, sb]
        cases r
        · simp only [Bool.false_eq_true, if_false]
          refine ⟨_, rfl, fun h => absurd h (by simp), fun _ => ⟨?_, rfl⟩⟩
          rintro ⟨j, hj, hl⟩
          rcases Nat.lt_succ_iff_lt_or_eq.mp hj with hj | rfl
          · exact h3 ⟨j, hj, hl⟩
          · exact absurd (e2.2 hl) (by simp)
        · simp only [if_true]
          have hl : Listed N d codeword k := e2.1 rfl
          by_cases hk0 : k = 0
          · subst hk0
            simp only [if_true]
            refine ⟨(true, true, d), rfl, fun _ => ⟨⟨0, by omega, hl⟩, rfl, rfl, fun i hi => ?_⟩, fun h => absurd h (by simp)⟩
            have := hl i hi
            simpa using this
          · have hge : (N + 7) / 8 ≤ (N + 7) / 8 * k := Nat.le_mul_of_pos_right _ (by omega)
            obtain ⟨d', f1, f2, f3⟩ := copy_front (d := d) hNW hge
            rw [if_neg hk0, f1, sb]
            refine ⟨_, rfl, fun _ => ⟨⟨k, by omega, hl⟩, rfl, f2, fun i hi => ?_⟩, fun h => absurd h (by simp)⟩
            dsimp only
            rw [beBit_front f3 (by omega)]
            exact hl i hi
      · obtain ⟨⟨j, hj, hl⟩, h3⟩ := h1 rfl
        exact ⟨_, rfl, fun _ => ⟨⟨j, by omega, hl⟩, h3⟩, fun h => absurd h (by simp)⟩)
  obtain ⟨b, u, d⟩ := r
  dsimp only at h1 h2
  refine ⟨u, d, ?_, ?_, fun hex => ?_, fun hn => ?_⟩
  · unfold askOracle
    dsimp only
    rw [hr, sb]
    rfl
  · cases b
    · obtain ⟨-, h⟩ := h2 rfl
      injection h with _ h
      rw [h]
    · exact (h1 rfl).2.2.1
  · cases b
    · exact absurd hex (h2 rfl).1
    · exact ⟨(h1 rfl).2.1, (h1 rfl).2.2.2⟩
  · cases b
    · obtain ⟨-, h⟩ := h2 rfl
      injection h with h h'
      exact ⟨h, h'⟩
    · exact absurd (h1 rfl).1 hn

end Verif.Trials
