import Verif.ShortBCH.Proof
import Mathlib.Algebra.Order.BigOperators.Group.Finset
import Mathlib.Tactic.Ring
import Mathlib.Data.Int.Interval
set_option linter.unusedSectionVars false
/- The soft decoder. -/
namespace Verif.ShortBCH
open Finset Verif.GF2
open Verif.RS (sb)

theorem chk_ok {x : Int} (h : |x| < 2 ^ 31) : chk x = some x := by
  unfold chk; rw [abs_lt] at h; rw [if_pos (by omega)]

/-- Soft values of the right number and range. -/
structure SoftIn (N : Nat) (code : List Int) : Prop where
  len : code.length = N
  bound : ∀ x ∈ code, -128 ≤ x ∧ x ≤ 127

theorem SoftIn.getD {N : Nat} {code : List Int} (h : SoftIn N code) (i : Nat) : -128 ≤ code.getD i 0 ∧ code.getD i 0 ≤ 127 := by
  by_cases hi : i < code.length
  · have := h.bound _ (List.getElem_mem hi)
    rwa [getElem_eq_getD _ 0] at this
  · rw [List.getD_eq_default _ _ (by omega)]; omega

theorem sign_ok {N : Nat} {code : List Int} (h : code.length = N) :
    Ok (sign N code) (fun cw => cw < 2 ^ N ∧ ∀ i, i < N → cw.testBit i = decide (code.getD i 0 < 0)) := by
  unfold sign
  refine Ok.mono (forUp_inv (fun k cw => cw < 2 ^ k ∧ ∀ i, i < k → cw.testBit i = decide (code.getD i 0 < 0))
    (Nat.zero_le _) ⟨by norm_num, by omega⟩ ?_) (fun _ h => h)
  rintro k cw _ hk ⟨h1, h2⟩
  rw [rd_of_lt (by omega), sb, getElem_eq_getD _ 0]
  have hb : ((if code.getD k 0 < 0 then 1 else 0) <<< k : Nat) < 2 ^ (k + 1) := by
    split
    · rw [Nat.one_shiftLeft]; exact Nat.pow_lt_pow_right (by norm_num) (by omega)
    · rw [Nat.zero_shiftLeft]; positivity
  refine Ok.pure ⟨Nat.or_lt_two_pow (lt_of_lt_of_le h1 (Nat.pow_le_pow_right (by norm_num) (by omega))) hb, fun i hi => ?_⟩
  rw [Nat.testBit_or, Nat.testBit_shiftLeft]
  by_cases hik : i = k
  · subst hik
    rw [Nat.testBit_eq_false_of_lt h1]
    clear hb
    generalize code.getD i 0 = y
    by_cases hc : y < 0
    · simp [hc]
    · simp [hc]
  · rw [h2 i (by omega)]
    simp [show ¬ k ≤ i by omega]

/-- The metric of a word. -/
def met (N : Nat) (code : List Int) (x : Nat) : Int := ∑ i ∈ range N, if x.testBit i then -code.getD i 0 else 0

/-- The metric of a result. -/
def metI (N : Nat) (code : List Int) (x : Int) : Int := if x < 0 then -1 else met N code x.toNat

theorem metric_eq {N : Nat} {code : List Int} (h : SoftIn N code) (hN : N ≤ 31) (x : Int) : metric N code x = some (metI N code x) := by
  unfold metric metI
  split
  · rfl
  · refine Ok.eq_some.1 ?_
    refine Ok.mono (forUp_inv (fun k (s : Int) => s = (∑ i ∈ range k, if x.toNat.testBit i then -code.getD i 0 else 0) ∧ |s| ≤ 128 * k)
      (Nat.zero_le _) ⟨by simp, by simp⟩ ?_) (fun s hs => hs.1)
    rintro k s _ hk ⟨h1, h2⟩
    have hb := h.getD k
    rw [rd_of_lt (by have := h.len; omega), sb, getElem_eq_getD _ 0]
    have e : -(((x.toNat >>> k) &&& 1 : Nat) : Int) * code.getD k 0 = if x.toNat.testBit k then -code.getD k 0 else 0 := by
      have := bit_mul x.toNat k 1
      rw [Nat.mul_one] at this
      rw [this]; split <;> simp
    rw [e]
    have hle : |s + if x.toNat.testBit k then -code.getD k 0 else 0| ≤ 128 * ((k + 1 : Nat) : Int) := by
      rw [abs_le] at h2 ⊢
      push_cast
      split <;> constructor <;> linarith [hb.1, hb.2]
    rw [chk_ok (lt_of_le_of_lt hle (by push_cast; omega))]
    refine Ok.some ⟨?_, hle⟩
    rw [sum_range_succ, h1]

/-- The update as a function. -/
def upd (s : Int × Int × Int) (hard m : Int) : Int × Int × Int :=
  if hard = s.1 then s else if m > s.2.1 then (hard, m, s.2.1) else if m > s.2.2 then (s.1, s.2.1, m) else s

theorem update_eq {N : Nat} {code : List Int} (h : SoftIn N code) (hN : N ≤ 31) (s : Int × Int × Int) (x : Int) :
    update N code s x = some (upd s x (metI N code x)) := by
  unfold update upd
  split
  · rfl
  · rw [metric_eq h hN, sb]; rfl

theorem met_zero (N : Nat) (code : List Int) : met N code 0 = 0 := by unfold met; simp

/-- A codeword: a multiple of the generator polynomial with at most `N` bits. -/
def IsCW (N G x : Nat) : Prop := x < 2 ^ N ∧ Div G x

theorem metI_nat (N : Nat) (code : List Int) (x : Nat) : metI N code (x : Int) = met N code x := by
  unfold metI; rw [if_neg (by omega), Int.toNat_natCast]

section
variable {N K G T : Nat} (h : Params N K G)
include h

theorem enc_cw {m : Nat} (hm : m < 2 ^ K) : IsCW N G (enc N K G m) := ⟨enc_lt h hm, enc_div h hm⟩

theorem hard_cases {err par : List Nat} {x : Nat} (hB : Built N K G T err par) (hx : x < 2 ^ N) :
    ∃ r, hard (N - K) err par x = some r ∧ (r = -1 ∨ ∃ c : Nat, r = c ∧ IsCW N G c) := by
  obtain ⟨rfl, hv, _⟩ := hB
  refine ⟨_, hard_eq h hv hx, ?_⟩
  split
  · rename_i hc
    refine Or.inr ⟨_, rfl, ?_⟩
    by_cases he : err.getD (syn N K G x) 0 = 0
    · have h0 : syn N K G x = 0 := by tauto
      rw [he, Nat.xor_zero]
      exact ⟨hx, (syn_zero_iff h hx).1 h0⟩
    · obtain ⟨hp, hs⟩ := hv.2 _ he
      have hlt := Nat.xor_lt_two_pow hx hp.lt
      refine ⟨hlt, (syn_zero_iff h hlt).1 ?_⟩
      rw [syn_xor h hx hp.lt, hs, Nat.xor_self]
  · exact Or.inl rfl

/-! ### Maximum likelihood -/

/-- The state of the search over all codewords after `k` of them. -/
structure ML (N K G : Nat) (code : List Int) (k : Nat) (s : Int × Int × Int) : Prop where
  ex : ∃ c : Nat, s.1 = c ∧ IsCW N G c ∧ s.2.1 = met N code c
  pos : 0 ≤ s.2.1
  le : s.2.2 ≤ s.2.1
  all : ∀ m, m < k → met N code (enc N K G m) ≤ s.2.1
  others : ∀ m, m < k → ((enc N K G m : Nat) : Int) ≠ s.1 → met N code (enc N K G m) ≤ s.2.2
  real : 0 ≤ s.2.2 → ∃ c : Nat, IsCW N G c ∧ (c : Int) ≠ s.1 ∧ met N code c = s.2.2

theorem ML.step {code : List Int} {k : Nat} {s : Int × Int × Int} (hk : k < 2 ^ K) (hs : ML N K G code k s) :
    ML N K G code (k + 1) (upd s (enc N K G k : Nat) (met N code (enc N K G k))) := by
  obtain ⟨⟨c, e1, e2, e3⟩, hp, hl, ha, ho, hr⟩ := hs
  have hcw := enc_cw h hk
  generalize hx : enc N K G k = x at *
  unfold upd
  split
  · rename_i heq
    refine ⟨⟨c, e1, e2, e3⟩, hp, hl, fun m hm => ?_, fun m hm hne => ?_, hr⟩
    · by_cases hmk : m = k
      · subst hmk; rw [hx, e3]; rw [e1] at heq; rw [Int.ofNat_inj.1 heq]
      · exact ha m (by omega)
    · by_cases hmk : m = k
      · subst hmk; rw [hx] at hne; exact absurd heq hne
      · exact ho m (by omega) hne
  · rename_i hne0
    split
    · rename_i hgt
      refine ⟨⟨x, rfl, hcw, rfl⟩, by dsimp only; omega, by dsimp only; omega, fun m hm => ?_, fun m hm hne => ?_, fun h0 => ?_⟩
      · by_cases hmk : m = k
        · subst hmk; rw [hx]
        · have := ha m (by omega); dsimp only; omega
      · by_cases hmk : m = k
        · subst hmk; rw [hx] at hne; exact absurd rfl hne
        · exact ha m (by omega)
      · exact ⟨c, e2, fun hc => hne0 (by rw [e1]; exact hc.symm), e3.symm⟩
    · rename_i hgt
      split
      · rename_i hgt2
        refine ⟨⟨c, e1, e2, e3⟩, hp, by dsimp only; omega, fun m hm => ?_, fun m hm hne => ?_, fun h0 => ⟨x, hcw, hne0, rfl⟩⟩
        · by_cases hmk : m = k
          · subst hmk; rw [hx]; dsimp only; omega
          · exact ha m (by omega)
        · by_cases hmk : m = k
          · subst hmk; rw [hx]
          · have := ho m (by omega) hne; dsimp only; omega
      · rename_i hgt2
        refine ⟨⟨c, e1, e2, e3⟩, hp, hl, fun m hm => ?_, fun m hm hne => ?_, hr⟩
        · by_cases hmk : m = k
          · subst hmk; rw [hx]; omega
          · exact ha m (by omega)
        · by_cases hmk : m = k
          · subst hmk; rw [hx]; omega
          · exact ho m (by omega) hne

theorem enc_zero : enc N K G 0 = 0 := by
  have : syn N K G 0 = 0 := (syn_zero_iff h (by positivity)).2 (Div.zero G)
  unfold enc
  rw [Nat.zero_shiftLeft, this]; rfl

theorem search_ok {code : List Int} {w : Int} (hc : SoftIn N code) (hw : w = -1 ∨ ∃ c : Nat, w = c ∧ IsCW N G c) :
    Ok (search N (N - K) K (parTab N K G) code (w, metI N code w, -2)) (ML N K G code (2 ^ K)) := by
  unfold search
  have hW : 0 < 2 ^ K := by positivity
  refine Ok.mono (forUp_inv (fun k s => if k = 0 then s = (w, metI N code w, -2) else ML N K G code k s)
    (Nat.zero_le _) (by simp) ?_) (fun s hs => by rwa [if_neg (by omega)] at hs)
  intro k s _ hk hs
  rw [encode_eq h hk, sb, update_eq hc h.n31, metI_nat]
  refine Ok.some ?_
  rw [if_neg (by omega)]
  by_cases hk0 : k = 0
  · subst hk0
    rw [if_pos rfl] at hs
    subst hs
    have e0 := enc_zero h
    have z : IsCW N G 0 := ⟨by positivity, Div.zero G⟩
    rw [e0, met_zero]
    unfold upd
    dsimp only
    have one : ∀ m, m < 0 + 1 → enc N K G m = 0 := fun m hm => by rw [show m = 0 by omega, e0]
    rcases hw with rfl | ⟨c, rfl, hcw⟩
    · rw [if_neg (by norm_num), show metI N code (-1) = -1 from rfl, if_pos (by norm_num)]
      refine ⟨⟨0, rfl, z, (met_zero N code).symm⟩, le_rfl, by norm_num, fun m hm => ?_, fun m hm hne => ?_, fun h0 => ?_⟩
      · rw [one m hm, met_zero]
      · rw [one m hm] at hne; exact absurd rfl hne
      · norm_num at h0
    · rw [metI_nat]
      by_cases hc0 : ((0 : Nat) : Int) = c
      · rw [if_pos hc0]
        have : c = 0 := by omega
        subst this
        refine ⟨⟨0, rfl, z, rfl⟩, by dsimp only; rw [met_zero], by dsimp only; rw [met_zero]; norm_num, fun m hm => ?_, fun m hm hne => ?_, fun h0 => ?_⟩
        · rw [one m hm]
        · rw [one m hm] at hne; exact absurd rfl hne
        · norm_num at h0
      · rw [if_neg hc0]
        split
        · rename_i hgt
          refine ⟨⟨0, rfl, z, (met_zero N code).symm⟩, le_rfl, by dsimp only; omega, fun m hm => ?_, fun m hm hne => ?_, fun h0 => ?_⟩
          · rw [one m hm, met_zero]
          · rw [one m hm] at hne; exact absurd rfl hne
          · exact ⟨c, hcw, fun hh => hc0 hh.symm, rfl⟩
        · rename_i hgt
          rw [if_pos (by norm_num)]
          refine ⟨⟨c, rfl, hcw, rfl⟩, by dsimp only; omega, by dsimp only; omega, fun m hm => ?_, fun m hm hne => ?_, fun h0 => ?_⟩
          · rw [one m hm, met_zero]; dsimp only; omega
          · rw [one m hm, met_zero]
          · exact ⟨0, z, hc0, met_zero N code⟩
  · rw [if_neg hk0] at hs
    exact hs.step h hk

/-- The result of the search over all codewords. -/
theorem ML.result {code : List Int} {s : Int × Int × Int} (hs : ML N K G code (2 ^ K) s) :
    (∃ c : Nat, (if s.2.1 = s.2.2 then -1 else s.1) = (c : Int) ∧ IsCW N G c ∧ ∀ c', IsCW N G c' → c' ≠ c → met N code c' < met N code c) ∨
    ((if s.2.1 = s.2.2 then -1 else s.1) = -1 ∧ ∃ c c', IsCW N G c ∧ IsCW N G c' ∧ c ≠ c' ∧ met N code c = met N code c' ∧
      ∀ x, IsCW N G x → met N code x ≤ met N code c) := by
  obtain ⟨⟨c, e1, e2, e3⟩, hp, hl, ha, ho, hr⟩ := hs
  have hall : ∀ x, IsCW N G x → ∃ m, m < 2 ^ K ∧ enc N K G m = x := fun x hx =>
    ⟨_, enc_of_div h hx.1 hx.2⟩
  by_cases he : s.2.1 = s.2.2
  · right
    refine ⟨if_pos he, ?_⟩
    obtain ⟨c', g1, g2, g3⟩ := hr (by omega)
    refine ⟨c, c', e2, g1, fun hh => g2 (by rw [e1, hh]), by omega, fun x hx => ?_⟩
    obtain ⟨m, hm, rfl⟩ := hall x hx
    rw [← e3]; exact ha m hm
  · left
    refine ⟨c, by rw [if_neg he, e1], e2, fun c' hc' hne => ?_⟩
    obtain ⟨m, hm, rfl⟩ := hall c' hc'
    have := ho m hm (by rw [e1]; exact_mod_cast hne)
    omega

/-! ### Chase -/

theorem findPos_ok {code : List Int} {worst : List Nat} {L k : Nat} (hc : code.length = N) (hl : worst.length = L)
    (hw : ∀ x ∈ worst, x < N) (hk : k < N) : ∀ n j, n + j = L → Ok (findPos code worst k n j) (fun r => r ≤ L)
  | 0, j, hj => Ok.some (by omega)
  | n + 1, j, hj => by
    rw [findPos]
    have hwj : worst[j] < N := hw _ (List.getElem_mem (by omega))
    unfold absAt
    rw [rd_of_lt (show j < worst.length by omega), sb, rd_of_lt (show worst[j] < code.length by omega), sb]
    rw [rd_of_lt (show k < code.length by omega)]
    simp only [sb]
    show Ok (ite ((if code[worst[j]] < 0 then -code[worst[j]] else code[worst[j]]) < (if code[k] < 0 then -code[k] else code[k])) _ _) _
    generalize (if code[worst[j]] < 0 then -code[worst[j]] else code[worst[j]]) = u
    generalize (if code[k] < 0 then -code[k] else code[k]) = v
    split
    · exact findPos_ok hc hl hw hk n (j + 1) (by omega)
    · exact Ok.pure (by omega)

theorem insertAt_ok {worst : List Nat} {L j k : Nat} (hl : worst.length = L) (hw : ∀ x ∈ worst, x < N) (hk : k < N) (hj : j ≤ L) :
    Ok (insertAt L worst j k) (fun w => w.length = L ∧ ∀ x ∈ w, x < N) := by
  unfold insertAt
  have hset : ∀ (w : List Nat) (i v : Nat), (∀ x ∈ w, x < N) → v < N → ∀ x ∈ w.set i v, x < N := by
    intro w i v hw hv x hx
    rcases List.mem_or_eq_of_mem_set hx with h | rfl
    · exact hw x h
    · exact hv
  refine Ok.bind' (P := fun w => w.length = L ∧ ∀ x ∈ w, x < N)
    (forDown_inv (fun _ w => w.length = L ∧ ∀ x ∈ w, x < N) _ _ ⟨hl, hw⟩ ?_) ?_
  · rintro i w hi ⟨h1, h2⟩
    rw [rd_of_lt (by omega), sb, wr_of_lt (by omega)]
    exact Ok.some ⟨by rw [List.length_set, h1], hset _ _ _ h2 (h2 _ (List.getElem_mem _))⟩
  · rintro w ⟨h1, h2⟩
    split
    · rw [wr_of_lt (by omega)]
      exact Ok.some ⟨by rw [List.length_set, h1], hset _ _ _ h2 hk⟩
    · exact Ok.some ⟨h1, h2⟩

theorem findWorst_ok {code : List Int} {L : Nat} (hc : code.length = N) :
    Ok (findWorst N L code) (fun w => w.length = L ∧ ∀ x ∈ w, x < N) := by
  unfold findWorst
  refine Ok.mono (forUp_inv (fun _ (w : List Nat) => w.length = L ∧ ∀ x ∈ w, x < N) (Nat.zero_le _)
    ⟨by simp, fun x hx => ?_⟩ ?_) (fun _ h => h)
  · rw [List.mem_replicate] at hx
    have := h.k1; have := h.kn; omega
  · rintro k w _ hk ⟨h1, h2⟩
    refine Ok.bind' (findPos_ok h hc h1 h2 hk L 0 (by omega)) fun j hj => insertAt_ok h h1 h2 hk hj

theorem pattern_ok {worst : List Nat} {L j : Nat} (hl : worst.length = L) (hw : ∀ x ∈ worst, x < N) :
    Ok (pattern L worst j) (fun p => p < 2 ^ N ∧ ∀ b, p.testBit b = true ↔ ∃ i, i < L ∧ j.testBit i = true ∧ worst.getD i 0 = b) := by
  unfold pattern
  refine Ok.mono (forUp_inv (fun k (p : Nat) => p < 2 ^ N ∧ ∀ b, p.testBit b = true ↔ ∃ i, i < k ∧ j.testBit i = true ∧ worst.getD i 0 = b)
    (Nat.zero_le _) ⟨by positivity, fun b => by simp⟩ ?_) (fun _ h => h)
  rintro k p _ hk ⟨h1, h2⟩
  have hwk : worst.getD k 0 < N := by
    have := hw _ (List.getElem_mem (show k < worst.length by omega))
    rwa [getElem_eq_getD _ 0] at this
  have hb : ((j >>> k) &&& 1) <<< worst.getD k 0 = if j.testBit k then 1 <<< worst.getD k 0 else 0 := by
    have := bit_mul j k 1
    rw [Nat.mul_one] at this
    rw [this]; split <;> simp
  have hlt : (if j.testBit k then 1 <<< worst.getD k 0 else 0) < 2 ^ N := by
    split
    · exact one_shl_lt hwk
    · positivity
  have e : int31 (if j.testBit k then 1 <<< worst.getD k 0 else 0) = some (if j.testBit k then 1 <<< worst.getD k 0 else 0) :=
    if_pos (lt31 h hlt)
  rw [rd_of_lt (by omega), sb, getElem_eq_getD _ 0, hb, e, sb]
  refine Ok.pure ⟨Nat.or_lt_two_pow h1 hlt, fun b => ?_⟩
  rw [Nat.testBit_or, Bool.or_eq_true, h2]
  constructor
  · rintro (⟨i, hi, g⟩ | g)
    · exact ⟨i, by omega, g⟩
    · split at g
      · rename_i hj
        rw [testBit_one_shl, decide_eq_true_eq] at g
        exact ⟨k, by omega, hj, g⟩
      · simp at g
  · rintro ⟨i, hi, g1, g2⟩
    by_cases hik : i = k
    · subst hik
      right
      rw [if_pos g1, testBit_one_shl, g2, decide_eq_true_eq]
    · exact Or.inl ⟨i, by omega, g1, g2⟩

/-- What is known during the search of the Chase algorithm: the current word and its metric, and that no tested word
was better. -/
structure CI (N G : Nat) (code : List Int) (tested : Int → Prop) (s : Int × Int × Int) : Prop where
  ex : (s.1 = -1 ∧ s.2.1 = -1) ∨ ∃ c : Nat, s.1 = c ∧ IsCW N G c ∧ s.2.1 = met N code c
  all : ∀ x, tested x → metI N code x ≤ s.2.1

theorem CI.step {code : List Int} {tested : Int → Prop} {s : Int × Int × Int} {x : Int} (hs : CI N G code tested s)
    (hx : x = -1 ∨ ∃ c : Nat, x = c ∧ IsCW N G c) : CI N G code (fun y => tested y ∨ y = x) (upd s x (metI N code x)) := by
  obtain ⟨h1, h2⟩ := hs
  have hmet : s.2.1 = metI N code s.1 := by
    rcases h1 with ⟨a, b⟩ | ⟨c, a, _, b⟩
    · rw [a, b]; rfl
    · rw [a, b, metI_nat]
  unfold upd
  split
  · rename_i he
    refine ⟨h1, ?_⟩
    rintro y (hy | rfl)
    · exact h2 y hy
    · rw [hmet, he]
  · split
    · rename_i hgt
      refine ⟨?_, ?_⟩
      · rcases hx with rfl | ⟨c, rfl, hc⟩
        · exact Or.inl ⟨rfl, rfl⟩
        · exact Or.inr ⟨c, rfl, hc, metI_nat N code c⟩
      · rintro y (hy | rfl)
        · have := h2 y hy; dsimp only; omega
        · exact le_rfl
    · rename_i hgt
      split
      · refine ⟨h1, ?_⟩
        rintro y (hy | rfl)
        · exact h2 y hy
        · dsimp only; omega
      · refine ⟨h1, ?_⟩
        rintro y (hy | rfl)
        · exact h2 y hy
        · omega

/-- A number with prescribed bits. -/
theorem exists_bits (f : Nat → Bool) : ∀ L, ∃ j, j < 2 ^ L ∧ ∀ i, i < L → j.testBit i = f i
  | 0 => ⟨0, by norm_num, by omega⟩
  | L + 1 => by
    obtain ⟨j, h1, h2⟩ := exists_bits f L
    refine ⟨if f L then 2 ^ L + j else j, ?_, fun i hi => ?_⟩
    · rw [pow_succ]; split <;> omega
    · split
      · rename_i hf
        by_cases hi' : i = L
        · subst hi'; rw [Nat.testBit_two_pow_add_eq, Nat.testBit_eq_false_of_lt h1, hf]; rfl
        · rw [Nat.testBit_two_pow_add_gt (by omega), h2 i (by omega)]
      · rename_i hf
        by_cases hi' : i = L
        · subst hi'; rw [Nat.testBit_eq_false_of_lt h1]; simpa using hf
        · exact h2 i (by omega)

theorem chase_ok {err par : List Nat} {code : List Int} {cw : Nat} {w : Int} {L : Nat} (hB : Built N K G T err par)
    (hc : SoftIn N code) (hcw : cw < 2 ^ N) (hw : hard (N - K) err par cw = some w) :
    ∃ worst, findWorst N L code = some worst ∧
    Ok (chase N (N - K) L err par code cw (w, metI N code w, -2))
      (CI N G code (fun x => ∃ tmp, (∀ b, tmp.testBit b = true → b ∈ worst) ∧ hard (N - K) err par (cw ^^^ tmp) = some x)) := by
  obtain ⟨worst, hworst, hl, hlt⟩ := findWorst_ok h (L := L) hc.len
  refine ⟨worst, hworst, ?_⟩
  unfold chase
  rw [hworst, sb]
  have hcases := hard_cases h hB hcw
  rw [hw] at hcases
  obtain ⟨_, hr, hcase⟩ := hcases
  cases hr
  refine Ok.mono (forUp_inv (fun k s => CI N G code (fun x => x = w ∨ ∃ j tmp, 1 ≤ j ∧ j < k ∧ pattern L worst j = some tmp ∧
      hard (N - K) err par (cw ^^^ tmp) = some x) s) (Nat.one_le_two_pow) ⟨?_, ?_⟩ ?_) ?_
  · rcases hcase with rfl | ⟨c, rfl, hc'⟩
    · exact Or.inl ⟨rfl, rfl⟩
    · exact Or.inr ⟨c, rfl, hc', metI_nat N code c⟩
  · rintro x (rfl | ⟨j, tmp, h1, h2, _⟩)
    · exact le_rfl
    · omega
  · intro j s hj1 hj hs
    obtain ⟨p, hp, hp1, hp2⟩ := pattern_ok h (j := j) hl hlt
    obtain ⟨r, hr, hrc⟩ := hard_cases h hB (Nat.xor_lt_two_pow hcw hp1)
    rw [hp, sb, hr, sb, update_eq hc h.n31]
    have := hs.step h hrc
    refine Ok.some ⟨this.ex, ?_⟩
    rintro x (rfl | ⟨i, tmp, h1, h2, h3, h4⟩)
    · exact this.all _ (Or.inl (Or.inl rfl))
    · by_cases hij : i = j
      · subst hij
        rw [hp] at h3; cases h3
        rw [hr] at h4; cases h4
        exact this.all _ (Or.inr rfl)
      · exact this.all _ (Or.inl (Or.inr ⟨i, tmp, h1, by omega, h3, h4⟩))
  · rintro s ⟨g1, g2⟩
    refine ⟨g1, ?_⟩
    rintro x ⟨tmp, ht, hx⟩
    obtain ⟨j, hj, hjb⟩ := exists_bits h (fun i => tmp.testBit (worst.getD i 0)) L
    obtain ⟨p, hp, hp1, hp2⟩ := pattern_ok h (j := j) hl hlt
    have hpt : p = tmp := by
      apply Nat.eq_of_testBit_eq
      intro b
      rw [Bool.eq_iff_iff, hp2]
      constructor
      · rintro ⟨i, hi, e1, rfl⟩
        rw [hjb i hi] at e1; exact e1
      · intro hb
        obtain ⟨i, hi, rfl⟩ := List.getElem_of_mem (ht b hb)
        refine ⟨i, by omega, ?_, by rw [getElem_eq_getD _ 0]⟩
        rw [hjb i (by omega), ← getElem_eq_getD hi 0]; exact hb
    subst hpt
    by_cases hj0 : j = 0
    · subst hj0
      have : p = 0 := by
        apply Nat.eq_of_testBit_eq
        intro b
        rw [Nat.zero_testBit]
        by_contra hb
        simp only [Bool.not_eq_false] at hb
        obtain ⟨i, _, e1, _⟩ := (hp2 b).1 hb
        simp at e1
      subst this
      rw [Nat.xor_zero, hw] at hx
      cases hx
      exact g2 _ (Or.inl rfl)
    · exact g2 _ (Or.inr ⟨j, p, by omega, hj, hp, hx⟩)

/-! ### A codeword with the signs of the soft values -/

theorem met_lt {code : List Int} {cw x : Nat} (hs : ∀ i, i < N → cw.testBit i = decide (code.getD i 0 < 0))
    (hnz : ∀ i, i < N → code.getD i 0 ≠ 0) (hcw : cw < 2 ^ N) (hx : x < 2 ^ N) (hne : x ≠ cw) : met N code x < met N code cw := by
  unfold met
  have hex : ∃ i, i < N ∧ x.testBit i ≠ cw.testBit i := by
    by_contra hc
    push Not at hc
    apply hne
    apply Nat.eq_of_testBit_eq
    intro i
    by_cases hi : i < N
    · exact hc i hi
    · rw [Nat.testBit_eq_false_of_lt (lt_of_lt_of_le hx (Nat.pow_le_pow_right (by norm_num) (by omega))),
        Nat.testBit_eq_false_of_lt (lt_of_lt_of_le hcw (Nat.pow_le_pow_right (by norm_num) (by omega)))]
  obtain ⟨i, hi, hib⟩ := hex
  refine sum_lt_sum (fun j hj => ?_) ⟨i, mem_range.2 hi, ?_⟩
  · rw [hs j (mem_range.1 hj)]
    generalize code.getD j 0 = y
    by_cases hc : y < 0
    · simp only [hc, decide_true, if_true]; split <;> omega
    · simp only [hc, decide_false]; split <;> simp <;> omega
  · rw [hs i hi] at hib ⊢
    have := hnz i hi
    generalize code.getD i 0 = y at *
    by_cases hc : y < 0
    · simp only [hc, decide_true, ne_eq, Bool.not_eq_true] at hib
      simp only [hc, decide_true, if_true, hib]; simp; omega
    · simp only [hc, decide_false, ne_eq, Bool.not_eq_false] at hib
      simp only [hc, decide_false, hib, if_true]; simp; omega

theorem met_sign_nonneg {code : List Int} {cw : Nat} (hs : ∀ i, i < N → cw.testBit i = decide (code.getD i 0 < 0)) :
    0 ≤ met N code cw := by
  unfold met
  refine sum_nonneg fun i hi => ?_
  rw [hs i (mem_range.1 hi)]
  generalize code.getD i 0 = y
  by_cases hc : y < 0
  · simp [hc]; omega
  · simp [hc]

/-- The state stays at a codeword better than all others. -/
def Stay (N : Nat) (code : List Int) (cw : Nat) (s : Int × Int × Int) : Prop :=
  s.1 = cw ∧ s.2.1 = met N code cw ∧ s.2.2 < s.2.1

theorem Stay.step {code : List Int} {cw : Nat} {s : Int × Int × Int} {x : Int} (hs : Stay N code cw s) (h0 : 0 ≤ met N code cw)
    (hlt : ∀ c, IsCW N G c → c ≠ cw → met N code c < met N code cw)
    (hx : x = -1 ∨ ∃ c : Nat, x = c ∧ IsCW N G c) : Stay N code cw (upd s x (metI N code x)) := by
  obtain ⟨h1, h2, h3⟩ := hs
  unfold upd
  split
  · exact ⟨h1, h2, h3⟩
  · rename_i hne
    have hm : metI N code x < s.2.1 := by
      rw [h2]
      rcases hx with rfl | ⟨c, rfl, hc⟩
      · show (-1 : Int) < _; omega
      · rw [metI_nat]; exact hlt c hc fun hcc => hne (by rw [hcc, h1])
    rw [if_neg (by omega)]
    split
    · exact ⟨h1, h2, hm⟩
    · exact ⟨h1, h2, h3⟩

end

end Verif.ShortBCH
