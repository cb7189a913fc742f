import Verif.GF.Model
import Verif.GF.Ring
import Mathlib.Data.List.GetD
namespace Verif.GF
open Polynomial GF2

variable {w M P : Nat}

theorem gQ_eq (M : Nat) : gQ M = 2 ^ M := by unfold gQ; rw [Nat.shiftLeft_eq, one_mul]
theorem gN_eq (M : Nat) : gN M = 2 ^ M - 1 := by unfold gN; rw [gQ_eq]

theorem testBit_two_mul (a n : Nat) (hn : 0 < n) : (2 * a).testBit n = a.testBit (n - 1) := by
  obtain ⟨m, rfl⟩ : ∃ m, n = m + 1 := ⟨n - 1, by omega⟩
  rw [Nat.testBit_succ, Nat.mul_div_cancel_left _ (by norm_num), Nat.add_sub_cancel]

theorem xor_mod (a b n : Nat) : (a ^^^ b) % 2 ^ n = (a % 2 ^ n) ^^^ (b % 2 ^ n) := by
  apply Nat.eq_of_testBit_eq
  intro i
  rw [Nat.testBit_mod_two_pow, Nat.testBit_xor, Nat.testBit_xor, Nat.testBit_mod_two_pow, Nat.testBit_mod_two_pow]
  by_cases h : i < n <;> simp [h]

/-- Shifting and reducing with the truncated polynomial in the storage type is `xtime`. -/
theorem trunc_xtime (h : HasDeg M P) (hM : 0 < M) (hw : M ≤ w) {a : Nat} (ha : a < 2 ^ M) :
    (if a.testBit (M - 1) then (a <<< 1) ^^^ (P % 2 ^ w) else a <<< 1) % 2 ^ w = xtime P M a := by
  have hx := xtime_lt h.top h.2 ha
  have hpw : 2 ^ M ≤ 2 ^ w := Nat.pow_le_pow_right (by norm_num) hw
  have hs : a <<< 1 = 2 * a := by rw [Nat.shiftLeft_eq, pow_one, Nat.mul_comm]
  unfold xtime at hx ⊢
  rw [testBit_two_mul a M hM] at hx ⊢
  rw [hs]
  split
  · rename_i hc
    rw [if_pos hc] at hx
    rw [xor_mod, Nat.mod_mod, ← xor_mod, Nat.mod_eq_of_lt (by omega)]
  · rename_i hc
    rw [if_neg hc] at hx
    rw [Nat.mod_eq_of_lt (by omega)]

theorem next_eq (h : HasDeg M P) (hM : 0 < M) (hw : M ≤ w) {a : Nat} (ha : a < 2 ^ M) :
    next w M P a = xtime P M a := by
  have hq : (gQ M >>> 1) % 2 ^ w = 2 ^ (M - 1) := by
    rw [gQ_eq, Nat.shiftRight_eq_div_pow, pow_one]
    obtain ⟨m, rfl⟩ : ∃ m, M = m + 1 := ⟨M - 1, by omega⟩
    rw [pow_succ, Nat.mul_div_cancel _ (by norm_num), Nat.add_sub_cancel]
    exact Nat.mod_eq_of_lt (Nat.pow_lt_pow_right (by norm_num) (by omega))
  rw [← trunc_xtime h hM hw ha]
  unfold next
  rw [hq, Nat.and_two_pow]
  cases a.testBit (M - 1) <;> simp

theorem forN_some_inv {σ : Type} {f : Nat → σ → Option σ} (Inv : Nat → σ → Prop) :
    ∀ (n lo : Nat) (s r : σ), Inv lo s → forN n lo s f = some r →
      (∀ i t t', lo ≤ i → i < lo + n → Inv i t → f i t = some t' → Inv (i + 1) t') → Inv (lo + n) r := by
  intro n
  induction n with
  | zero => intro lo s r h hr _; simp only [forN, Option.some.injEq] at hr; subst hr; exact h
  | succ n ih =>
    intro lo s r h hr hs
    simp only [forN] at hr
    cases hf : f lo s with
    | none => rw [hf] at hr; simp at hr
    | some s' =>
      rw [hf, Option.bind_some] at hr
      have := ih (lo + 1) s' r (hs lo s s' (by omega) (by omega) h hf) hr
        (fun i t t' h1 h2 => hs i t t' (by omega) (by omega))
      rwa [show lo + (n + 1) = lo + 1 + n by omega]

/-- Partial-correctness rule for `forUp`. -/
theorem forUp_some_inv {σ : Type} {f : Nat → σ → Option σ} (Inv : Nat → σ → Prop) {lo hi : Nat} {s r : σ}
    (hle : lo ≤ hi) (h0 : Inv lo s) (hr : forUp lo hi s f = some r)
    (hs : ∀ i t t', lo ≤ i → i < hi → Inv i t → f i t = some t' → Inv (i + 1) t') : Inv hi r := by
  unfold forUp at hr
  have := forN_some_inv Inv (hi - lo) lo s r h0 hr (fun i t t' h1 h2 => hs i t t' h1 (by omega))
  rwa [show lo + (hi - lo) = hi by omega] at this

/-- What the tables contain after a successful construction. -/
structure Built (w M P : Nat) (T : Tab) : Prop where
  hM : 0 < M
  hw : M ≤ w
  deg : HasDeg M P
  prim : Primitive M P
  llog : T.log.length = 2 ^ M
  lexp : T.exp.length = 2 ^ M
  exp : ∀ i, i < 2 ^ M - 1 → T.exp[i]? = some ((xtime P M)^[i] 1)
  exp0 : T.exp[2 ^ M - 1]? = some 0
  log : ∀ i, i < 2 ^ M - 1 → T.log[(xtime P M)^[i] 1]? = some i
  log0 : T.log[0]? = some (2 ^ M - 1)

theorem iter_inj (h : HasDeg M P) (hM : 0 < M) (hp : Primitive M P) {i j : Nat} (hi : i < 2 ^ M - 1)
    (hj : j < 2 ^ M - 1) (he : (xtime P M)^[i] 1 = (xtime P M)^[j] 1) : i = j := by
  have he' : AdjoinRoot.root (natPoly P) ^ i = AdjoinRoot.root (natPoly P) ^ j := by
    rw [← toR_iter P M, ← toR_iter P M, he]
  have hu : IsUnit (AdjoinRoot.root (natPoly P)) := by
    have h1 : AdjoinRoot.root (natPoly P) ^ (2 ^ M - 1) = 1 := by rw [← hp]; exact pow_orderOf_eq_one _
    exact IsUnit.of_pow_eq_one h1 (by have := N_pos hM; omega)
  obtain ⟨u, hu⟩ := hu
  have ho : orderOf u = 2 ^ M - 1 := by rw [← orderOf_units, hu]; exact hp
  have huab : u ^ i = u ^ j := by
    ext; push_cast; rw [hu]; exact he'
  have := pow_inj_mod.1 huab
  rwa [ho, Nat.mod_eq_of_lt hi, Nat.mod_eq_of_lt hj] at this

theorem iter_ne_zero (h : HasDeg M P) (hM : 0 < M) (hp : Primitive M P) (i : Nat) : (xtime P M)^[i] 1 ≠ 0 := by
  intro hz
  have := toR_iter P M i
  rw [hz, toR_zero] at this
  exact root_pow_ne_zero hM h hp i this.symm

theorem tables_built (hM : 0 < M) (hw : M ≤ w) (h : HasDeg M P) (hp : Primitive M P) (T0 : Tab)
    (hl : T0.log.length = 2 ^ M) (he : T0.exp.length = 2 ^ M) :
    ∃ T, tables w M P T0 = some T ∧ Built w M P T := by
  have hN := N_pos hM
  have hQ : 0 < 2 ^ M := by positivity
  have hpw : 2 ^ M ≤ 2 ^ w := Nat.pow_le_pow_right (by norm_num) hw
  obtain ⟨hp1, hp2⟩ := (primitive_iff h hM).1 hp
  unfold tables
  rw [gN_eq]
  rw [wr_of_lt (by omega), wr_of_lt (by omega)]
  simp only [Option.bind_eq_bind, Option.bind_some]
  have main := forUp_inv (lo := 0) (hi := 2 ^ M - 1)
    (s := (T0.log.set 0 ((2 ^ M - 1) % 2 ^ w), T0.exp.set (2 ^ M - 1) 0, 1))
    (f := fun i (x : List Nat × List Nat × Nat) =>
      match x with
      | (log, exp, a) => (wr exp i a).bind fun exp => (wr log a (i % 2 ^ w)).bind fun log =>
          (assertUB (i = 0 ∨ a ≠ 1)).bind fun _ => pure (log, exp, next w M P a))
    (fun i s => s.1.length = 2 ^ M ∧ s.2.1.length = 2 ^ M ∧ s.2.2 = (xtime P M)^[i] 1 ∧
      s.2.1[2 ^ M - 1]? = some 0 ∧ s.1[0]? = some (2 ^ M - 1) ∧
      (∀ j, j < i → s.2.1[j]? = some ((xtime P M)^[j] 1)) ∧
      (∀ j, j < i → s.1[(xtime P M)^[j] 1]? = some j))
    (Nat.zero_le _)
    ⟨by simp [hl], by simp [he], rfl, by simp [he], by
      simp only [List.getElem?_set, hl, hQ]
      rw [Nat.mod_eq_of_lt (by omega)]; simp, by intro j hj; omega, by intro j hj; omega⟩ (by
      rintro i ⟨log, exp, a⟩ _ hi ⟨l1, l2, ha, e0, g0, hexp, hlog⟩
      dsimp only at l1 l2 ha e0 g0 hexp hlog ⊢
      have halt : a < 2 ^ M := by rw [ha]; exact iter_lt h hM i
      rw [wr_of_lt (by omega), Option.bind_some, wr_of_lt (by omega), Option.bind_some]
      have hass : i = 0 ∨ a ≠ 1 := by
        by_cases h0 : i = 0
        · left; exact h0
        · right; rw [ha]; exact hp2 i (by omega) hi
      rw [assertUB, if_pos hass, Option.bind_some]
      refine Ok.some ⟨by simp [l1], by simp [l2], ?_, ?_, ?_, ?_, ?_⟩
      · dsimp only
        rw [next_eq h hM hw halt, ha, Function.iterate_succ_apply']
      · dsimp only
        rw [List.getElem?_set_ne (by omega)]; exact e0
      · dsimp only
        rw [List.getElem?_set_ne (by rw [ha]; exact iter_ne_zero h hM hp i)]; exact g0
      · intro j hj
        dsimp only
        by_cases hji : j = i
        · subst hji; rw [List.getElem?_set_self (by omega), ha]
        · rw [List.getElem?_set_ne (by omega)]; exact hexp j (by omega)
      · intro j hj
        dsimp only
        by_cases hji : j = i
        · subst hji
          rw [← ha, List.getElem?_set_self (by omega), Nat.mod_eq_of_lt (by omega)]
        · rw [List.getElem?_set_ne]
          · exact hlog j (by omega)
          · rw [ha]; intro hc; exact hji (iter_inj h hM hp (by omega) (by omega) hc).symm)
  obtain ⟨⟨log, exp, a⟩, hr, l1, l2, ha, e0, g0, hexp, hlog⟩ := main
  dsimp only at l1 l2 ha e0 g0 hexp hlog
  refine ⟨⟨log, exp⟩, ?_, hM, hw, h, hp, l1, l2, hexp, e0, hlog, g0⟩
  have hr' : forUp 0 (2 ^ M - 1) (T0.log.set 0 ((2 ^ M - 1) % 2 ^ w), T0.exp.set (2 ^ M - 1) 0, 1)
      (fun i (x : List Nat × List Nat × Nat) =>
      match x with
      | (log, exp, a) => (wr exp i a).bind fun exp => (wr log a (i % 2 ^ w)).bind fun log =>
          (assertUB (i = 0 ∨ a ≠ 1)).bind fun _ => pure (log, exp, next w M P a)) = some (log, exp, a) := hr
  rw [hr', Option.bind_some]
  dsimp only
  rw [ha, hp1, assertUB, if_pos rfl]; rfl

theorem primitive_of_tables (hM : 0 < M) (hw : M ≤ w) (h : HasDeg M P) (T0 T : Tab)
    (ht : tables w M P T0 = some T) : Primitive M P := by
  rw [primitive_iff h hM]
  unfold tables at ht
  rw [gN_eq] at ht
  simp only [Option.bind_eq_bind, Option.bind_eq_some_iff] at ht
  obtain ⟨exp, _, log, _, ⟨log', exp', a⟩, hloop, ht⟩ := ht
  have hinv := forUp_some_inv (fun i (s : List Nat × List Nat × Nat) =>
    s.2.2 = (xtime P M)^[i] 1 ∧ ∀ j, 0 < j → j < i → (xtime P M)^[j] 1 ≠ 1) (Nat.zero_le _)
    ⟨rfl, fun j h1 h2 => by omega⟩ hloop (by
      rintro i ⟨l, e, b⟩ t' _ hi ⟨hb, hall⟩ hst
      simp only [Option.bind_eq_some_iff] at hst
      obtain ⟨e', _, l', _, _, has, hst⟩ := hst
      simp only [Option.pure_def, Option.some.injEq] at hst
      subst hst
      dsimp only at hb hall ⊢
      unfold assertUB at has
      have hc : i = 0 ∨ b ≠ 1 := by
        by_contra hc; rw [if_neg hc] at has; cases has
      refine ⟨?_, ?_⟩
      · rw [hb, next_eq h hM hw (iter_lt h hM i), Function.iterate_succ_apply']
      · intro j h1 h2
        by_cases hji : j = i
        · subst hji
          rcases hc with hc | hc
          · omega
          · rwa [hb] at hc
        · exact hall j h1 (by omega))
  obtain ⟨hb, hall⟩ := hinv
  dsimp only at hb ht
  obtain ⟨_, has, _⟩ := ht
  unfold assertUB at has
  have hc : 1 = a := by by_contra hc; rw [if_neg hc] at has; cases has
  exact ⟨by rw [← hb, ← hc], hall⟩

/-! ### Operators -/

section ops
variable {T : Tab} (B : Built w M P T)
include B

theorem Built.le : 2 ^ M ≤ 2 ^ w := Nat.pow_le_pow_right (by norm_num) B.hw
theorem Built.N : 0 < 2 ^ M - 1 := N_pos B.hM

theorem mkValue_ok {v : Nat} (hv : v < 2 ^ M) : mkValue w M v = some v := by
  have := B.le
  unfold mkValue
  dsimp only
  rw [Nat.mod_eq_of_lt (by omega), gN_eq, assertUB, if_pos (by omega)]; rfl

theorem mkIndex_ok {i : Nat} (hi : i < 2 ^ M - 1) : mkIndex w M i = some i := by
  have := B.le
  unfold mkIndex
  dsimp only
  rw [Nat.mod_eq_of_lt (by omega), gN_eq, assertUB, if_pos (by omega)]; rfl

theorem value_ok {i : Nat} (hi : i < 2 ^ M - 1) :
    ∃ v, value w M T i = some v ∧ v < 2 ^ M ∧ toR P v = AdjoinRoot.root (natPoly P) ^ i := by
  have hlt := iter_lt B.deg B.hM i
  refine ⟨(xtime P M)^[i] 1, ?_, hlt, toR_iter P M i⟩
  unfold value texp rd
  rw [gN_eq, assertUB, if_pos hi, assertUB, if_pos (by omega), B.exp i hi]
  simp only [Option.bind_eq_bind, Option.bind_some]
  exact mkValue_ok B hlt

theorem index_ok {a : Nat} (ha : a < 2 ^ M) (h0 : a ≠ 0) :
    ∃ i, index w M T a = some i ∧ i < 2 ^ M - 1 ∧ AdjoinRoot.root (natPoly P) ^ i = toR P a := by
  have hne : toR P a ≠ 0 := by
    rw [← toR_zero P]; intro h; exact h0 (toR_inj B.deg ha (by positivity) h)
  obtain ⟨i, hi, he⟩ := exists_pow B.hM B.deg B.prim hne
  refine ⟨i, ?_, hi, he⟩
  have ha' : a = (xtime P M)^[i] 1 :=
    toR_inj B.deg ha (iter_lt B.deg B.hM i) (by rw [toR_iter, he])
  unfold index tlog rd
  rw [gN_eq, assertUB, if_pos (by omega), assertUB, if_pos h0]
  simp only [Option.bind_eq_bind, Option.bind_some]
  rw [ha', B.log i hi, Option.bind_some]
  exact mkIndex_ok B hi

theorem addV_ok {a b : Nat} (ha : a < 2 ^ M) (hb : b < 2 ^ M) : addV w M a b = some (a ^^^ b) := by
  unfold addV
  rw [gN_eq, assertUB, if_pos (by omega), assertUB, if_pos (by omega)]
  exact mkValue_ok B (Nat.xor_lt_two_pow ha hb)

theorem root_N : AdjoinRoot.root (natPoly P) ^ (2 ^ M - 1) = 1 := by rw [← B.prim]; exact pow_orderOf_eq_one _

theorem mulII_ok {a b : Nat} (ha : a < 2 ^ M - 1) (hb : b < 2 ^ M - 1) :
    mulII w M a b = some ((a + b) % (2 ^ M - 1)) := by
  have hle := B.le
  unfold mulII
  rw [gN_eq, assertUB, if_pos ha, assertUB, if_pos hb]
  simp only [Option.bind_eq_bind, Option.bind_some]
  have hw2 : 2 ^ M - 1 < 2 ^ w := by omega
  have key : ∀ x, x % 2 ^ w = (a + b) % (2 ^ M - 1) → mkIndex w M x = some ((a + b) % (2 ^ M - 1)) := by
    intro x hx
    unfold mkIndex
    dsimp only
    rw [hx, gN_eq, assertUB, if_pos (Nat.mod_lt _ B.N)]; rfl
  apply key
  split
  · have e : (a + b) % (2 ^ M - 1) = a + b - (2 ^ M - 1) := by
      rw [Nat.mod_eq_sub_mod (by omega), Nat.mod_eq_of_lt (by omega)]
    rw [e]
    by_cases hov : a + b < 2 ^ w
    · rw [Nat.mod_eq_of_lt hov, show a + b + 2 ^ w - (2 ^ M - 1) = (a + b - (2 ^ M - 1)) + 2 ^ w by omega,
        Nat.add_mod_right, Nat.mod_eq_of_lt (by omega)]
    · rw [Nat.mod_eq_sub_mod (a := a + b) (by omega), Nat.mod_eq_of_lt (a := a + b - 2 ^ w) (by omega),
        show a + b - 2 ^ w + 2 ^ w - (2 ^ M - 1) = a + b - (2 ^ M - 1) by omega, Nat.mod_eq_of_lt (by omega)]
  · rw [Nat.mod_mod, Nat.mod_eq_of_lt (by omega), Nat.mod_eq_of_lt (by omega)]

theorem divII_ok {a b : Nat} (ha : a < 2 ^ M - 1) (hb : b < 2 ^ M - 1) :
    divII w M a b = some ((a + (2 ^ M - 1) - b) % (2 ^ M - 1)) := by
  have hle := B.le
  unfold divII
  rw [gN_eq, assertUB, if_pos ha, assertUB, if_pos hb]
  simp only [Option.bind_eq_bind, Option.bind_some]
  have hw2 : 2 ^ M - 1 < 2 ^ w := by omega
  have key : ∀ x, x % 2 ^ w = (a + (2 ^ M - 1) - b) % (2 ^ M - 1) →
      mkIndex w M x = some ((a + (2 ^ M - 1) - b) % (2 ^ M - 1)) := by
    intro x hx
    unfold mkIndex
    dsimp only
    rw [hx, gN_eq, assertUB, if_pos (Nat.mod_lt _ B.N)]; rfl
  apply key
  split
  · rw [Nat.mod_eq_of_lt (a := a + 2 ^ w - b) (by omega), Nat.mod_eq_of_lt (a := a + (2 ^ M - 1) - b) (by omega),
      show a + 2 ^ w - b + (2 ^ M - 1) = (a + (2 ^ M - 1) - b) + 2 ^ w by omega, Nat.add_mod_right,
      Nat.mod_eq_of_lt (by omega)]
  · rw [show a + 2 ^ w - b = (a - b) + 2 ^ w by omega, Nat.add_mod_right, Nat.mod_mod, Nat.mod_eq_of_lt (by omega),
      show a + (2 ^ M - 1) - b = (a - b) + (2 ^ M - 1) by omega, Nat.add_mod_right, Nat.mod_eq_of_lt (by omega)]

theorem rcpI_ok {a : Nat} (ha : a < 2 ^ M - 1) : rcpI w M a = some ((2 ^ M - 1 - a) % (2 ^ M - 1)) := by
  unfold rcpI
  rw [gN_eq, assertUB, if_pos ha]
  simp only [Option.bind_eq_bind, Option.bind_some]
  by_cases h0 : a = 0
  · rw [if_pos h0, mkIndex_ok B (by have := B.N; omega), h0, Nat.sub_zero, Nat.mod_self]
  · rw [if_neg h0, mkIndex_ok B (by omega), Nat.mod_eq_of_lt (by omega)]

theorem root_mod (k : Nat) : AdjoinRoot.root (natPoly P) ^ (k % (2 ^ M - 1)) = AdjoinRoot.root (natPoly P) ^ k := by
  rw [← B.prim]; exact pow_mod_orderOf _ _

end ops
end Verif.GF
