import Verif.Polar.Model
import Verif.RS.Search
import Mathlib.Tactic.Ring
import Mathlib.Tactic.Linarith
/- The in-place transform. -/
namespace Verif.Polar
open Verif.RS (sb)
variable {τ : Type}

/-- The transform on `2 ^ s` consecutive values (aligned), position by position. -/
def P (q : τ → τ → τ) : Nat → (Nat → τ) → Nat → τ
  | 0, u, j => u j
  | s + 1, u, j => if j / 2 ^ s % 2 = 0 then q (P q s u j) (P q s u (j + 2 ^ s)) else P q s u j

theorem butterfly_eq {H : PH τ} {c : List τ} {o h j : Nat} (d : τ) (hj : o + (j + h) < c.length) :
    butterfly H o h j c = some (c.set (o + j) (H.qmul (c.getD (o + j) d) (c.getD (o + (j + h)) d))) := by
  unfold butterfly
  rw [rd_of_lt (by omega), sb, getElem_eq_getD _ d, rd_of_lt hj, sb, getElem_eq_getD _ d, wr_of_lt (by omega)]

theorem blk_lt {h n b r : Nat} (hb : b < n) (hr : r < h) : h * b + r < h * n := by
  have : h * (b + 1) ≤ h * n := Nat.mul_le_mul_left _ hb
  rw [Nat.mul_succ] at this
  omega

theorem blk_div {h b r : Nat} (hr : r < h) : (2 * h * b + r) / h % 2 = 0 ∧ (2 * h * b + h + r) / h % 2 = 1 := by
  have h0 : 0 < h := by omega
  have e1 : (2 * h * b + r) / h = 2 * b := by
    rw [show 2 * h * b + r = h * (2 * b) + r by ring, Nat.mul_add_div h0, Nat.div_eq_of_lt hr, add_zero]
  have e2 : (2 * h * b + h + r) / h = 2 * b + 1 := by
    rw [show 2 * h * b + h + r = h * (2 * b + 1) + r by ring, Nat.mul_add_div h0, Nat.div_eq_of_lt hr, add_zero]
  omega

theorem stage_ok {H : PH τ} {c : List τ} {o k s : Nat} (d : τ) (hs : s < k) (hl : o + 2 ^ k ≤ c.length) :
    Ok (stage H o (2 ^ k) (2 ^ s) c) (fun l => l.length = c.length ∧ ∀ i, l.getD i d =
      if o ≤ i ∧ i < o + 2 ^ k ∧ (i - o) / 2 ^ s % 2 = 0 then H.qmul (c.getD i d) (c.getD (i + 2 ^ s) d) else c.getD i d) := by
  unfold stage
  set h := 2 ^ s with hh
  have h0 : 0 < h := by positivity
  have hn : 2 ^ k = 2 * h * 2 ^ (k - (s + 1)) := by
    rw [hh, ← pow_succ', ← pow_add]; congr 1; omega
  have hcnt : 2 ^ k / (2 * h) = 2 ^ (k - (s + 1)) := by rw [hn, Nat.mul_div_cancel_left _ (by omega)]
  rw [hcnt]
  set m := 2 ^ (k - (s + 1)) with hm
  let new : Nat → τ := fun i => if (i - o) / h % 2 = 0 then H.qmul (c.getD i d) (c.getD (i + h) d) else c.getD i d
  refine Ok.mono (forUp_inv (fun b (l : List τ) => l.length = c.length ∧ ∀ i, l.getD i d =
      if o ≤ i ∧ i < o + 2 * h * b then new i else c.getD i d) (Nat.zero_le _) ⟨rfl, fun i => ?_⟩ ?_) ?_
  · rw [if_neg (by omega)]
  · rintro b l _ hb ⟨l1, l2⟩
    have hbm : 2 * h * b + 2 * h ≤ 2 ^ k := by
      rw [hn]; have := blk_lt (h := 2 * h) (r := 2 * h - 1) hb (by omega); omega
    refine Ok.mono (forUp_inv (fun j (l : List τ) => l.length = c.length ∧ ∀ i, l.getD i d =
      if o ≤ i ∧ i < o + j then new i else c.getD i d) (by omega) ⟨l1, l2⟩ ?_) ?_
    · rintro j l hj hj' ⟨m1, m2⟩
      obtain ⟨r, rfl⟩ : ∃ r, j = 2 * h * b + r := ⟨j - 2 * h * b, by omega⟩
      have hr : r < h := by omega
      rw [butterfly_eq d (by omega)]
      refine Ok.some ⟨by rw [List.length_set, m1], fun i => ?_⟩
      have ea : l.getD (o + (2 * h * b + r)) d = c.getD (o + (2 * h * b + r)) d := by rw [m2, if_neg (by omega)]
      have eb : l.getD (o + (2 * h * b + r + h)) d = c.getD (o + (2 * h * b + r + h)) d := by rw [m2, if_neg (by omega)]
      rw [getD_set, ea, eb]
      by_cases h2 : o + (2 * h * b + r) = i
      · subst h2
        rw [if_pos ⟨rfl, by omega⟩, if_pos (by omega)]
        show _ = ite _ _ _
        rw [if_pos (by rw [Nat.add_sub_cancel_left]; exact (blk_div hr).1), add_assoc o]
      · rw [if_neg (by tauto), m2]
        by_cases h3 : o ≤ i ∧ i < o + (2 * h * b + r)
        · rw [if_pos h3, if_pos (by omega)]
        · rw [if_neg h3, if_neg (by omega)]
    · rintro l ⟨m1, m2⟩
      refine ⟨m1, fun i => ?_⟩
      have e : 2 * h * (b + 1) = 2 * h * b + 2 * h := by ring
      rw [m2, e]
      by_cases h3 : o ≤ i ∧ i < o + (2 * h * b + h)
      · rw [if_pos h3, if_pos (by omega)]
      · rw [if_neg h3]
        by_cases h4 : o ≤ i ∧ i < o + (2 * h * b + 2 * h)
        · rw [if_pos h4]
          show _ = ite _ _ _
          obtain ⟨r, hr⟩ : ∃ r, i = o + (2 * h * b + h + r) := ⟨i - (o + (2 * h * b + h)), by omega⟩
          subst hr
          rw [if_neg]
          rw [Nat.add_sub_cancel_left, (blk_div (by omega)).2]
          exact one_ne_zero
        · rw [if_neg h4]
  · rintro l ⟨l1, l2⟩
    refine ⟨l1, fun i => ?_⟩
    rw [l2, ← hn]
    show ite _ (ite _ _ _) _ = _
    by_cases h1 : o ≤ i ∧ i < o + 2 ^ k
    · rw [if_pos h1]
      by_cases h2 : (i - o) / h % 2 = 0
      · rw [if_pos h2, if_pos ⟨h1.1, h1.2, h2⟩]
      · rw [if_neg h2, if_neg (by tauto)]
    · rw [if_neg h1, if_neg (by tauto)]

/-- The loop over the stages, when the first layer has been done. -/
theorem stages_ok {H : PH τ} {c : List τ} {o k : Nat} {u : Nat → τ} (d : τ) (hk : 1 ≤ k) (hl : o + 2 ^ k ≤ c.length)
    (hu : ∀ j, j < 2 ^ k → c.getD (o + j) d = P H.qmul 1 u j) :
    Ok (stages H o k c) (fun l => l.length = c.length ∧ (∀ j, j < 2 ^ k → l.getD (o + j) d = P H.qmul k u j) ∧
      ∀ i, (i < o ∨ o + 2 ^ k ≤ i) → l.getD i d = c.getD i d) := by
  unfold stages
  refine Ok.mono (forUp_inv (fun s (l : List τ) => l.length = c.length ∧ (∀ j, j < 2 ^ k → l.getD (o + j) d = P H.qmul s u j) ∧
      ∀ i, (i < o ∨ o + 2 ^ k ≤ i) → l.getD i d = c.getD i d) hk ⟨rfl, hu, fun _ _ => rfl⟩ ?_) fun _ h => h
  rintro s l hs hs' ⟨l1, l2, l3⟩
  refine Ok.mono (stage_ok d hs' (by omega)) ?_
  rintro l' ⟨m1, m2⟩
  refine ⟨by rw [m1, l1], fun j hj => ?_, fun i hi => ?_⟩
  · rw [m2, Nat.add_sub_cancel_left]
    show _ = ite _ _ _
    by_cases hb : j / 2 ^ s % 2 = 0
    · rw [if_pos ⟨by omega, by omega, hb⟩, if_pos hb, l2 j hj, add_assoc, l2]
      -- the partner is inside the block
      have hk' : 2 ^ k = 2 ^ s * 2 ^ (k - s) := by rw [← pow_add]; congr 1; omega
      have h0 : 0 < 2 ^ s := by positivity
      have e2 : 2 ^ (k - s) = 2 * 2 ^ (k - (s + 1)) := by rw [← pow_succ']; congr 1; omega
      have h3 : j / 2 ^ s < 2 ^ (k - s) := by
        rw [Nat.div_lt_iff_lt_mul h0, mul_comm, ← hk']; exact hj
      have h4 : j / 2 ^ s + 1 < 2 ^ (k - s) := by omega
      have h5 : (j + 2 ^ s) / 2 ^ s = j / 2 ^ s + 1 := Nat.add_div_right _ h0
      rw [← h5, Nat.div_lt_iff_lt_mul h0, mul_comm, ← hk'] at h4
      exact h4
    · rw [if_neg (by tauto), if_neg hb, l2 j hj]
  · rw [m2, if_neg (by omega), l3 i hi]

/-- The value of `P` after the first layer. -/
theorem P_one (q : τ → τ → τ) (u : Nat → τ) (j : Nat) : P q 1 u j = if j % 2 = 0 then q (u j) (u (j + 1)) else u j := by
  show ite _ _ _ = _
  rw [pow_zero, Nat.div_one]; rfl

/-- Two neighbouring writes of the first layer. -/
theorem layer_step {q : τ → τ → τ} {u : Nat → τ} {c l : List τ} {d : τ} {o n h : Nat} (hn : o + n ≤ c.length) (hh : 2 * h + 1 < n)
    (l1 : l.length = c.length) (l2 : ∀ i, l.getD i d = if o ≤ i ∧ i < o + 2 * h then P q 1 u (i - o) else c.getD i d) :
    ∀ i, ((l.set (o + 2 * h) (q (u (2 * h)) (u (2 * h + 1)))).set (o + (2 * h + 1)) (u (2 * h + 1))).getD i d =
      if o ≤ i ∧ i < o + 2 * (h + 1) then P q 1 u (i - o) else c.getD i d := by
  intro i
  rw [getD_set, getD_set, List.length_set]
  by_cases h1 : o + (2 * h + 1) = i
  · subst h1
    rw [if_pos ⟨rfl, by omega⟩, if_pos (by omega), Nat.add_sub_cancel_left, P_one, if_neg (by omega)]
  · rw [if_neg (by tauto)]
    by_cases h2 : o + 2 * h = i
    · subst h2
      rw [if_pos ⟨rfl, by omega⟩, if_pos (by omega), Nat.add_sub_cancel_left, P_one, if_pos (by omega)]
    · rw [if_neg (by tauto), l2]
      by_cases h3 : o ≤ i ∧ i < o + 2 * h
      · rw [if_pos h3, if_pos (by omega)]
      · rw [if_neg h3, if_neg (by omega)]

/-! ### The frozen set -/

/-- Bit `i` of the array of 32-bit words: `true` = frozen. -/
def fbit (frozen : List Nat) (i : Nat) : Bool := (frozen.getD (i / 32) 0).testBit (i % 32)

theorem getBit_eq {frozen : List Nat} {i : Nat} (h : i < 32 * frozen.length) : getBit frozen i = some (fbit frozen i) := by
  unfold getBit fbit
  have h' : i / 32 < frozen.length := by omega
  rw [rd_of_lt h', sb, getElem_eq_getD _ 0]
  show some _ = some _
  congr 1
  unfold Nat.testBit
  rw [Nat.and_comm, Nat.one_and_eq_mod_two]
  rcases Nat.mod_two_eq_zero_or_one (frozen.getD (i / 32) 0 >>> (i % 32)) with h | h <;> rw [h] <;> rfl

/-- The number of information positions below `i`. -/
def rank (f : Nat → Bool) (i : Nat) : Nat := ((List.range i).filter fun j => !f j).length

theorem rank_succ (f : Nat → Bool) (i : Nat) : rank f (i + 1) = rank f i + if f i then 0 else 1 := by
  unfold rank
  rw [List.range_succ, List.filter_append, List.length_append]
  cases h : f i <;> simp [h]

theorem rank_mono (f : Nat → Bool) {i j : Nat} (h : i ≤ j) : rank f i ≤ rank f j := by
  induction j, h using Nat.le_induction with
  | base => rfl
  | succ j _ ih => rw [rank_succ]; omega

theorem rank_le (f : Nat → Bool) (i : Nat) : rank f i ≤ i := by
  unfold rank
  have := List.length_filter_le (fun j => !f j) (List.range i)
  rwa [List.length_range] at this

/-- The symbol at position `i` of the frozen-completed message: `one` at a frozen position, and at an
information position the message symbol whose index is the number of information positions before. -/
def complete (one : τ) (f : Nat → Bool) (message : List τ) (i : Nat) : τ :=
  if f i then one else message.getD (rank f i) one

theorem nextSym_eq {H : PH τ} {f : Nat → Bool} {message : List τ} {i n : Nat} (hm : rank f n ≤ message.length) (hi : i < n) :
    nextSym H (f i) message (rank f i) = some (complete H.one f message i, rank f (i + 1)) := by
  unfold nextSym complete
  rw [rank_succ]
  cases h : f i
  · have : rank f i < message.length := by
      have := rank_mono f (show i + 1 ≤ n by omega)
      rw [rank_succ, h] at this
      simp at this; omega
    simp only [Bool.false_eq_true, if_false]
    rw [rd_of_lt this, sb, getElem_eq_getD _ H.one]; rfl
  · rfl

theorem even_pow {k : Nat} (hk : 1 ≤ k) : 2 ^ k = 2 * 2 ^ (k - 1) := by rw [← pow_succ']; congr 1; omega

theorem encFirst_ok {H : PH τ} {message : List τ} {frozen : List Nat} {k : Nat} {c : List τ} (d : τ) (hk : 1 ≤ k)
    (hf : 2 ^ k ≤ 32 * frozen.length) (hm : rank (fbit frozen) (2 ^ k) ≤ message.length) (hc : 2 ^ k ≤ c.length) :
    Ok (encFirst H message frozen (2 ^ k) c) (fun l => l.length = c.length ∧ ∀ i, l.getD i d =
      if i < 2 ^ k then P H.qmul 1 (complete H.one (fbit frozen) message) i else c.getD i d) := by
  unfold encFirst
  have e := even_pow hk
  have e2 : (2 ^ k + 1) / 2 = 2 ^ (k - 1) := by omega
  rw [e2]
  refine Ok.bind' (forUp_inv (fun h (s : List τ × Nat) => s.2 = rank (fbit frozen) (2 * h) ∧ s.1.length = c.length ∧
    ∀ i, s.1.getD i d = if 0 ≤ i ∧ i < 0 + 2 * h then P H.qmul 1 (complete H.one (fbit frozen) message) (i - 0) else c.getD i d)
    (Nat.zero_le _) ⟨rfl, rfl, fun i => by rw [if_neg (by omega)]⟩ ?_) ?_
  · rintro h ⟨l, p⟩ _ hh ⟨hp, l1, l2⟩
    dsimp only at hp l1 l2 ⊢
    subst hp
    rw [getBit_eq (by omega), sb, nextSym_eq hm (by omega), sb, getBit_eq (by omega), sb, nextSym_eq hm (by omega), sb,
      wr_of_lt (by omega), sb, wr_of_lt (by rw [List.length_set]; omega), sb]
    refine Ok.some ⟨rfl, by simp [l1], ?_⟩
    have := layer_step (o := 0) (n := 2 ^ k) (h := h) (q := H.qmul) (by omega) (by omega) l1 l2
    simpa only [Nat.zero_add] using this
  · rintro ⟨l, p⟩ ⟨_, l1, l2⟩
    refine Ok.some ⟨l1, fun i => ?_⟩
    rw [l2, ← e]
    simp

theorem encode_ok {H : PH τ} {message : List τ} {frozen : List Nat} {k : Nat} {c : List τ} (d : τ) (hk : 1 ≤ k)
    (hf : 2 ^ k ≤ 32 * frozen.length) (hm : rank (fbit frozen) (2 ^ k) ≤ message.length) (hc : 2 ^ k ≤ c.length) :
    Ok (encode H c message frozen k) (fun l => l.length = c.length ∧ ∀ i, l.getD i d =
      if i < 2 ^ k then P H.qmul k (complete H.one (fbit frozen) message) i else c.getD i d) := by
  unfold encode
  refine Ok.bind' (encFirst_ok d hk hf hm hc) ?_
  rintro l ⟨l1, l2⟩
  refine Ok.mono (stages_ok (u := complete H.one (fbit frozen) message) d hk (by omega) (fun j hj => ?_)) ?_
  · rw [l2, Nat.zero_add, if_pos hj]
  · rintro l' ⟨m1, m2, m3⟩
    refine ⟨by omega, fun i => ?_⟩
    by_cases hi : i < 2 ^ k
    · rw [if_pos hi, ← m2 i hi, Nat.zero_add]
    · rw [if_neg hi, m3 i (by omega), l2, if_neg hi]

/-- The array with the frozen positions replaced by `one`. -/
def mask (one : τ) (f : Nat → Bool) (x : Nat → τ) (i : Nat) : τ := if f i then one else x i

theorem sysMask_ok {H : PH τ} {frozen : List Nat} {k : Nat} {c : List τ} (d : τ) (hk : 1 ≤ k)
    (hf : 2 ^ k ≤ 32 * frozen.length) (hc : 2 ^ k ≤ c.length) :
    Ok (sysMask H frozen (2 ^ k) c) (fun l => l.length = c.length ∧ ∀ i, l.getD i d =
      if i < 2 ^ k then P H.qmul 1 (mask H.one (fbit frozen) fun j => c.getD j d) i else c.getD i d) := by
  unfold sysMask
  have e := even_pow hk
  have e2 : (2 ^ k + 1) / 2 = 2 ^ (k - 1) := by omega
  rw [e2]
  refine Ok.mono (forUp_inv (fun h (l : List τ) => l.length = c.length ∧
    ∀ i, l.getD i d = if 0 ≤ i ∧ i < 0 + 2 * h then P H.qmul 1 (mask H.one (fbit frozen) fun j => c.getD j d) (i - 0) else c.getD i d)
    (Nat.zero_le _) ⟨rfl, fun i => by rw [if_neg (by omega)]⟩ ?_) ?_
  · rintro h l _ hh ⟨l1, l2⟩
    have ea : l.getD (2 * h) d = c.getD (2 * h) d := by rw [l2, if_neg (by omega)]
    have eb : l.getD (2 * h + 1) d = c.getD (2 * h + 1) d := by rw [l2, if_neg (by omega)]
    rw [getBit_eq (by omega), sb, rd_of_lt (by omega), sb, getElem_eq_getD _ d, ea]
    dsimp only
    rw [getBit_eq (by omega), sb, rd_of_lt (by omega), sb, getElem_eq_getD _ d, eb]
    rw [wr_of_lt (by omega), sb, wr_of_lt (by rw [List.length_set]; omega)]
    refine Ok.some ⟨by simp [l1], ?_⟩
    have := layer_step (o := 0) (n := 2 ^ k) (h := h) (q := H.qmul) (by omega) (by omega) l1 l2
    simpa only [Nat.zero_add, mask] using this
  · rintro l ⟨l1, l2⟩
    refine ⟨l1, fun i => ?_⟩
    rw [l2, ← e]
    simp

theorem P_congr {q : τ → τ → τ} {u v : Nat → τ} : ∀ {s j n : Nat}, (∀ i, i < n → u i = v i) → 2 ^ s * (j / 2 ^ s + 1) ≤ n →
    P q s u j = P q s v j := by
  intro s
  induction s with
  | zero => intro j n h hn; simp at hn; exact h j (by omega)
  | succ s ih =>
    intro j n h hn
    have h0 : 0 < 2 ^ s := by positivity
    have e1 : j / 2 ^ (s + 1) = j / 2 ^ s / 2 := by rw [pow_succ, Nat.div_div_eq_div_mul]
    rw [e1, pow_succ, mul_assoc] at hn
    show ite _ _ _ = ite _ _ _
    have h1 : 2 ^ s * (j / 2 ^ s + 1) ≤ n := le_trans (Nat.mul_le_mul_left _ (by omega)) hn
    by_cases hb : j / 2 ^ s % 2 = 0
    · rw [if_pos hb, if_pos hb, ih h h1, ih h]
      rw [Nat.add_div_right _ h0]
      exact le_trans (Nat.mul_le_mul_left _ (by omega)) hn
    · rw [if_neg hb, if_neg hb, ih h h1]

theorem P_congr' {q : τ → τ → τ} {u v : Nat → τ} {s j : Nat} (h : ∀ i, i < 2 ^ s → u i = v i) (hj : j < 2 ^ s) : P q s u j = P q s v j :=
  P_congr h (by rw [Nat.div_eq_of_lt hj, zero_add, mul_one])

theorem sysEncode_ok {H : PH τ} {message : List τ} {frozen : List Nat} {k : Nat} {c : List τ} (d : τ) (hk : 1 ≤ k)
    (hf : 2 ^ k ≤ 32 * frozen.length) (hm : rank (fbit frozen) (2 ^ k) ≤ message.length) (hc : 2 ^ k ≤ c.length) :
    Ok (sysEncode H c message frozen k) (fun l => l.length = c.length ∧ ∀ i, l.getD i d =
      if i < 2 ^ k then P H.qmul k (mask H.one (fbit frozen) (P H.qmul k (complete H.one (fbit frozen) message))) i else c.getD i d) := by
  have he := encode_ok (H := H) (c := c) d hk hf hm hc
  unfold sysEncode
  unfold encode at he
  obtain ⟨l, e, l1, l2⟩ := he
  rw [← bind_assoc]
  change Ok ((encFirst H message frozen (2 ^ k) c >>= fun c => stages H 0 k c) >>= _) _
  rw [e, sb]
  refine Ok.bind' (sysMask_ok d hk hf (by omega)) ?_
  rintro l' ⟨m1, m2⟩
  refine Ok.mono (stages_ok (u := mask H.one (fbit frozen) (P H.qmul k (complete H.one (fbit frozen) message))) d hk (by omega) (fun j hj => ?_)) ?_
  · rw [Nat.zero_add, m2, if_pos hj]
    refine P_congr (n := 2 ^ k) (fun i hi => ?_) ?_
    · unfold mask; dsimp only; rw [l2, if_pos hi]
    · have := even_pow hk; omega
  · rintro l'' ⟨n1, n2, n3⟩
    refine ⟨by omega, fun i => ?_⟩
    by_cases hi : i < 2 ^ k
    · rw [if_pos hi, ← n2 i hi, Nat.zero_add]
    · rw [if_neg hi, n3 i (by omega), m2, if_neg hi, l2, if_neg hi]

end Verif.Polar
