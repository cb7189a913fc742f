import Verif.CauchyPF.Proof
import Mathlib.Data.Finset.Card
/- Encoding and decoding. -/
namespace Verif.CauchyPF
open Verif.PrimeField Verif.Cauchy Finset
open Verif.RS (sb)

variable {w P wio L : Nat}

/-- A loop that replaces every element by a function of it. -/
theorem forUp_update {l : List Nat} {len : Nat} (f : Nat → List Nat → Option (List Nat)) (v : Nat → Nat → Nat) (hl : len ≤ l.length)
    (hf : ∀ i l', i < len → l'.length = l.length → f i l' = wr l' i (v i (l'.getD i 0))) :
    Ok (forUp 0 len l f) (fun l' => l'.length = l.length ∧
      ∀ i, l'.getD i 0 = if i < len then v i (l.getD i 0) else l.getD i 0) := by
  refine Ok.mono (forUp_inv (fun k (l' : List Nat) => l'.length = l.length ∧
      ∀ i, l'.getD i 0 = if i < k then v i (l.getD i 0) else l.getD i 0) (Nat.zero_le _) ⟨rfl, fun i => by simp⟩ ?_) (fun _ h => h)
  rintro k l' _ hk ⟨h1, h2⟩
  rw [hf k l' hk h1, wr_of_lt (by omega)]
  refine Ok.some ⟨by rw [List.length_set, h1], fun i => ?_⟩
  rw [getD_set]
  by_cases hki : k = i
  · subst hki
    rw [if_pos ⟨rfl, by omega⟩, if_pos (by omega), h2, if_neg (by omega)]
  · rw [if_neg (by tauto), h2]
    by_cases hik : i < k
    · rw [if_pos hik, if_pos (by omega)]
    · rw [if_neg hik, if_neg (by omega)]

/-- One element of `mac`, `mac_sub`. -/
def macVal (w P b : Nat) (first last : Bool) (x t : Nat) : Nat :=
  if first && last then opMul w P b x
  else if first then mul w b x
  else if last then reduce P (add w t (mul w b x))
  else add w t (mul w b x)

theorem mac_ok (h : Wide w P) {temp a : List Nat} {off b len : Nat} {first last : Bool} (ha : ∀ i, i < len → a.getD (off + i) 0 < P)
    (hal : off + len ≤ a.length) (htl : len ≤ temp.length) :
    Ok (mac w P temp a off b len first last) (fun t => t.length = temp.length ∧
      ∀ i, t.getD i 0 = if i < len then macVal w P b first last (a.getD (off + i) 0) (temp.getD i 0) else temp.getD i 0) := by
  unfold mac
  have rx : ∀ i, i < len → rd a (off + i) = some (a.getD (off + i) 0) := fun i hi => by
    rw [rd_of_lt (by omega), getElem_eq_getD _ 0]
  split
  · rename_i hc
    refine forUp_update _ (fun i t => macVal w P b first last (a.getD (off + i) 0) t) htl fun i l' hi hl' => ?_
    rw [rx i hi, sb, pf_eq h (ha i hi)]
    unfold macVal; rw [if_pos hc]
  · rename_i hc
    split
    · rename_i hc2
      refine forUp_update _ (fun i t => macVal w P b first last (a.getD (off + i) 0) t) htl fun i l' hi hl' => ?_
      rw [rx i hi, sb, pf_eq h (ha i hi)]
      unfold macVal; rw [if_neg hc, if_pos hc2]
    · rename_i hc2
      split
      · rename_i hc3
        refine forUp_update _ (fun i t => macVal w P b first last (a.getD (off + i) 0) t) htl fun i l' hi hl' => ?_
        rw [rx i hi, sb, pf_eq h (ha i hi), rd_of_lt (by omega), sb, getElem_eq_getD _ 0]
        unfold macVal; rw [if_neg hc, if_neg hc2, if_pos hc3]
      · rename_i hc3
        refine forUp_update _ (fun i t => macVal w P b first last (a.getD (off + i) 0) t) htl fun i l' hi hl' => ?_
        rw [rx i hi, sb, pf_eq h (ha i hi), rd_of_lt (by omega), sb, getElem_eq_getD _ 0]
        unfold macVal; rw [if_neg hc, if_neg hc2, if_neg hc3]

/-- The symbol a received value stands for. -/
def unsub (P s x : Nat) : Nat := if x = s then P - 1 else x

theorem macSub_ok (h : Wide w P) {c temp a : List Nat} {off b s len : Nat} {first last : Bool}
    (ha : ∀ i, i < len → a.getD (off + i) 0 < P)
    (hal : off + len ≤ a.length) (htl : len ≤ temp.length) (hcl : len ≤ c.length) :
    Ok (macSub w P wio c temp a off b s len first last) (fun r => r.1.length = c.length ∧ r.2.length = temp.length ∧
      (last = false → r.1 = c ∧ ∀ i, i < len → r.2.getD i 0 = macVal w P b first last (unsub P s (a.getD (off + i) 0)) (temp.getD i 0)) ∧
      (last = true → ∀ i, r.1.getD i 0 =
        if i < len then macVal w P b first last (unsub P s (a.getD (off + i) 0)) (temp.getD i 0) % 2 ^ wio else c.getD i 0)) := by
  have hP := h.prime.pos
  have rx : ∀ i, i < len → rd a (off + i) = some (a.getD (off + i) 0) := fun i hi => by
    rw [rd_of_lt (by omega), getElem_eq_getD _ 0]
  have ux : ∀ i, i < len → pf w (if a.getD (off + i) 0 = s then P - 1 else a.getD (off + i) 0) = unsub P s (a.getD (off + i) 0) :=
    fun i hi => by
      have := ha i hi
      unfold unsub
      split
      · exact pf_eq h (by omega)
      · exact pf_eq h this
  -- the two kinds of loops
  have kT : ∀ (f : Nat → List Nat × List Nat → Option (List Nat × List Nat)), last = false →
      (∀ i (p : List Nat × List Nat), i < len → p.2.length = temp.length →
        f i p = wr p.2 i (macVal w P b first last (unsub P s (a.getD (off + i) 0)) (p.2.getD i 0)) >>= fun t => some (p.1, t)) →
      Ok (forUp 0 len (c, temp) f) (fun r => r.1.length = c.length ∧ r.2.length = temp.length ∧
      (last = false → r.1 = c ∧ ∀ i, i < len → r.2.getD i 0 = macVal w P b first last (unsub P s (a.getD (off + i) 0)) (temp.getD i 0)) ∧
      (last = true → ∀ i, r.1.getD i 0 =
        if i < len then macVal w P b first last (unsub P s (a.getD (off + i) 0)) (temp.getD i 0) % 2 ^ wio else c.getD i 0)) := by
    intro f hlast hf
    refine Ok.mono (forUp_inv (fun k (p : List Nat × List Nat) => p.1 = c ∧ p.2.length = temp.length ∧
      ∀ i, p.2.getD i 0 = if i < k then macVal w P b first last (unsub P s (a.getD (off + i) 0)) (temp.getD i 0) else temp.getD i 0)
      (Nat.zero_le _) ⟨rfl, rfl, fun i => by simp⟩ ?_) ?_
    · rintro k p _ hk ⟨h0, h1, h2⟩
      rw [hf k p hk h1, wr_of_lt (by omega), sb]
      refine Ok.some ⟨h0, by rw [List.length_set, h1], fun i => ?_⟩
      dsimp only
      rw [getD_set]
      by_cases hki : k = i
      · subst hki
        rw [if_pos ⟨rfl, by omega⟩, if_pos (by omega), h2, if_neg (by omega)]
      · rw [if_neg (by tauto), h2]
        by_cases hik : i < k
        · rw [if_pos hik, if_pos (by omega)]
        · rw [if_neg hik, if_neg (by omega)]
    · rintro p ⟨h0, h1, h2⟩
      refine ⟨by rw [h0], h1, fun _ => ⟨h0, fun i hi => by rw [h2, if_pos hi]⟩, fun hh => ?_⟩
      rw [hlast] at hh; cases hh
  have kC : ∀ (f : Nat → List Nat × List Nat → Option (List Nat × List Nat)), last = true →
      (∀ i (p : List Nat × List Nat), i < len → p.2 = temp →
        f i p = wr p.1 i (macVal w P b first last (unsub P s (a.getD (off + i) 0)) (temp.getD i 0) % 2 ^ wio) >>= fun t => some (t, p.2)) →
      Ok (forUp 0 len (c, temp) f) (fun r => r.1.length = c.length ∧ r.2.length = temp.length ∧
      (last = false → r.1 = c ∧ ∀ i, i < len → r.2.getD i 0 = macVal w P b first last (unsub P s (a.getD (off + i) 0)) (temp.getD i 0)) ∧
      (last = true → ∀ i, r.1.getD i 0 =
        if i < len then macVal w P b first last (unsub P s (a.getD (off + i) 0)) (temp.getD i 0) % 2 ^ wio else c.getD i 0)) := by
    intro f hlast hf
    refine Ok.mono (forUp_inv (fun k (p : List Nat × List Nat) => p.2 = temp ∧ p.1.length = c.length ∧
      ∀ i, p.1.getD i 0 = if i < k then macVal w P b first last (unsub P s (a.getD (off + i) 0)) (temp.getD i 0) % 2 ^ wio
        else c.getD i 0)
      (Nat.zero_le _) ⟨rfl, rfl, fun i => by simp⟩ ?_) ?_
    · rintro k p _ hk ⟨h0, h1, h2⟩
      rw [hf k p hk h0, wr_of_lt (by omega), sb]
      refine Ok.some ⟨h0, by rw [List.length_set, h1], fun i => ?_⟩
      dsimp only
      rw [getD_set]
      by_cases hki : k = i
      · subst hki
        rw [if_pos ⟨rfl, by omega⟩, if_pos (by omega)]
      · rw [if_neg (by tauto), h2]
        by_cases hik : i < k
        · rw [if_pos hik, if_pos (by omega)]
        · rw [if_neg hik, if_neg (by omega)]
    · rintro p ⟨h0, h1, h2⟩
      refine ⟨h1, by rw [h0], fun hh => ?_, fun _ => h2⟩
      rw [hlast] at hh; cases hh
  unfold macSub
  dsimp only
  split
  · rename_i hc
    have hlast : last = true := by cases last <;> simp_all
    refine kC _ hlast fun i p hi hp => ?_
    obtain ⟨pc, pt⟩ := p
    dsimp only
    rw [rx i hi, sb, ux i hi]
    unfold macVal; rw [if_pos hc]; rfl
  · rename_i hc
    split
    · rename_i hc2
      have hlast : last = false := by cases last <;> simp_all
      refine kT _ hlast fun i p hi hp => ?_
      obtain ⟨pc, pt⟩ := p
      dsimp only
      rw [rx i hi, sb, ux i hi]
      unfold macVal; rw [if_neg hc, if_pos hc2]; rfl
    · rename_i hc2
      split
      · rename_i hc3
        refine kC _ hc3 fun i p hi hp => ?_
        obtain ⟨pc, pt⟩ := p
        dsimp only at hp ⊢
        subst hp
        rw [rx i hi, sb, ux i hi, rd_of_lt (by omega), sb, getElem_eq_getD _ 0]
        unfold macVal; rw [if_neg hc, if_neg hc2, if_pos hc3]; rfl
      · rename_i hc3
        refine kT _ (by simpa using hc3) fun i p hi hp => ?_
        obtain ⟨pc, pt⟩ := p
        dsimp only at hp ⊢
        rw [rx i hi, sb, ux i hi, rd_of_lt (by omega), sb, getElem_eq_getD _ 0]
        unfold macVal; rw [if_neg hc, if_neg hc2, if_neg hc3]; rfl

/-- No overflow in the sums. -/
theorem sum_fits (h : Wide w P) {k : Nat} (hk : k ≤ P / 2) : k * ((P - 1) * (P - 1)) < 2 ^ w := by
  have h5 := h.five
  refine lt_of_le_of_lt ?_ h.wide
  calc k * ((P - 1) * (P - 1)) = (P - 1) * ((P - 1) * k * 1) := by ring
    _ ≤ _ := Nat.mul_le_mul_left _ (Nat.mul_le_mul (Nat.mul_le_mul_left _ (by omega)) (by omega))

theorem macVal_ok (h : Wide w P) {b x t k cnt : Nat} (hb : b < P) (hx : x < P) (hk : k < cnt) (hcnt : cnt ≤ P / 2)
    (ht : 0 < k → t ≤ k * ((P - 1) * (P - 1))) :
    macVal w P b (k == 0) (k == cnt - 1) x t ≤ (k + 1) * ((P - 1) * (P - 1)) ∧
    (k = cnt - 1 → macVal w P b (k == 0) (k == cnt - 1) x t < P) ∧
    ((macVal w P b (k == 0) (k == cnt - 1) x t : Nat) : ZMod P) = (if k = 0 then 0 else (t : ZMod P)) + b * x := by
  have hP := h.prime.pos
  have h5 := h.five
  have hm : mul w b x = b * x := Nat.mod_eq_of_lt (mul_lt h.fits hb hx)
  have hbx : b * x ≤ (P - 1) * (P - 1) := Nat.mul_le_mul (by omega) (by omega)
  have hPP : P - 1 ≤ (P - 1) * (P - 1) := Nat.le_mul_of_pos_left _ (by omega)
  have hk1 : (P - 1) * (P - 1) ≤ (k + 1) * ((P - 1) * (P - 1)) := Nat.le_mul_of_pos_left _ (by omega)
  unfold macVal
  by_cases h0 : k = 0
  · subst h0
    by_cases h1 : cnt - 1 = 0
    · rw [if_pos (by simp [h1])]
      obtain ⟨m1, m2⟩ := C21_mul h.fits hb hx
      refine ⟨by omega, fun _ => m1, by rw [m2]; simp⟩
    · rw [if_neg (by simp; omega), if_pos (by simp), hm]
      exact ⟨by omega, fun hh => by omega, by simp⟩
  · have ht' := ht (by omega)
    have e : (k + 1) * ((P - 1) * (P - 1)) = k * ((P - 1) * (P - 1)) + (P - 1) * (P - 1) := by ring
    have hs : add w t (b * x) = t + b * x := Nat.mod_eq_of_lt (by
      have := sum_fits h (show k + 1 ≤ P / 2 by omega)
      omega)
    rw [if_neg (by simp [h0]), if_neg (by simp [h0]), hm, hs]
    by_cases h1 : k = cnt - 1
    · rw [if_pos (by simpa using h1)]
      have hlt : reduce P (t + b * x) < P := Nat.mod_lt _ hP
      refine ⟨by omega, fun _ => hlt, ?_⟩
      rw [reduce_cast, if_neg h0]; push_cast; rfl
    · rw [if_neg (by simpa using h1)]
      refine ⟨by omega, fun hh => absurd hh h1, ?_⟩
      rw [if_neg h0]; push_cast; rfl

/-- The array `temp` after `k` of `cnt` products have been added. -/
structure TempOK (P : Nat) (len cnt : Nat) (β : Nat → ZMod P) (x : Nat → Nat → Nat) (k : Nat) (t : List Nat) : Prop where
  le : 0 < k → ∀ i, i < len → t.getD i 0 ≤ k * ((P - 1) * (P - 1))
  last : k = cnt → ∀ i, i < len → t.getD i 0 < P
  value : 0 < k → ∀ i, i < len → ((t.getD i 0 : Nat) : ZMod P) = ∑ j ∈ range k, β j * (x j i : ZMod P)

theorem TempOK.step (h : Wide w P) {len cnt k b : Nat} {β : Nat → ZMod P} {x : Nat → Nat → Nat} {t t' : List Nat}
    (H : TempOK P len cnt β x k t) (hb : b < P) (hβ : (b : ZMod P) = β k) (hx : ∀ i, i < len → x k i < P) (hk : k < cnt)
    (hcnt : cnt ≤ P / 2) (ht : ∀ i, i < len → t'.getD i 0 = macVal w P b (k == 0) (k == cnt - 1) (x k i) (t.getD i 0)) :
    TempOK P len cnt β x (k + 1) t' := by
  have key := fun i (hi : i < len) => macVal_ok h (t := t.getD i 0) hb (hx i hi) hk hcnt (fun h0 => H.le h0 i hi)
  refine ⟨fun _ i hi => ?_, fun he i hi => ?_, fun _ i hi => ?_⟩
  · rw [ht i hi]; exact (key i hi).1
  · rw [ht i hi]; exact (key i hi).2.1 (by omega)
  · rw [ht i hi, (key i hi).2.2, sum_range_succ, hβ]
    by_cases h0 : k = 0
    · subst h0; simp
    · rw [if_neg h0, H.value (by omega) i hi]

/-! ### The substitute -/

theorem bit_test (u j : Nat) : (u &&& 1 <<< j ≠ 0) ↔ u.testBit j = true := by
  rw [Nat.one_shiftLeft]
  constructor
  · intro hne
    by_contra hb
    apply hne
    apply Nat.eq_of_testBit_eq
    intro i
    rw [Nat.testBit_and, Nat.testBit_two_pow, Nat.zero_testBit]
    by_cases hij : j = i
    · subst hij; simpa using hb
    · simp [hij]
  · intro hb he
    have : (u &&& 2 ^ j).testBit j = true := by rw [Nat.testBit_and, hb, Nat.testBit_two_pow_self]; rfl
    rw [he, Nat.zero_testBit] at this
    cases this

/-- The search returns the first unset bit. -/
theorem search_ok {used : List Nat} {m : Nat} (hm : m / 8 < used.length) (hbit : (used.getD (m / 8) 0).testBit (m % 8) = false)
    (hset : ∀ s, s < m → (used.getD (s / 8) 0).testBit (s % 8) = true) :
    ∀ (f s : Nat), s ≤ m → m - s < f → searchUnused used f s = some m := by
  intro f
  induction f with
  | zero => intro s _ h; omega
  | succ f ih =>
    intro s hs hf
    unfold searchUnused
    have hd : s / 8 ≤ m / 8 := Nat.div_le_div_right hs
    rw [rd_of_lt (by omega), sb, getElem_eq_getD _ 0]
    by_cases he : s = m
    · subst he
      rw [if_neg]
      rw [bit_test, hbit]; simp
    · rw [if_pos ((bit_test _ _).2 (hset s (by omega)))]
      exact ih (s + 1) (by omega) (by omega)

theorem findUnused_ok (h : Wide w P) {used temp : List Nat} {len : Nat} (hu : used.length = (P + 7) / 8) (hlen : len < P - 1)
    (htl : len ≤ temp.length) (ht : ∀ i, i < len → temp.getD i 0 < P) :
    Ok (findUnused P used temp len) (fun r => r.2.length = used.length ∧ r.1 ≤ len ∧ ∀ i, i < len → temp.getD i 0 ≠ r.1) := by
  have h5 := h.five
  unfold findUnused
  refine Ok.bind' (P := fun u => u.length = used.length ∧ ∀ i, i < (P + 7) / 8 → u.getD i 0 = 0)
    (forUp_inv (fun k (u : List Nat) => u.length = used.length ∧ ∀ i, i < k → u.getD i 0 = 0) (Nat.zero_le _) ⟨rfl, by omega⟩ ?_) ?_
  · rintro k u _ hk ⟨h1, h2⟩
    rw [wr_of_lt (by omega)]
    refine Ok.some ⟨by rw [List.length_set, h1], fun i hi => ?_⟩
    rw [getD_set]
    by_cases hki : k = i
    · subst hki; rw [if_pos ⟨rfl, by omega⟩]
    · rw [if_neg (by tauto), h2 i (by omega)]
  rintro u0 ⟨l0, z0⟩
  refine Ok.bind' (P := fun u => u.length = used.length ∧ ∀ t, t < P →
      ((u.getD (t / 8) 0).testBit (t % 8) = true ↔ ∃ i, i < len ∧ temp.getD i 0 = t))
    (forUp_inv (fun k (u : List Nat) => u.length = used.length ∧ ∀ t, t < P →
      ((u.getD (t / 8) 0).testBit (t % 8) = true ↔ ∃ i, i < k ∧ temp.getD i 0 = t)) (Nat.zero_le _) ⟨l0, ?_⟩ ?_) ?_
  · intro t htP
    rw [z0 _ (by omega), Nat.zero_testBit]
    simp
  · rintro k u _ hk ⟨h1, h2⟩
    have hk' := ht k hk
    rw [rd_of_lt (by omega), sb, getElem_eq_getD _ 0, rd_of_lt (by omega), sb, getElem_eq_getD _ 0, wr_of_lt (by omega)]
    refine Ok.some ⟨by rw [List.length_set, h1], fun t htP => ?_⟩
    rw [getD_set]
    have hiff : (∃ i, i < k + 1 ∧ temp.getD i 0 = t) ↔ ((∃ i, i < k ∧ temp.getD i 0 = t) ∨ temp.getD k 0 = t) := by
      constructor
      · rintro ⟨i, hi, he⟩
        by_cases hik : i = k
        · subst hik; exact Or.inr he
        · exact Or.inl ⟨i, by omega, he⟩
      · rintro (⟨i, hi, he⟩ | he)
        · exact ⟨i, by omega, he⟩
        · exact ⟨k, by omega, he⟩
    rw [hiff, ← h2 t htP]
    by_cases hd : temp.getD k 0 / 8 = t / 8
    · rw [if_pos ⟨hd, by omega⟩, hd, Nat.testBit_mod_two_pow, Nat.testBit_or, Nat.one_shiftLeft, Nat.testBit_two_pow]
      have h8 : t % 8 < 8 := Nat.mod_lt _ (by norm_num)
      rw [decide_eq_true h8, Bool.true_and, Bool.or_eq_true, decide_eq_true_iff]
      refine or_congr Iff.rfl ?_
      omega
    · rw [if_neg (by tauto)]
      constructor
      · exact Or.inl
      · rintro (hb | he)
        · exact hb
        · rw [he] at hd; exact absurd rfl hd
  rintro u ⟨l1, hb⟩
  -- the smallest value that does not occur
  have hex : ∃ m, ∀ i, i < len → temp.getD i 0 ≠ m := by
    refine ⟨P, fun i hi => ?_⟩
    have := ht i hi; omega
  classical
  have hpig : ∃ m, m ≤ len ∧ ∀ i, i < len → temp.getD i 0 ≠ m := by
    by_contra hc
    push Not at hc
    have hsub : range (len + 1) ⊆ (range len).image fun i => temp.getD i 0 := by
      intro m hm
      rw [mem_range] at hm
      obtain ⟨i, hi, he⟩ := hc m (by omega)
      exact mem_image.2 ⟨i, mem_range.2 hi, he⟩
    have := (card_le_card hsub).trans card_image_le
    rw [card_range, card_range] at this
    omega
  set m := Nat.find hex with hmdef
  have hm1 := Nat.find_spec hex
  rw [← hmdef] at hm1
  have hm2 : m ≤ len := by
    obtain ⟨m', h1, h2⟩ := hpig
    exact (Nat.find_min' hex h2).trans h1
  have hset : ∀ s, s < m → (u.getD (s / 8) 0).testBit (s % 8) = true := fun s hs => by
    rw [hb s (by omega)]
    have := Nat.find_min hex hs
    push Not at this
    exact this
  have hun : (u.getD (m / 8) 0).testBit (m % 8) = false := by
    rw [Bool.eq_false_iff, Ne, hb m (by omega)]
    rintro ⟨i, hi, he⟩
    exact hm1 i hi he
  rw [search_ok (by omega) hun hset (P + 8) 0 (by omega) (by omega), sb]
  exact Ok.some ⟨l1, hm2, hm1⟩

/-! ### The code -/

/-- The members have the sizes given by their declarations. -/
def Members (P L : Nat) (st : St) : Prop := st.temp.length = L ∧ st.used.length = (P + 7) / 8

theorem cauchyMatrix_ok (h : Wide w P) [Fact P.Prime] {i j : Nat} (hi : i < P / 2) (hj : j < i) :
    cauchyMatrix w P i j < P ∧ ((cauchyMatrix w P i j : Nat) : ZMod P) = ((i : ZMod P) + j)⁻¹ := by
  have hodd := odd_half h
  have h5 := h.five
  unfold cauchyMatrix
  rw [pf_eq h (show i < P by omega), pf_eq h (show j < P by omega)]
  obtain ⟨a1, a2⟩ := C21_add h.fits (show i < P by omega) (show j < P by omega)
  have hne : opAdd w P i j ≠ 0 := by
    unfold opAdd reduce
    rw [add_val h (by omega) (by omega), Nat.mod_eq_of_lt (by omega)]; omega
  obtain ⟨r1, r2, _⟩ := C21_rcp h.fits a1 hne
  refine ⟨r1, ?_⟩
  rw [a2] at r2
  exact eq_inv_of_mul_eq_one_right r2

theorem mul_block {len k cnt n : Nat} (hk : k < cnt) (h : len * cnt ≤ n) : len * k + len ≤ n := by
  have : len * (k + 1) ≤ len * cnt := Nat.mul_le_mul_left _ hk
  rw [Nat.mul_succ] at this
  omega

structure EncPost (P wio len cnt : Nat) (data block : List Nat) (id : Nat) (v : Nat → Nat) (block' : List Nat) (s : Nat) : Prop where
  range : ∀ i, i < len → v i < P
  value : ∀ i, i < len → (v i : ZMod P) = ∑ k ∈ Finset.range cnt, ((id : ZMod P) + k)⁻¹ * (data.getD (len * k + i) 0 : ZMod P)
  sub : s ≤ len
  fresh : ∀ i, i < len → v i ≠ s
  length : block'.length = block.length
  out : ∀ i, block'.getD i 0 = if i < len then (if v i = P - 1 then s else v i) else block.getD i 0

theorem intMul_ok {len k cnt : Nat} (hint : (P - 2) * (P / 2) ≤ 2 ^ 31) (h5 : 5 ≤ P) (hlen : len < P - 1) (hk : k < cnt) (hcnt : cnt ≤ P / 2) :
    intMul len k = some (len * k) := by
  have h1 : len * k ≤ (P - 2) * k := Nat.mul_le_mul_right _ (by omega)
  have h2 : (P - 2) * k < (P - 2) * (P / 2) := Nat.mul_lt_mul_of_pos_left (by omega) (by omega)
  unfold intMul assertUB
  rw [if_pos (by omega)]; rfl

theorem encode_ok (h : Wide w P) [Fact P.Prime] (hint : (P - 2) * (P / 2) ≤ 2 ^ 31) (hio : P - 1 ≤ 2 ^ wio) (hL : L < P - 1) {st : St} (hst : Members P L st)
    {data block : List Nat} {id len cnt : Nat} (hcnt : 0 < cnt) (hd : ∀ x ∈ data, x < P) (hdl : len * cnt ≤ data.length)
    (hbl : len ≤ block.length) (hlen : len ≤ L) (hid : cnt ≤ id) (hid' : id < P / 2) :
    Ok (encode w P wio L st data block id len cnt) (fun r => Members P L r.2.2 ∧ ∃ v, EncPost P wio len cnt data block id v r.1 r.2.1) := by
  have hP := h.prime.pos
  have h5 := h.five
  have hdg : ∀ i, data.getD i 0 < P := fun i => by
    by_cases hi : i < data.length
    · rw [← getElem_eq_getD hi 0]; exact hd _ (List.getElem_mem hi)
    · rw [List.getD_eq_default _ _ (by omega)]; omega
  unfold encode
  refine Ok.bind' (P := fun _ => True) (Ok.assertUB ⟨hid, hid'⟩ trivial) fun _ _ => ?_
  refine Ok.bind' (P := fun _ => True) (Ok.assertUB hlen trivial) fun _ _ => ?_
  refine Ok.bind' (P := fun t => t.length = L ∧ TempOK P len cnt (fun k => ((id : ZMod P) + k)⁻¹) (fun k i => data.getD (len * k + i) 0) cnt t)
    (forUp_inv (fun k (t : List Nat) => t.length = L ∧
      TempOK P len cnt (fun k => ((id : ZMod P) + k)⁻¹) (fun k i => data.getD (len * k + i) 0) k t) (Nat.zero_le _)
      ⟨hst.1, by omega, by omega, by omega⟩ ?_) ?_
  · rintro k t _ hk ⟨h1, h2⟩
    obtain ⟨c1, c2⟩ := cauchyMatrix_ok h hid' (show k < id by omega)
    rw [intMul_ok hint h5 (by omega) hk (by omega), sb]
    refine (mac_ok h (fun i _ => hdg _) (mul_block hk hdl) (by omega)).mono ?_
    rintro t' ⟨l', e'⟩
    refine ⟨by omega, h2.step h c1 c2 (fun i _ => hdg _) hk (by omega) fun i hi => ?_⟩
    rw [e', if_pos hi]
  rintro t ⟨tl, hT⟩
  refine Ok.bind' (findUnused_ok h hst.2 (by omega) (by omega) (hT.last rfl)) ?_
  rintro ⟨s, used⟩ ⟨u1, u2, u3⟩
  dsimp only at u1 u2 u3 ⊢
  refine Ok.bind' (forUp_update _ (fun i _ => (if t.getD i 0 = P - 1 then s else t.getD i 0) % 2 ^ wio) hbl fun i l' hi hl' => ?_) ?_
  · rw [rd_of_lt (by omega), sb, getElem_eq_getD _ 0]
  rintro b ⟨bl, be⟩
  refine Ok.some ⟨⟨tl, u1.trans hst.2⟩, fun i => t.getD i 0, hT.last rfl, hT.value hcnt, u2, u3, bl, fun i => ?_⟩
  rw [be]
  by_cases hi : i < len
  · rw [if_pos hi, if_pos hi]
    have := hT.last rfl i hi
    refine Nat.mod_eq_of_lt ?_
    split <;> omega
  · rw [if_neg hi, if_neg hi]

theorem decode_ok (h : Wide w P) [Fact P.Prime] (hint : (P - 2) * (P / 2) ≤ 2 ^ 31) (hL : L < P - 1) {st : St} (hst : Members P L st)
    {out blocks subs ids : List Nat} {idx len cnt : Nat} (hd : ∀ x ∈ blocks, x < P)
    (hdl : len * cnt ≤ blocks.length) (hbl : len ≤ out.length) (hlen : len ≤ L) (hsl : cnt ≤ subs.length) (hr : Ids P cnt ids)
    (hidx : idx < cnt) :
    Ok (decode w P wio L st out blocks subs ids idx len cnt) (fun r => Members P L r.2 ∧ r.1.length = out.length ∧
      ∃ v : Nat → Nat, (∀ i, i < len → v i < P) ∧ (∀ i, i < len → (v i : ZMod P) = ∑ k ∈ range cnt,
        binv cnt (fun k => (ids.getD k 0 : ZMod P)) (fun k => (k : ZMod P)) idx k *
          (unsub P (subs.getD k 0) (blocks.getD (len * k + i) 0) : ZMod P)) ∧
      ∀ i, r.1.getD i 0 = if i < len then v i % 2 ^ wio else out.getD i 0) := by
  have hP := h.prime.pos
  have h5 := h.five
  have hdg : ∀ i, blocks.getD i 0 < P := fun i => by
    by_cases hi : i < blocks.length
    · rw [← getElem_eq_getD hi 0]; exact hd _ (List.getElem_mem hi)
    · rw [List.getD_eq_default _ _ (by omega)]; omega
  have hun : ∀ k i, unsub P (subs.getD k 0) (blocks.getD (len * k + i) 0) < P := fun k i => by
    have := hdg (len * k + i)
    unfold unsub; split <;> omega
  have hcP : cnt ≤ P / 2 := le_of_lt (lt_of_le_of_lt (hr.low 0 (by omega)) (hr.high 0 (by omega)))
  set β : Nat → ZMod P := fun k => binv cnt (fun k => (ids.getD k 0 : ZMod P)) (fun k => (k : ZMod P)) idx k with hβ
  set x : Nat → Nat → Nat := fun k i => unsub P (subs.getD k 0) (blocks.getD (len * k + i) 0) with hx
  unfold decode
  refine Ok.bind' (P := fun _ => True) (Ok.assertUB hlen trivial) fun _ _ => ?_
  refine Ok.mono (forUp_inv (fun k (s : List Nat × St) => Members P L s.2 ∧ s.1.length = out.length ∧
      (k = 0 ∨ RowOK P ids idx cnt (s.2.num, s.2.den)) ∧
      (k < cnt → s.1 = out ∧ TempOK P len cnt β x k s.2.temp) ∧
      (k = cnt → ∃ t : List Nat, TempOK P len cnt β x k t ∧ ∀ i, s.1.getD i 0 = if i < len then t.getD i 0 % 2 ^ wio else out.getD i 0))
      (Nat.zero_le _) ⟨hst, rfl, Or.inl rfl, fun _ => ⟨rfl, by omega, by omega, by omega⟩, by omega⟩ ?_) ?_
  · rintro k ⟨c, s⟩ _ hk ⟨m, hl, hrow, hlt, -⟩
    dsimp only at m hl hrow hlt ⊢
    obtain ⟨rfl, hT⟩ := hlt hk
    obtain ⟨⟨b, r⟩, hb, b1, b2, b3⟩ := inverseCauchy_ok h (st := (s.num, s.den)) hr hidx hk hrow
    rw [hb, sb, rd_of_lt (by omega), sb, getElem_eq_getD _ 0]
    dsimp only at b1 b2 b3 ⊢
    rw [intMul_ok hint h5 (by omega) hk hcP, sb]
    refine Ok.bind' (macSub_ok h (wio := wio) (s := subs.getD k 0) (fun i _ => hdg _) (mul_block hk hdl) (by rw [m.1]; exact hlen) hbl) ?_
    rintro ⟨c', t'⟩ ⟨q1, q2, q3, q4⟩
    dsimp only at q1 q2 q3 q4 ⊢
    refine Ok.pure ⟨⟨q2.trans m.1, m.2⟩, q1, Or.inr b2, ?_, ?_⟩
    · intro hk1
      obtain ⟨p1, p2⟩ := q3 (by simp; omega)
      exact ⟨p1, hT.step h b1 b3 (fun i _ => hun k i) hk hcP p2⟩
    · intro hk1
      have p := q4 (by simp; omega)
      -- the values that would be in `temp`
      set t : List Nat := (List.range len).map fun i => macVal w P b (k == 0) (k == cnt - 1) (x k i) (s.temp.getD i 0) with htd
      have ht : ∀ i, i < len → t.getD i 0 = macVal w P b (k == 0) (k == cnt - 1) (x k i) (s.temp.getD i 0) := fun i hi => by
        rw [htd, List.getD_eq_getElem _ _ (by simp; omega), List.getElem_map, List.getElem_range]
      refine ⟨t, hT.step h b1 b3 (fun i _ => hun k i) hk hcP ht, fun i => ?_⟩
      rw [p]
      by_cases hi : i < len
      · rw [if_pos hi, if_pos hi, ht i hi]
      · rw [if_neg hi, if_neg hi]
  · rintro ⟨c, s⟩ ⟨m, hl, _, _, hlast⟩
    obtain ⟨t, hT, he⟩ := hlast rfl
    exact ⟨m, hl, fun i => t.getD i 0, hT.last rfl, hT.value (by omega), he⟩

end Verif.CauchyPF
