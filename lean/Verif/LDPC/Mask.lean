import Verif.LDPC.Run
/- The rotation of the write disable masks. -/
namespace Verif.LDPC
open Verif.RS (sb)

theorem mask_testBit (count first k : Nat) : (((1 <<< count) - 1) <<< first).testBit k = (decide (first ≤ k) && decide (k < first + count)) := by
  rw [Nat.testBit_shiftLeft, Nat.shiftLeft_eq, Nat.one_mul, Nat.testBit_two_pow_sub_one]
  by_cases h : first ≤ k
  · simp only [h, decide_true, Bool.true_and, ge_iff_le]
    congr 1
    rw [eq_iff_iff]; omega
  · simp [h]

theorem not_testBit (m k : Nat) (hm : m < 2 ^ 32) (hk : k < 32) : (2 ^ 32 - 1 - m).testBit k = !m.testBit k := by
  rw [show 2 ^ 32 - 1 - m = 2 ^ 32 - (m + 1) by omega, Nat.testBit_two_pow_sub_succ hm]
  simp [hk]

/-- Rotating bits `first .. last` to the right by one. -/
theorem rorField_bits (cur first last : Nat) (h1 : first < last) (h2 : last < 30) :
    Ok (rorField cur first last) fun v => ∀ k < 32, v.testBit k =
      if first ≤ k ∧ k ≤ last then (if k < last then cur.testBit (k + 1) else cur.testBit first) else cur.testBit k := by
  unfold rorField
  dsimp only
  have hm : ((1 <<< (last - first + 1)) - 1) <<< first < 2 ^ 32 := by
    rw [Nat.shiftLeft_eq, Nat.shiftLeft_eq, Nat.one_mul]
    have : (2 ^ (last - first + 1) - 1) * 2 ^ first < 2 ^ (last - first + 1) * 2 ^ first :=
      Nat.mul_lt_mul_of_pos_right (by have := Nat.two_pow_pos (last - first + 1); omega) (Nat.two_pow_pos _)
    refine lt_of_lt_of_le this ?_
    rw [← Nat.pow_add]
    exact Nat.pow_le_pow_right (by omega) (by omega)
  rw [show assertUB (last - first + 1 ≤ 30) = some () from if_pos (by omega), sb,
    show assertUB (((1 <<< (last - first + 1)) - 1) <<< first < 2 ^ 32) = some () from if_pos hm, sb]
  refine Ok.some fun k hk => ?_
  have hmk := mask_testBit (last - first + 1) first
  generalize (((1 <<< (last - first + 1)) - 1) <<< first) = mask at hm hmk ⊢
  rw [Nat.testBit_or, Nat.testBit_and, Nat.testBit_and, not_testBit _ _ hm hk, Nat.testBit_or, Nat.testBit_shiftRight, Nat.testBit_mod_two_pow,
    Nat.testBit_shiftLeft, Nat.testBit_and, Nat.testBit_and, hmk k, hmk (1 + k), hmk (k - (last - first + 1 - 1)), show last - first + 1 - 1 = last - first by omega]
  by_cases hin : first ≤ k ∧ k ≤ last
  · rw [if_pos hin]
    have e1 : first ≤ k := hin.1
    have e2 : k < first + (last - first + 1) := by omega
    simp only [e1, e2, decide_true, Bool.true_and, Bool.not_true, Bool.and_false, Bool.false_or, Bool.and_true, hk]
    by_cases hl : k < last
    · have e3 : first ≤ 1 + k := by omega
      have e4 : 1 + k < first + (last - first + 1) := by omega
      have e5 : ¬ (k ≥ last - first ∧ first ≤ k - (last - first) ) := by omega
      rw [if_pos hl]
      simp only [e3, e4, decide_true, Bool.and_true]
      rw [Nat.add_comm 1 k]
      by_cases e6 : k ≥ last - first
      · have e7 : ¬ first ≤ k - (last - first) := fun hh => e5 ⟨e6, hh⟩
        simp [e7]
      · simp [e6]
    · have hkl : k = last := by omega
      subst hkl
      rw [if_neg hl]
      have e3 : ¬ 1 + k < first + (k - first + 1) := by omega
      have e4 : k ≥ k - first := by omega
      have e5 : k - (k - first) = first := by omega
      simp [e5]
      intro _ hh
      omega
  · rw [if_neg hin]
    have : (decide (first ≤ k) && decide (k < first + (last - first + 1))) = false := by
      rw [Bool.and_eq_false_iff, decide_eq_false_iff_not, decide_eq_false_iff_not]; omega
    rw [this]
    simp

/-- The first link in the register of link `k`. -/
def fst (o : Nat → Nat) : Nat → Nat
  | 0 => 0
  | k + 1 => if o k = o (k + 1) then fst o k else k + 1

/-- The next link in the register, cyclically. -/
def nxt (o : Nat → Nat) (cnt k : Nat) : Nat := if k + 1 < cnt ∧ o k = o (k + 1) then k + 1 else fst o k

theorem fst_le (o : Nat → Nat) (k : Nat) : fst o k ≤ k := by
  induction k with
  | zero => exact le_rfl
  | succ k ih => unfold fst; split <;> omega

theorem fst_same (o : Nat → Nat) (k : Nat) : ∀ m, fst o k ≤ m → m ≤ k → o m = o k := by
  induction k with
  | zero => intro m _ h; have : m = 0 := by omega
            rw [this]
  | succ k ih =>
    intro m h1 h2
    unfold fst at h1
    by_cases he : o k = o (k + 1)
    · rw [if_pos he] at h1
      by_cases hm : m = k + 1
      · rw [hm]
      · rw [← he]; exact ih m h1 (by omega)
    · rw [if_neg he] at h1
      have : m = k + 1 := by omega
      rw [this]

theorem fst_eq (o : Nat → Nat) {a : Nat} (ha : a = 0 ∨ o (a - 1) ≠ o a) : ∀ k, a ≤ k → (∀ m, a ≤ m → m ≤ k → o m = o a) → fst o k = a := by
  intro k
  induction k with
  | zero => intro h _; unfold fst; omega
  | succ k ih =>
    intro h1 h2
    unfold fst
    by_cases hk : a = k + 1
    · subst hk
      rcases ha with ha | ha
      · omega
      · rw [Nat.add_sub_cancel] at ha; rw [if_neg ha]
    · rw [if_pos (by rw [h2 k (by omega) (by omega), h2 (k + 1) (by omega) le_rfl])]
      exact ih (by omega) fun m h3 h4 => h2 m h3 (by omega)

theorem fst_start (o : Nat → Nat) (k : Nat) : fst o k = 0 ∨ o (fst o k - 1) ≠ o (fst o k) := by
  induction k with
  | zero => left; rfl
  | succ k ih =>
    unfold fst
    split
    · exact ih
    · rename_i h; right; simpa using h

/-- The last link does not stand alone behind a register with several links. -/
def GoodRow (o : Nat → Nat) (cnt : Nat) : Prop := 3 ≤ cnt → o (cnt - 3) = o (cnt - 2) → o (cnt - 2) = o (cnt - 1)

/-- What `wdNext` does to the mask: every link takes over the bit of the next link in its register. -/
theorem wdNext_ex {X : Dec} (wd : List Nat) (ix lo cnt : Nat) (o : Nat → Nat) (h1 : ix < wd.length) (h3 : cnt ≤ 30)
    (hloc : ∀ k < cnt, ∃ l, rd X.loc (lo + k) = some l ∧ l.off = o k) (hgood : GoodRow o cnt)
    (hone : ∀ k < cnt, nxt o cnt k = k → (wd.getD ix 0).testBit k = false) :
    Ok (wdNext X wd ix lo cnt) fun w => w.length = wd.length ∧ (∀ a, a ≠ ix → w.getD a 0 = wd.getD a 0) ∧
      ∀ k < cnt, (w.getD ix 0).testBit k = (wd.getD ix 0).testBit (nxt o cnt k) := by
  unfold wdNext
  rw [rd_of_lt h1, sb, getElem_eq_getD h1 0]
  set v := wd.getD ix 0 with hv
  by_cases hw : v ≠ 0
  swap
  · rw [if_neg hw]
    push Not at hw
    refine Ok.some ⟨rfl, fun _ _ => rfl, fun k hk => ?_⟩
    rw [← hv, hw, Nat.zero_testBit, Nat.zero_testBit]
  rw [if_pos hw]
  -- single links
  have hnx1 : ∀ k < cnt, fst o k = k → (k + 1 < cnt → o k ≠ o (k + 1)) → nxt o cnt k = k := by
    intro k hk hf hn
    unfold nxt
    rw [if_neg (fun hh => hn hh.1 hh.2), hf]
  let Done : Nat → List Nat → Prop := fun m w => w.length = wd.length ∧ (∀ a, a ≠ ix → w.getD a 0 = wd.getD a 0) ∧
    (∀ k < m, (w.getD ix 0).testBit k = v.testBit (nxt o cnt k)) ∧ ∀ k, m ≤ k → k < cnt → (w.getD ix 0).testBit k = v.testBit k
  have hfin : ∀ w, Done cnt w → w.length = wd.length ∧ (∀ a, a ≠ ix → w.getD a 0 = wd.getD a 0) ∧
      ∀ k < cnt, (w.getD ix 0).testBit k = v.testBit (nxt o cnt k) := fun w hw => ⟨hw.1, hw.2.1, hw.2.2.1⟩
  have hrot : ∀ w first last, Done first w → first < last → last < cnt → (first = 0 ∨ o (first - 1) ≠ o first) →
      (∀ k, first ≤ k → k ≤ last → o k = o first) → (last + 1 < cnt → o last ≠ o (last + 1)) →
      Ok (rorField (w.getD ix 0) first last) fun u => Done (last + 1) (w.set ix u) := by
    rintro w first last ⟨d1, d2, d3, d4⟩ g1 g2 g3 g4 g5
    refine Ok.mono (rorField_bits (w.getD ix 0) first last g1 (by omega)) fun u hu => ?_
    refine ⟨by simpa using d1, fun a ha => ?_, fun k hk => ?_, fun k hk hk2 => ?_⟩
    · rw [getD_set, if_neg (fun hh => ha hh.1.symm)]; exact d2 a ha
    · rw [getD_set, if_pos ⟨rfl, by omega⟩, hu k (by omega)]
      by_cases hin : first ≤ k
      · rw [if_pos ⟨hin, by omega⟩]
        by_cases hl : k < last
        · rw [if_pos hl, d4 (k + 1) (by omega) (by omega)]
          unfold nxt
          rw [if_pos ⟨by omega, by rw [g4 k hin (by omega), g4 (k + 1) (by omega) (by omega)]⟩]
        · have hkl : k = last := by omega
          subst hkl
          rw [if_neg hl, d4 first le_rfl (by omega)]
          unfold nxt
          rw [if_neg (fun hh => g5 hh.1 hh.2), fst_eq o g3 k hin g4]
      · rw [if_neg (fun hh => hin hh.1)]
        exact d3 k (by omega)
    · rw [getD_set, if_pos ⟨rfl, by omega⟩, hu k (by omega), if_neg (by omega)]
      exact d4 k (by omega) hk2
  refine Ok.bind' (P := fun (s : Nat × List Nat) => Done cnt s.2) ?_ (fun s hs => Ok.some (hfin _ hs))
  have hinit : Done 0 wd := ⟨rfl, fun _ _ => rfl, fun k hk => by omega, fun k _ _ => rfl⟩
  by_cases hc : cnt ≤ 1
  · rw [forUp_ge hc]
    refine Ok.some ⟨rfl, fun _ _ => rfl, fun k hk => ?_, fun k _ _ => rfl⟩
    have hk0 : k = 0 := by omega
    subst hk0
    rw [hnx1 0 hk rfl (fun hh => by omega)]
  refine Ok.mono (forUp_inv (fun c (s : Nat × List Nat) => (c < cnt → s.1 < c ∧ Done s.1 s.2 ∧ (s.1 = 0 ∨ o (s.1 - 1) ≠ o s.1) ∧
      ∀ k, s.1 ≤ k → k < c → o k = o s.1) ∧ (c = cnt → Done cnt s.2)) (by omega) ⟨fun _ => ⟨by simp, hinit, Or.inl rfl, ?_⟩, fun hh => by omega⟩ ?_)
    fun s hs => hs.2 rfl
  · intro k h4 h5
    have : k = 0 := by omega
    rw [this]
  rintro c ⟨first, w⟩ hc1 hc2 ⟨hinv, _⟩
  obtain ⟨g1, g2, g3, g4⟩ := hinv hc2
  dsimp only at g1 g2 g3 g4 ⊢
  obtain ⟨l1, r1, o1⟩ := hloc first (by omega)
  obtain ⟨l2, r2, o2⟩ := hloc c hc2
  rw [r1, sb, r2, sb, o1, o2]
  by_cases hlast : c = cnt - 1
  · -- the last link
    rw [if_pos (Or.inr hlast), if_pos hlast, if_pos (by omega), rd_of_lt (by have := g2.1; omega), sb, getElem_eq_getD _ 0]
    have hwl := g2.1
    have hcc : c + 1 = cnt := by omega
    by_cases hoff : o first = o c
    · refine Ok.bind' (hrot w first c g2 g1 hc2 g3 (fun k k1 k2 => ?_) (fun hh => by omega)) fun u hu => ?_
      · by_cases hkc : k = c
        · rw [hkc]; exact hoff.symm
        · exact g4 k k1 (by omega)
      · rw [wr_of_lt (by omega), sb]
        exact Ok.some ⟨fun hh => by omega, fun _ => by rw [← hcc]; exact hu⟩
    · -- then the register before it has a single link
      have hf1 : first + 1 = c := by
        by_contra hne
        have h5 := g4 (cnt - 3) (by omega) (by omega)
        have h6 := g4 (cnt - 2) (by omega) (by omega)
        have := hgood (by omega) (by rw [h5, h6])
        rw [h6, ← hlast] at this
        exact hoff this
      have hb1 : v.testBit first = false := hone first (by omega) (hnx1 first (by omega)
        (fst_eq o g3 first le_rfl fun m m1 m2 => by rw [show m = first by omega]) (fun _ => by rw [hf1]; exact hoff))
      have hstc : c = 0 ∨ o (c - 1) ≠ o c := Or.inr (by rw [← hf1, Nat.add_sub_cancel]; rw [hf1]; exact hoff)
      have hnc : nxt o cnt c = c := hnx1 c hc2 (fst_eq o hstc c le_rfl fun m m1 m2 => by rw [show m = c by omega]) (fun hh => by omega)
      have hb2 : v.testBit c = false := hone c hc2 hnc
      have hnf : nxt o cnt first = first := hnx1 first (by omega)
        (fst_eq o g3 first le_rfl fun m m1 m2 => by rw [show m = first by omega]) (fun _ => by rw [hf1]; exact hoff)
      obtain ⟨d1, d2, d3, d4⟩ := g2
      refine Ok.bind' (rorField_bits (w.getD ix 0) first c g1 (by omega)) fun u hu => ?_
      rw [wr_of_lt (by omega), sb]
      refine Ok.some ⟨fun hh => by omega, fun _ => ⟨by simpa using d1, fun a ha => ?_, fun k hk => ?_, fun k hk hk2 => by omega⟩⟩
      · dsimp only
        rw [getD_set, if_neg (fun hh => ha hh.1.symm)]; exact d2 a ha
      · dsimp only
        rw [getD_set, if_pos ⟨rfl, by omega⟩, hu k (by omega)]
        by_cases hk1 : k < first
        · rw [if_neg (by omega)]; exact d3 k hk1
        · rw [if_pos ⟨by omega, by omega⟩]
          have hfv : (w.getD ix 0).testBit first = false := by rw [d4 first le_rfl (by omega)]; exact hb1
          have hcv : (w.getD ix 0).testBit c = false := by rw [d4 c (by omega) hc2]; exact hb2
          by_cases hkf : k = first
          · subst hkf
            rw [if_pos g1, hf1, hcv, hnf, hb1]
          · have hkc : k = c := by omega
            subst hkc
            rw [if_neg (by omega), hfv, hnc, hb2]
  · by_cases hoff : o first ≠ o c
    · rw [if_pos (Or.inl hoff), if_neg hlast]
      have hst : c = 0 ∨ o (c - 1) ≠ o c := Or.inr (by rw [g4 (c - 1) (by omega) (by omega)]; exact hoff)
      have hnext : ∀ k, c ≤ k → k < c + 1 → o k = o c := fun k k1 k2 => by rw [show k = c by omega]
      have hwl := g2.1
      by_cases hl : c - 1 ≠ first
      · rw [if_pos hl, rd_of_lt (by omega), sb, getElem_eq_getD _ 0]
        refine Ok.bind' (hrot w first (c - 1) g2 (by omega) (by omega) g3 (fun k k1 k2 => g4 k k1 (by omega)) (fun _ => ?_)) fun u hu => ?_
        · rw [show c - 1 + 1 = c by omega, g4 (c - 1) (by omega) (by omega)]; exact hoff
        · rw [wr_of_lt (by omega), sb]
          rw [show c - 1 + 1 = c by omega] at hu
          exact Ok.some ⟨fun hh => ⟨by dsimp only; omega, hu, hst, hnext⟩, fun hh => by omega⟩
      · rw [if_neg hl]
        have hf1 : c = first + 1 := by omega
        obtain ⟨d1, d2, d3, d4⟩ := g2
        refine Ok.some ⟨fun hh => ⟨by dsimp only; omega, ⟨d1, d2, fun k hk => ?_, fun k hk => d4 k (by omega)⟩, hst, hnext⟩, fun hh => by omega⟩
        by_cases hkf : k = first
        · subst hkf
          have hnf : nxt o cnt k = k := hnx1 k (by omega)
            (fst_eq o g3 k le_rfl fun m m1 m2 => by rw [show m = k by omega]) (fun _ => by rw [← hf1]; exact hoff)
          rw [hnf]
          exact d4 k le_rfl (by omega)
        · exact d3 k (by omega)
    · push Not at hoff
      rw [if_neg (by rintro (hh | hh); exact hh hoff; exact hlast hh)]
      refine Ok.some ⟨fun hh => ⟨by dsimp only; omega, g2, g3, fun k k1 k2 => ?_⟩, fun hh => by omega⟩
      by_cases hkc : k = c
      · rw [hkc]; exact hoff.symm
      · exact g4 k k1 (by omega)

/-- The links of one register: `a .. b`. -/
structure Grp (o : Nat → Nat) (cnt a b : Nat) : Prop where
  hab : a ≤ b
  hb : b < cnt
  hs : a = 0 ∨ o (a - 1) ≠ o a
  he : b + 1 < cnt → o b ≠ o (b + 1)
  hc : ∀ k, a ≤ k → k ≤ b → o k = o a

theorem grp_exists (o : Nat → Nat) (cnt k : Nat) (hk : k < cnt) : ∃ a b, Grp o cnt a b ∧ a ≤ k ∧ k ≤ b := by
  have hlast : ∀ d k, k < cnt → cnt - k = d → ∃ b, k ≤ b ∧ b < cnt ∧ (b + 1 < cnt → o b ≠ o (b + 1)) ∧ ∀ m, k ≤ m → m ≤ b → o m = o k := by
    intro d
    induction d with
    | zero => intro k h1 h2; omega
    | succ d ih =>
      intro k h1 h2
      by_cases hn : k + 1 < cnt ∧ o k = o (k + 1)
      · obtain ⟨b, b1, b2, b3, b4⟩ := ih (k + 1) hn.1 (by omega)
        refine ⟨b, by omega, b2, b3, fun m m1 m2 => ?_⟩
        by_cases hm : m = k
        · rw [hm]
        · rw [hn.2]; exact b4 m (by omega) m2
      · refine ⟨k, le_rfl, h1, fun hh he => hn ⟨hh, he⟩, fun m m1 m2 => by rw [show m = k by omega]⟩
  obtain ⟨b, b1, b2, b3, b4⟩ := hlast _ k hk rfl
  have hf := fst_le o k
  refine ⟨fst o k, b, ⟨by omega, b2, fst_start o k, b3, fun m m1 m2 => ?_⟩, hf, b1⟩
  have e := fst_same o k (fst o k) le_rfl hf
  by_cases hm : m ≤ k
  · rw [fst_same o k m m1 hm, e]
  · rw [b4 m (by omega) m2, e]

theorem Grp.nxt {o : Nat → Nat} {cnt a b : Nat} (h : Grp o cnt a b) {k : Nat} (h1 : a ≤ k) (h2 : k ≤ b) :
    nxt o cnt k = if k < b then k + 1 else a := by
  unfold LDPC.nxt
  by_cases hk : k < b
  · rw [if_pos hk, if_pos ⟨by have := h.hb; omega, by rw [h.hc k h1 h2, h.hc (k + 1) (by omega) (by omega)]⟩]
  · have hkb : k = b := by omega
    subst hkb
    rw [if_neg hk, if_neg (fun hh => h.he hh.1 hh.2), fst_eq o h.hs k h1 fun m m1 m2 => h.hc m m1 m2]

theorem Grp.iterate {o : Nat → Nat} {cnt a b : Nat} (h : Grp o cnt a b) {k : Nat} (h1 : a ≤ k) (h2 : k ≤ b) (N : Nat) :
    (LDPC.nxt o cnt)^[N] k = a + (k - a + N) % (b - a + 1) := by
  have hab := h.hab
  induction N with
  | zero => rw [Function.iterate_zero, id, Nat.add_zero, Nat.mod_eq_of_lt (by omega)]; omega
  | succ N ih =>
    rw [Function.iterate_succ_apply', ih, ← Nat.add_assoc]
    generalize k - a + N = y
    have hy : y % (b - a + 1) < b - a + 1 := Nat.mod_lt _ (by omega)
    rw [h.nxt (by omega) (by omega), Nat.add_mod y 1]
    by_cases hl : a + y % (b - a + 1) < b
    · rw [if_pos hl]
      by_cases hg : b - a + 1 = 1
      · rw [hg] at hy hl ⊢; omega
      · rw [Nat.mod_eq_of_lt (show 1 < b - a + 1 by omega), Nat.mod_eq_of_lt (show y % (b - a + 1) + 1 < b - a + 1 by omega)]; omega
    · rw [if_neg hl]
      have e : y % (b - a + 1) = b - a := by omega
      rw [e]
      by_cases hg : b - a + 1 = 1
      · rw [hg, Nat.mod_one]; rfl
      · rw [Nat.mod_eq_of_lt (show 1 < b - a + 1 by omega), Nat.mod_self, Nat.add_zero]

/-- Link `k` is the last one in its register. -/
def IsLast (o : Nat → Nat) (cnt k : Nat) : Prop := ¬ (k + 1 < cnt ∧ o k = o (k + 1))

theorem Grp.last {o : Nat → Nat} {cnt a b : Nat} (h : Grp o cnt a b) {k : Nat} (h1 : a ≤ k) (h2 : k ≤ b) : IsLast o cnt k ↔ k = b := by
  unfold IsLast
  constructor
  · intro hh
    by_contra hne
    exact hh ⟨by have := h.hb; omega, by rw [h.hc k h1 h2, h.hc (k + 1) (by omega) (by omega)]⟩
  · rintro rfl ⟨h3, h4⟩
    exact h.he h3 h4

theorem Grp.active {o : Nat → Nat} {cnt a b : Nat} (h : Grp o cnt a b) {k : Nat} (h1 : a ≤ k) (h2 : k ≤ b) (N : Nat) :
    IsLast o cnt ((LDPC.nxt o cnt)^[N] k) ↔ (k - a + N) % (b - a + 1) = b - a := by
  have hab := h.hab
  rw [h.iterate h1 h2]
  have hy : (k - a + N) % (b - a + 1) < b - a + 1 := Nat.mod_lt _ (by omega)
  rw [h.last (by omega) (by omega)]
  omega

/-- At each time exactly one link of a register is active. -/
theorem Grp.one {o : Nat → Nat} {cnt a b : Nat} (h : Grp o cnt a b) (N : Nat) :
    ∃ k, a ≤ k ∧ k ≤ b ∧ IsLast o cnt ((LDPC.nxt o cnt)^[N] k) ∧
      ∀ k', a ≤ k' → k' ≤ b → IsLast o cnt ((LDPC.nxt o cnt)^[N] k') → k' = k := by
  have hab := h.hab
  obtain ⟨d, hd⟩ : ∃ d, b = a + d := ⟨b - a, by omega⟩
  have hda : b - a = d := by omega
  have hN : N % (d + 1) < d + 1 := Nat.mod_lt _ (by omega)
  refine ⟨a + (d - N % (d + 1)), by omega, by omega, ?_, fun k' k1 k2 hh => ?_⟩
  · rw [h.active (by omega) (by omega), hda, show a + (d - N % (d + 1)) - a = d - N % (d + 1) by omega, Nat.add_mod,
      Nat.mod_eq_of_lt (show d - N % (d + 1) < d + 1 by omega), show d - N % (d + 1) + N % (d + 1) = d by omega,
      Nat.mod_eq_of_lt (by omega)]
  · rw [h.active k1 k2, hda] at hh
    have h3 : (k' - a + N) % (d + 1) = (d - N % (d + 1) + N) % (d + 1) := by
      rw [hh, Nat.add_mod, Nat.mod_eq_of_lt (show d - N % (d + 1) < d + 1 by omega),
        show d - N % (d + 1) + N % (d + 1) = d by omega, Nat.mod_eq_of_lt (show d < d + 1 by omega)]
    have h4 : k' - a ≡ d - N % (d + 1) [MOD (d + 1)] := Nat.ModEq.add_right_cancel' N h3
    unfold Nat.ModEq at h4
    rw [Nat.mod_eq_of_lt (show k' - a < d + 1 by omega), Nat.mod_eq_of_lt (show d - N % (d + 1) < d + 1 by omega)] at h4
    omega

/-- Each link of a register is active exactly once in as many rounds as there are links. -/
theorem Grp.fair {o : Nat → Nat} {cnt a b : Nat} (h : Grp o cnt a b) {k : Nat} (h1 : a ≤ k) (h2 : k ≤ b) (N : Nat) :
    ∃ δ < b - a + 1, IsLast o cnt ((LDPC.nxt o cnt)^[N + δ] k) ∧
      ∀ δ' < b - a + 1, IsLast o cnt ((LDPC.nxt o cnt)^[N + δ'] k) → δ' = δ := by
  have hab := h.hab
  have hy : (k - a + N) % (b - a + 1) < b - a + 1 := Nat.mod_lt _ (by omega)
  have hact : IsLast o cnt ((LDPC.nxt o cnt)^[N + (b - a - (k - a + N) % (b - a + 1))] k) := by
    rw [h.active h1 h2, ← Nat.add_assoc, Nat.add_mod, Nat.mod_eq_of_lt (show b - a - (k - a + N) % (b - a + 1) < b - a + 1 by omega),
      show (k - a + N) % (b - a + 1) + (b - a - (k - a + N) % (b - a + 1)) = b - a by omega, Nat.mod_eq_of_lt (by omega)]
  refine ⟨b - a - (k - a + N) % (b - a + 1), by omega, hact, fun δ' k1 hh => ?_⟩
  rw [h.active h1 h2, ← Nat.add_assoc] at hh hact
  have h3 : (k - a + N + δ') % (b - a + 1) = (k - a + N + (b - a - (k - a + N) % (b - a + 1))) % (b - a + 1) := by rw [hh, hact]
  have h4 : δ' ≡ b - a - (k - a + N) % (b - a + 1) [MOD (b - a + 1)] := Nat.ModEq.add_left_cancel' _ h3
  unfold Nat.ModEq at h4
  rw [Nat.mod_eq_of_lt k1, Nat.mod_eq_of_lt (show b - a - (k - a + N) % (b - a + 1) < b - a + 1 by omega)] at h4
  exact h4

end Verif.LDPC
