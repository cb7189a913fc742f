import Verif.OSD.Best
/- C46: the ordered statistics decoder. -/
namespace Verif.OSD
open Finset
open Verif.BCH (beBit)

variable {K N O : Nat}

theorem corr_congr {soft : List (BitVec 8)} {c d : Nat → ZMod 2} (h : Agree N c d) : corr N soft c = corr N soft d := by
  unfold corr
  exact sum_congr rfl fun p hp => by rw [h p (mem_range.1 hp)]

theorem inCode_congr {g : Nat → Nat → ZMod 2} {c d : Nat → ZMod 2} (h : Agree N c d) (hc : InCode K N g c) : InCode K N g d := by
  obtain ⟨m, hm⟩ := hc
  exact ⟨m, fun p hp => by rw [← h p hp, hm p hp]⟩

theorem dist_congr {g : Nat → Nat → ZMod 2} {soft : List (BitVec 8)} {c d : Nat → ZMod 2} (h : Agree N c d) :
    dist K N g soft c = dist K N g soft d := by
  classical
  unfold dist
  congr 1
  ext p
  rw [mem_filter, mem_filter]
  constructor
  · rintro ⟨h1, h2, h3⟩; exact ⟨h1, h2, by rw [← h p (mem_range.1 h1)]; exact h3⟩
  · rintro ⟨h1, h2, h3⟩; exact ⟨h1, h2, by rw [h p (mem_range.1 h1)]; exact h3⟩

theorem tested_congr {g : Nat → Nat → ZMod 2} {soft : List (BitVec 8)} {c d : Nat → ZMod 2} (h : Agree N c d)
    (hc : Tested K N O g soft c) : Tested K N O g soft d :=
  ⟨inCode_congr h hc.1, by rw [← dist_congr h]; exact hc.2⟩

/-- `c` ties with a different codeword of the search set. -/
def Tie (K N O : Nat) (g : Nat → Nat → ZMod 2) (soft : List (BitVec 8)) (c : Nat → ZMod 2) : Prop :=
  ∃ d, Tested K N O g soft d ∧ corr N soft d = corr N soft c ∧ ¬ Agree N d c

/-- For every generator matrix of full rank, every order, every soft input and every previous content
of the members (of the declared extents) the decoder succeeds, writes exactly the first `N` bits, and
these are a codeword of the search set with the largest correlation.  Unless the codeword with no
difference on the basis is itself best, the return value is false exactly if there is a tie; if it is,
this holds for non-negative correlations, while -1 always gives false and less always true. -/
theorem C46_decode {M : Mem} {cand hard soft genmat : List (BitVec 8)} (hM : Valid N K M) (hcand : cand.length = W N) (hK : 1 ≤ K)
    (h01 : ∀ x ∈ genmat, x = 0#8 ∨ x = 1#8) (hg : N * K ≤ genmat.length) (hs : N ≤ soft.length) (hh : N ≤ 8 * hard.length)
    (hr : FullRank K N (entry N genmat)) :
    ∃ r out M' cand', decode N K O M cand hard soft genmat = some (r, out, M', cand') ∧
      Valid N K M' ∧ cand'.length = W N ∧ out.length = hard.length ∧
      (∀ x, N ≤ x → x < 8 * hard.length → beBit out x = beBit hard x) ∧
      Tested K N O (entry N genmat) soft (bitsZ out) ∧
      (∀ c, Tested K N O (entry N genmat) soft c → corr N soft c ≤ corr N soft (bitsZ out)) ∧
      ((¬ ∃ c, InCode K N (entry N genmat) c ∧ dist K N (entry N genmat) soft c = 0 ∧ corr N soft c = corr N soft (bitsZ out)) →
        (r = false ↔ Tie K N O (entry N genmat) soft (bitsZ out))) ∧
      ((∃ c, InCode K N (entry N genmat) c ∧ dist K N (entry N genmat) soft c = 0 ∧ corr N soft c = corr N soft (bitsZ out)) →
        (r = false ↔ corr N soft (bitsZ out) = -1 ∨
          (-1 < corr N soft (bitsZ out) ∧ Tie K N O (entry N genmat) soft (bitsZ out)))) := by
  obtain ⟨r, out, M', cand', h1, h2, h3, h4, h5, M1, q, v, ⟨b, best, next⟩, P, hT, hA, rfl⟩ :=
    decode_ok (O := O) hM hcand hK h01 hg hs hh hr
  obtain ⟨t1, t2, l1, l2, t3, t4, t5, t6, t7⟩ := hT
  dsimp only at t1 t2 t3 t4 t5 t6 t7 hA
  have hbm : b ∈ words K (min O 6) soft q v := by rw [t3]; simp
  have hco : corr N soft (bitsZ out) = best := by rw [corr_congr hA, t1]
  have hAs : Agree N b (bitsZ out) := fun p hp => (hA p hp).symm
  have hmax : ∀ c, Tested K N O (entry N genmat) soft c → corr N soft c ≤ best := by
    intro c hc
    obtain ⟨w, hw, e⟩ := P.mem_of_tested hc
    rw [corr_congr e]
    exact t2 w hw
  have hdist := P.words_distinct (min O 6)
  have htie : Tie K N O (entry N genmat) soft (bitsZ out) ↔ ∃ w ∈ l1 ++ l2, corr N soft w = best := by
    rw [t3] at hdist
    rw [List.pairwise_append, List.pairwise_cons] at hdist
    obtain ⟨_, ⟨d1, _⟩, d2⟩ := hdist
    constructor
    · rintro ⟨d, hd, hd1, hd2⟩
      obtain ⟨w, hw, e⟩ := P.mem_of_tested hd
      refine ⟨w, ?_, by rw [← corr_congr e, hd1, hco]⟩
      rw [t3, List.mem_append, List.mem_cons] at hw
      rw [List.mem_append]
      rcases hw with hw | rfl | hw
      · exact Or.inl hw
      · exact absurd (fun p hp => (e p hp).trans (hAs p hp)) hd2
      · exact Or.inr hw
    · rintro ⟨w, hw, e⟩
      have hwm : w ∈ words K (min O 6) soft q v := by
        rw [t3]
        rw [List.mem_append] at hw ⊢
        rcases hw with hw | hw
        · exact Or.inl hw
        · exact Or.inr (List.mem_cons_of_mem _ hw)
      refine ⟨w, P.tested_of_mem hwm, by rw [e, hco], fun hag => ?_⟩
      have hag2 : Agree N w b := fun p hp => (hag p hp).trans (hA p hp)
      rcases List.mem_append.1 hw with hw | hw
      · exact d2 w hw b (by simp) hag2
      · exact d1 w hw fun p hp => (hag2 p hp).symm
  -- the word without differences is the first one
  have hbase0 : dist K N (entry N genmat) soft (base K soft q v) = 0 := by
    classical
    rw [P.dist_comb (c := base K soft q v) (m := fun j => hardBit soft (q j)) (fun _ _ => rfl), Finset.card_eq_zero,
      Finset.filter_eq_empty_iff]
    intro j _ h; exact h rfl
  have hbaseC : InCode K N (entry N genmat) (base K soft q v) := (P.inCode _).2 ⟨_, fun _ _ => rfl⟩
  have hbase : ∀ c, InCode K N (entry N genmat) c → dist K N (entry N genmat) soft c = 0 → Agree N c (base K soft q v) := by
    intro c hc hd
    obtain ⟨w, hw, e⟩ := P.mem_of_tested (O := 0) (c := c) ⟨hc, by rw [hd]; exact Nat.zero_le _⟩
    rw [Nat.zero_min] at hw
    unfold words vis at hw
    rw [List.map_nil, List.mem_singleton] at hw
    rw [← hw]; exact e
  have hfirst : (∃ c, InCode K N (entry N genmat) c ∧ dist K N (entry N genmat) soft c = 0 ∧ corr N soft c = corr N soft (bitsZ out)) ↔
      l1 = [] := by
    rw [hco]
    constructor
    · rintro ⟨c, hc1, hc2, hc3⟩
      rw [corr_congr (hbase c hc1 hc2)] at hc3
      cases l1 with
      | nil => rfl
      | cons x l1 =>
        unfold words at t3
        rw [List.cons_append] at t3
        have := t6 x (by simp)
        rw [← (List.cons.inj t3).1] at this
        omega
    · rintro rfl
      unfold words at t3
      rw [List.nil_append] at t3
      refine ⟨base K soft q v, hbaseC, hbase0, ?_⟩
      rw [(List.cons.inj t3).1, t1]
  refine ⟨_, out, M', cand', h1, h2, h3, h4, h5, tested_congr hAs (P.tested_of_mem hbm), fun c hc => by rw [hco]; exact hmax c hc, ?_, ?_⟩
  · intro hne
    rw [hfirst] at hne
    rw [htie, decide_eq_false_iff_not, not_not]
    dsimp only
    obtain ⟨w0, hw0, e0⟩ := t5.resolve_left fun h => hne h.1
    have hle : next ≤ best := by
      rw [← e0]
      refine t2 w0 ?_
      rw [t3]
      rw [List.mem_append] at hw0 ⊢
      rcases hw0 with hw0 | hw0
      · exact Or.inl hw0
      · exact Or.inr (List.mem_cons_of_mem _ hw0)
    constructor
    · intro h; exact ⟨w0, hw0, by omega⟩
    · rintro ⟨w, hw, e⟩
      have := t4 w hw
      omega
  · intro he
    rw [hfirst] at he
    rw [htie, hco, decide_eq_false_iff_not, not_not]
    dsimp only
    have hlb := t7 he
    subst he
    rw [List.nil_append] at *
    have hle : ∀ w ∈ l2, corr N soft w ≤ best := by
      intro w hw
      refine t2 w ?_
      rw [t3]; exact List.mem_cons_of_mem _ hw
    constructor
    · intro h
      rcases t5 with ⟨_, h5⟩ | ⟨w, hw, e⟩
      · left; omega
      · by_cases h6 : best = -1
        · exact Or.inl h6
        · exact Or.inr ⟨by omega, w, hw, by omega⟩
    · rintro (h | ⟨h, w, hw, e⟩)
      · rcases t5 with ⟨_, h5⟩ | ⟨w, hw, e⟩
        · omega
        · have := hle w hw; omega
      · have h8 := t4 w hw
        rcases t5 with ⟨_, h5⟩ | ⟨w', hw', e'⟩
        · omega
        · have := hle w' hw'; omega

/-- The bound `N ≤ 2^15` in `Valid` is needed: position 2^15 does not fit in the `int16_t` elements of `perm`. -/
theorem C46_int16 (hN : 2 ^ 15 < N) (O : Nat) (M : Mem) (cand hard soft genmat : List (BitVec 8)) : decode N K O M cand hard soft genmat = none := by
  have h : prepare N K M soft genmat = none := by
    unfold prepare
    cases h : forUp 0 N M.perm (fun i p => do assertUB (i < 2 ^ 15); wr p i i) with
    | none => rfl
    | some r =>
      have := Verif.GF.forUp_some_inv (fun j _ => j ≤ 2 ^ 15) (Nat.zero_le N) (Nat.zero_le _) h (fun j s s' _ _ hj e => by
        rcases Nat.lt_or_eq_of_le hj with h' | rfl
        · exact h'
        · rw [show assertUB (2 ^ 15 < 2 ^ 15) = none from if_neg (by omega)] at e; cases e)
      omega
  unfold decode
  rw [h]; rfl

/-- Members of the declared extents exist. -/
theorem valid_zero (N K : Nat) (hN : N ≤ 2 ^ 15) : Valid N K ⟨List.replicate (W N * K) 0, List.replicate (W N) 0, List.replicate (W N) 0,
    List.replicate (W N) 0, List.replicate N 0⟩ := by
  refine ⟨hN, ?_, ?_, ?_, ?_, ?_⟩ <;> simp

theorem exists_prep (hN : N ≤ 2 ^ 15) {soft genmat : List (BitVec 8)} (hK : 1 ≤ K) (h01 : ∀ x ∈ genmat, x = 0#8 ∨ x = 1#8)
    (hg : N * K ≤ genmat.length) (hs : N ≤ soft.length) (hr : FullRank K N (entry N genmat)) :
    ∃ M q v, Prep N K (entry N genmat) soft M q v := by
  obtain ⟨M, _, q, v, P⟩ := prepare_ok (valid_zero N K hN) hK h01 hg hs hr
  exact ⟨M, q, v, P⟩

open Classical in
/-- The most reliable basis has `K` positions, and the bits on it can be chosen freely and determine
the codeword. -/
theorem C46_basis (hN : N ≤ 2 ^ 15) {soft genmat : List (BitVec 8)} (hK : 1 ≤ K) (h01 : ∀ x ∈ genmat, x = 0#8 ∨ x = 1#8)
    (hg : N * K ≤ genmat.length) (hs : N ≤ soft.length) (hr : FullRank K N (entry N genmat)) :
    ((range N).filter (Basis K N (entry N genmat) soft)).card = K ∧
    (∀ f : Nat → ZMod 2, ∃ c, InCode K N (entry N genmat) c ∧ ∀ p, Basis K N (entry N genmat) soft p → c p = f p) ∧
    (∀ c d, InCode K N (entry N genmat) c → InCode K N (entry N genmat) d →
      (∀ p, Basis K N (entry N genmat) soft p → c p = d p) → Agree N c d) := by
  obtain ⟨M, q, v, P⟩ := exists_prep hN hK h01 hg hs hr
  have hKN := P.KN
  refine ⟨?_, ?_, ?_⟩
  · have : (range N).filter (Basis K N (entry N genmat) soft) = (range K).image q := by
      ext p
      rw [mem_filter, mem_range, mem_image, P.basis p]
      constructor
      · rintro ⟨_, a, ha, e⟩; exact ⟨a, mem_range.2 ha, e⟩
      · rintro ⟨a, ha, rfl⟩
        rw [mem_range] at ha
        exact ⟨P.qlt a (by omega), a, ha, rfl⟩
    rw [this, Finset.card_image_of_injOn, card_range]
    intro i hi j hj e
    rw [Finset.mem_coe, mem_range] at hi hj
    exact P.qinj i j (by omega) (by omega) e
  · intro f
    refine ⟨comb K v fun j => f (q j), (P.inCode _).2 ⟨_, fun _ _ => rfl⟩, ?_⟩
    intro p hp
    obtain ⟨a, ha, rfl⟩ := (P.basis p).1 hp
    rw [P.comb_at _ ha]
  · intro c d hc hd h
    obtain ⟨m, hm⟩ := (P.inCode c).1 hc
    obtain ⟨m', hm'⟩ := (P.inCode d).1 hd
    intro p hp
    rw [hm p hp, hm' p hp]
    unfold comb
    refine sum_congr rfl fun j hj => ?_
    rw [mem_range] at hj
    have := h (q j) ((P.basis _).2 ⟨j, hj, rfl⟩)
    rw [hm _ (P.qlt j (by omega)), hm' _ (P.qlt j (by omega)), P.comb_at m hj, P.comb_at m' hj] at this
    rw [this]

/-- With an order of at least `K` (and `K` at most 6) the search set is the whole code, so the decoder
is a maximum likelihood decoder. -/
theorem C46_whole_code (hN : N ≤ 2 ^ 15) {soft genmat : List (BitVec 8)} (hK : 1 ≤ K) (h01 : ∀ x ∈ genmat, x = 0#8 ∨ x = 1#8)
    (hg : N * K ≤ genmat.length) (hs : N ≤ soft.length) (hr : FullRank K N (entry N genmat)) (hO : K ≤ O) (h6 : K ≤ 6)
    (c : Nat → ZMod 2) : Tested K N O (entry N genmat) soft c ↔ InCode K N (entry N genmat) c := by
  refine ⟨fun h => h.1, fun h => ⟨h, ?_⟩⟩
  classical
  have h1 := (C46_basis hN hK h01 hg hs hr).1
  have h2 : dist K N (entry N genmat) soft c ≤ K := by
    unfold dist
    conv_rhs => rw [← h1]
    refine Finset.card_le_card ?_
    intro p hp
    rw [mem_filter] at hp ⊢
    exact ⟨hp.1, hp.2.1⟩
  omega

theorem corr_le (soft : List (BitVec 8)) (c : Nat → ZMod 2) : corr N soft c ≤ corr N soft (hardBit soft) := by
  unfold corr
  refine sum_le_sum fun p _ => ?_
  unfold hardBit
  by_cases h : val soft p < 0
  · rw [if_pos h, if_neg (by decide : ¬ (1 : ZMod 2) = 0)]
    split <;> omega
  · rw [if_neg h, if_pos rfl]
    split <;> omega

theorem corr_hard_nonneg (soft : List (BitVec 8)) : 0 ≤ corr N soft (hardBit soft) := by
  unfold corr
  refine sum_nonneg fun p _ => ?_
  unfold hardBit
  by_cases h : val soft p < 0
  · rw [if_pos h, if_neg (by decide)]; omega
  · rw [if_neg h, if_pos rfl]; omega

theorem corr_eq {soft : List (BitVec 8)} {c : Nat → ZMod 2} (hnz : ∀ p, p < N → val soft p ≠ 0)
    (h : corr N soft c = corr N soft (hardBit soft)) : Agree N c (hardBit soft) := by
  by_contra hne
  unfold Agree at hne
  push Not at hne
  obtain ⟨p0, hp0, hne⟩ := hne
  have : corr N soft c < corr N soft (hardBit soft) := by
    unfold corr
    refine sum_lt_sum (fun p _ => ?_) ⟨p0, mem_range.2 hp0, ?_⟩
    · unfold hardBit
      by_cases h : val soft p < 0
      · rw [if_pos h, if_neg (by decide : ¬ (1 : ZMod 2) = 0)]
        split <;> omega
      · rw [if_neg h, if_pos rfl]
        split <;> omega
    · have h0 := hnz p0 hp0
      unfold hardBit at hne ⊢
      by_cases h : val soft p0 < 0
      · rw [if_pos h] at hne ⊢
        rw [if_neg (by decide : ¬ (1 : ZMod 2) = 0), if_pos ((z01 _).resolve_right hne)]
        omega
      · rw [if_neg h] at hne ⊢
        rw [if_pos rfl, if_neg hne]
        omega
  omega

/-- If no soft value is zero and the hard decisions form a codeword, the decoder returns it, and true. -/
theorem C46_hard_decisions {M : Mem} {cand hard soft genmat : List (BitVec 8)} (hM : Valid N K M) (hcand : cand.length = W N) (hK : 1 ≤ K)
    (h01 : ∀ x ∈ genmat, x = 0#8 ∨ x = 1#8) (hg : N * K ≤ genmat.length) (hs : N ≤ soft.length) (hh : N ≤ 8 * hard.length)
    (hr : FullRank K N (entry N genmat)) (hnz : ∀ p, p < N → val soft p ≠ 0)
    (hc : InCode K N (entry N genmat) (hardBit soft)) :
    ∃ out M' cand', decode N K O M cand hard soft genmat = some (true, out, M', cand') ∧
      Agree N (bitsZ out) (hardBit soft) := by
  obtain ⟨r, out, M', cand', h1, h2, h3, h4, h5, h6, h7, h8, h9⟩ := C46_decode (O := O) hM hcand hK h01 hg hs hh hr
  have hd : dist K N (entry N genmat) soft (hardBit soft) = 0 := by
    classical
    unfold dist
    rw [Finset.card_eq_zero, Finset.filter_eq_empty_iff]
    rintro p _ ⟨_, h⟩
    exact h rfl
  have ht := h7 _ ⟨hc, by rw [hd]; exact Nat.zero_le _⟩
  have he : corr N soft (bitsZ out) = corr N soft (hardBit soft) := le_antisymm (corr_le _ _) ht
  have hA := corr_eq hnz he
  have h10 := (h9 ⟨_, hc, hd, he.symm⟩)
  have hnn := corr_hard_nonneg (N := N) soft
  have : r = true := by
    by_contra hr'
    have hr'' : r = false := by simpa using hr'
    rcases h10.1 hr'' with h | ⟨_, d, hd1, hd2, hd3⟩
    · omega
    · refine hd3 fun p hp => ?_
      rw [corr_eq hnz (hd2.trans he) p hp, hA p hp]
  subst this
  exact ⟨out, M', cand', h1, hA⟩

/-! ### Examples -/

/-- A systematic matrix has full rank. -/
theorem fullRank_id {g : Nat → Nat → ZMod 2} (hKN : K ≤ N) (h : ∀ a b, a < K → b < K → g a b = if a = b then 1 else 0) :
    FullRank K N g := by
  intro m hm j hj
  have := hm j (by omega)
  rw [sum_eq_single j] at this
  · rwa [h j j hj hj, if_pos rfl, mul_one] at this
  · intro b hb hne
    rw [h b j (mem_range.1 hb) hj, if_neg hne, mul_zero]
  · intro h; exact absurd (mem_range.2 hj) h

/-- A [7,4] Hamming code. -/
def hamming : List (BitVec 8) := [1,0,0,0,1,1,0, 0,1,0,0,1,0,1, 0,0,1,0,0,1,1, 0,0,0,1,1,1,1]

def mem0 (N K : Nat) : Mem := ⟨List.replicate (W N * K) 9, List.replicate (W N) 9, List.replicate (W N) 9,
    List.replicate (W N) 9, List.replicate N 9⟩

def i8s (l : List Int) : List (BitVec 8) := l.map (BitVec.ofInt 8)

/-- The hypotheses of the theorems are met, with members full of junk. -/
example : Valid 7 4 (mem0 7 4) ∧ (∀ x ∈ hamming, x = 0#8 ∨ x = 1#8) ∧ 7 * 4 ≤ hamming.length ∧ FullRank 4 7 (entry 7 hamming) := by
  refine ⟨by constructor <;> simp [mem0], by decide, by decide, fullRank_id (by norm_num) ?_⟩
  intro a b ha hb
  interval_cases a <;> interval_cases b <;> decide

/-- One wrong and weak position; the fourth most reliable position is determined by the first three. -/
example : (decode 7 4 1 (mem0 7 4) (List.replicate 8 9) [0xFF] (i8s [-100, 95, 3, 90, 80, 50, -60]) hamming).map
    (fun r => (r.1, r.2.1)) = some (true, [171]) := by decide +kernel

theorem basis_id {g : Nat → Nat → ZMod 2} {soft : List (BitVec 8)} (hKN : K ≤ N)
    (h : ∀ a b, a < K → b < K → g a b = if a = b then 1 else 0)
    (hv : ∀ p q, p < N → q < N → |val soft p| = |val soft q|) (p : Nat) : Basis K N g soft p ↔ p < K := by
  have hcol : ∀ (m : Nat → ZMod 2) b, b < K → ∑ j ∈ range K, m j * g j b = m b := by
    intro m b hb
    rw [sum_eq_single b]
    · rw [h b b hb hb, if_pos rfl, mul_one]
    · intro j hj hne
      rw [h j b (mem_range.1 hj) hb, if_neg hne, mul_zero]
    · intro h; exact absurd (mem_range.2 hb) h
  constructor
  · rintro ⟨hp, c, ⟨m, hm⟩, hc1, hc0⟩
    by_contra hK
    rw [hm p hp, sum_eq_zero] at hc1
    · exact absurd hc1 (by decide)
    · intro j hj
      rw [mem_range] at hj
      have := hc0 j (by omega) (Or.inr ⟨hv p j hp (by omega), by omega⟩)
      rw [hm j (by omega), hcol m j hj] at this
      rw [this, zero_mul]
  · intro hp
    refine ⟨by omega, g p, ⟨fun j => if j = p then 1 else 0, fun x _ => (sum_ind (fun j => g j x) hp).symm⟩, ?_, ?_⟩
    · rw [h p p hp hp, if_pos rfl]
    · rintro q hq (hb | ⟨_, hb⟩)
      · rw [hv p q (by omega) hq] at hb; omega
      · rw [h p q hp (by omega), if_neg (by omega)]

/-- A [10,3] code and a soft input for which four codewords of the search set of order 1 tie. -/
def code10 : List (BitVec 8) := [1,0,0, 1, 1,1,0,0,0,0,  0,1,0, 1, 0,0,1,1,0,0, 0,0,1, 1, 0,0,0,0,1,1]
def soft10 : List (BitVec 8) := i8s [1,1,1, 1, -1,-1,-1,-1,-1,-1]

theorem eq_of_forall10 {P : Nat → Nat → Prop} {n : Nat} (h : ∀ p ∈ List.range n, ∀ q ∈ List.range n, P p q) :
    ∀ p q, p < n → q < n → P p q := fun p q hp hq => h p (List.mem_range.2 hp) q (List.mem_range.2 hq)

/-- The correlation of the result is -2, below the initial value -1 of the runner-up: the tie is missed. -/
theorem C46_missed_tie :
    (decode 10 3 1 (mem0 10 3) (List.replicate 16 9) [0, 0] soft10 code10).map (fun r => (r.1, r.2.1)) = some (true, [0, 0]) ∧
    corr 10 soft10 (bitsZ [0, 0]) = -2 ∧ Tie 3 10 1 (entry 10 code10) soft10 (bitsZ [0, 0]) := by
  have hid : ∀ a b, a < 3 → b < 3 → entry 10 code10 a b = if a = b then 1 else 0 :=
    eq_of_forall10 (by decide)
  refine ⟨by decide +kernel, by decide +kernel, entry 10 code10 0, ⟨⟨fun j => if j = 0 then 1 else 0, fun x _ =>
    (sum_ind (K := 3) (fun j => entry 10 code10 j x) (by norm_num)).symm⟩, ?_⟩, by decide +kernel, fun h => absurd (h 0 (by norm_num)) (by decide)⟩
  classical
  unfold dist
  have : ((range 10).filter fun p => Basis 3 10 (entry 10 code10) soft10 p ∧ entry 10 code10 0 p ≠ hardBit soft10 p) ⊆ {0} := by
    intro p hp
    rw [mem_filter, basis_id (by norm_num) hid (eq_of_forall10 (by decide +kernel))] at hp
    obtain ⟨_, hp, hne⟩ := hp
    rw [mem_singleton]
    interval_cases p
    · rfl
    · exact absurd (by decide) hne
    · exact absurd (by decide) hne
  exact Finset.card_le_card this

/-- An [11,3] code and a soft input for which the best codeword is unique. -/
def code11 : List (BitVec 8) := [1,0,0, 1,1, 1,1,0,0,0,0,  0,1,0, 1,1, 0,0,1,1,0,0,  0,0,1, 1,1, 0,0,0,0,1,1]
def soft11 : List (BitVec 8) := i8s [1,1,1, 1,1, -1,-1,-1,-1,-1,-1]

/-- The correlation of the result is -1, the initial value of the runner-up: a tie is reported although
there is none. -/
theorem C46_false_tie :
    (decode 11 3 1 (mem0 11 3) (List.replicate 16 9) [0, 0] soft11 code11).map (fun r => (r.1, r.2.1)) = some (false, [0, 0]) ∧
    corr 11 soft11 (bitsZ [0, 0]) = -1 ∧ ¬ Tie 3 11 1 (entry 11 code11) soft11 (bitsZ [0, 0]) := by
  have hid : ∀ a b, a < 3 → b < 3 → entry 11 code11 a b = if a = b then 1 else 0 :=
    eq_of_forall10 (by decide)
  refine ⟨by decide +kernel, by decide +kernel, ?_⟩
  rintro ⟨d, ⟨⟨m, hm⟩, hd⟩, hc, hne⟩
  have hm' : Agree 11 d (fun p => m 0 * entry 11 code11 0 p + m 1 * entry 11 code11 1 p + m 2 * entry 11 code11 2 p) := by
    intro p hp
    rw [hm p hp]
    simp only [sum_range_succ, sum_range_zero, zero_add]
  rw [corr_congr hm'] at hc
  have hne' : ¬ Agree 11 (fun p => m 0 * entry 11 code11 0 p + m 1 * entry 11 code11 1 p + m 2 * entry 11 code11 2 p) (bitsZ [0, 0]) :=
    fun h => hne fun p hp => (hm' p hp).trans (h p hp)
  have hpair : ∀ a b, a < 3 → b < 3 → a ≠ b → m a = 1 → m b = 1 → False := by
    intro a b ha hb hab h1 h2
    classical
    have hcol : ∀ b, b < 3 → d b = m b := by
      intro b hb
      rw [hm' b (by omega)]
      beta_reduce
      rw [hid 0 b (by norm_num) hb, hid 1 b (by norm_num) hb, hid 2 b (by norm_num) hb]
      interval_cases b <;> simp
    have hsub : ({a, b} : Finset Nat) ⊆ (range 11).filter fun p => Basis 3 11 (entry 11 code11) soft11 p ∧ d p ≠ hardBit soft11 p := by
      intro p hp
      rw [mem_insert, mem_singleton] at hp
      have hp3 : p < 3 ∧ m p = 1 := by rcases hp with rfl | rfl <;> exact ⟨by assumption, by assumption⟩
      rw [mem_filter, mem_range, basis_id (by norm_num) hid (eq_of_forall10 (by decide +kernel))]
      refine ⟨by omega, hp3.1, ?_⟩
      rw [hcol p hp3.1, hp3.2]
      have := hp3.1
      interval_cases p <;> decide
    have hcard := Finset.card_le_card hsub
    rw [Finset.card_pair hab] at hcard
    unfold dist at hd
    have : min 1 6 = 1 := rfl
    omega
  clear hm' hd hm hne
  have h01 := hpair 0 1 (by norm_num) (by norm_num) (by norm_num)
  have h02 := hpair 0 2 (by norm_num) (by norm_num) (by norm_num)
  have h12 := hpair 1 2 (by norm_num) (by norm_num) (by norm_num)
  generalize m 0 = x at *
  generalize m 1 = y at *
  generalize m 2 = z at *
  clear hpair
  rcases z01 x with rfl | rfl
  · rcases z01 y with rfl | rfl
    · rcases z01 z with rfl | rfl
      · exact hne' (fun p hp => by interval_cases p <;> decide)
      · exact absurd hc (by decide +kernel)
    · rcases z01 z with rfl | rfl
      · exact absurd hc (by decide +kernel)
      · exact h12 rfl rfl
  · rcases z01 y with rfl | rfl
    · rcases z01 z with rfl | rfl
      · exact absurd hc (by decide +kernel)
      · exact h02 rfl rfl
    · exact h01 rfl rfl

end Verif.OSD
