import Verif.Hadamard.Code
/-
C33, C34: Hadamard and simplex codes.

The theorems speak of `hadEncode`/`simEncode` run on the table the constructor `mkMod` fills, and of
`hadDecode`/`simDecode`, which select the unrolled specialisations for K = 2, 3, 4 exactly as the
templates do.  `some r` means: the call ends, without undefined behaviour, and returns `r`.
-/
namespace Verif.Hadamard
open Finset
open Verif.RS (sb)

/-! ### Specification -/

/-- The number of positions below `K` where both `a` and `b` have a one. -/
def common (K a b : Nat) : Nat := (range K).sum fun i => if a.testBit i ∧ b.testBit i then 1 else 0

/-- Symbol `i` of the augmented Hadamard codeword of `msg`: a linear code whose generator columns are
all the `K` bit vectors with the top bit set. -/
def hadWord (K msg i : Nat) : Int := (-1) ^ common K msg (2 ^ (K - 1) + i)

/-- Symbol `i` of the simplex codeword of `msg`: generator columns are all nonzero `K` bit vectors. -/
def simWord (K msg i : Nat) : Int := (-1) ^ common K msg (i + 1)

/-- Correlation of a codeword with received soft values. -/
def corr (N : Nat) (word : Nat → Int) (code : List Int) : Int := (range N).sum fun i => word i * code.getD i 0

/-- `m` is the only message with the largest correlation. -/
def StrictMax (W : Nat) (c : Nat → Int) (m : Nat) : Prop := m < W ∧ ∀ m', m' < W → m' ≠ m → c m' < c m

/-- Number of positions below `N` with the given property. -/
def count (N : Nat) (p : Nat → Prop) [DecidablePred p] : Nat := (range N).sum fun i => if p i then 1 else 0

/-! ### Helper lemmas -/

theorem chi_common (K a b : Nat) : chi K a b = (-1) ^ common K a b := by
  unfold chi common
  rw [← prod_pow_eq_pow_sum]
  refine prod_congr rfl fun i _ => ?_
  cases a.testBit i <;> cases b.testBit i <;> simp [sg]

theorem hadWord_chi {K msg i : Nat} (hK : 1 ≤ K) (hi : i < 2 ^ (K - 1)) :
    hadWord K msg i = chi (K - 1) msg i * sg (msg.testBit (K - 1)) := by
  unfold hadWord
  rw [← chi_common]
  obtain ⟨k, rfl⟩ : ∃ k, K = k + 1 := ⟨K - 1, by omega⟩
  simp only [Nat.add_sub_cancel] at hi ⊢
  rw [chi_succ, chi_high', Nat.testBit_two_pow_add_eq, Nat.testBit_eq_false_of_lt hi]
  simp

theorem hadWord_low {K msg i : Nat} (hK : 1 ≤ K) (hi : i < 2 ^ (K - 1)) (hm : msg < 2 ^ (K - 1)) :
    hadWord K msg i = chi (K - 1) msg i := by
  rw [hadWord_chi hK hi, Nat.testBit_eq_false_of_lt hm, sg_false, mul_one]

theorem hadWord_high {K r i : Nat} (hK : 1 ≤ K) (hi : i < 2 ^ (K - 1)) (hm : r < 2 ^ (K - 1)) :
    hadWord K (2 ^ (K - 1) + r) i = -chi (K - 1) r i := by
  rw [hadWord_chi hK hi, chi_high, Nat.testBit_two_pow_add_eq, Nat.testBit_eq_false_of_lt hm]
  simp [sg]

theorem corr_low {K m : Nat} (hK : 1 ≤ K) (hm : m < 2 ^ (K - 1)) (code : List Int) :
    corr (2 ^ (K - 1)) (hadWord K m) code = tr (K - 1) m fun t => code.getD t 0 :=
  sum_congr rfl fun i hi => by rw [hadWord_low hK (mem_range.1 hi) hm]

theorem corr_high {K r : Nat} (hK : 1 ≤ K) (hm : r < 2 ^ (K - 1)) (code : List Int) :
    corr (2 ^ (K - 1)) (hadWord K (2 ^ (K - 1) + r)) code = -tr (K - 1) r fun t => code.getD t 0 := by
  unfold corr tr
  rw [← sum_neg_distrib]
  exact sum_congr rfl fun i hi => by rw [hadWord_high hK (mem_range.1 hi) hm]; ring

theorem corr_sim (K m : Nat) (code : List Int) : corr (2 ^ K - 1) (simWord K m) code = tr K m (ext code) := by
  unfold corr tr
  have : range (2 ^ K) = range (2 ^ K - 1 + 1) := by
    congr 1; have : 0 < 2 ^ K := by positivity
    omega
  rw [this, sum_range_succ']
  simp only [ext, if_true, mul_zero, add_zero, Nat.add_eq_zero_iff, one_ne_zero, and_false, if_false, Nat.add_sub_cancel]
  refine sum_congr rfl fun i _ => ?_
  unfold simWord
  rw [← chi_common]

theorem StrictMax.unique {W : Nat} {c : Nat → Int} {m m' : Nat} (h : StrictMax W c m) (h' : StrictMax W c m') : m = m' := by
  by_contra hne
  have a := h.2 m' h'.1 (Ne.symm hne)
  have b := h'.2 m h.1 hne
  omega

/-- A result that is the strict maximum if there is one and -1 otherwise. -/
theorem ml_iff {W : Nat} {c : Nat → Int} {r : Int}
    (h : (∃ m : Nat, r = m ∧ StrictMax W c m) ∨ (r = -1 ∧ ¬ ∃ m, StrictMax W c m)) :
    (∀ m : Nat, r = m ↔ StrictMax W c m) ∧ (r = -1 ↔ ¬ ∃ m, StrictMax W c m) := by
  rcases h with ⟨m, rfl, hm⟩ | ⟨rfl, hn⟩
  · refine ⟨fun m' => ⟨fun h => ?_, fun h => by rw [hm.unique h]⟩, ⟨fun h => by omega, fun h => absurd ⟨m, hm⟩ h⟩⟩
    have : m = m' := by exact_mod_cast h
    exact this ▸ hm
  · exact ⟨fun m' => ⟨fun h => by omega, fun h => absurd ⟨m', h⟩ hn⟩, ⟨fun _ => hn, fun _ => rfl⟩⟩

theorem had_ml {K : Nat} {code : List Int} {r : Int} (hK : 2 ≤ K) (h : HadOut (K - 1) (fun t => code.getD t 0) r) :
    (∃ m : Nat, r = m ∧ StrictMax (2 ^ K) (fun m => corr (2 ^ (K - 1)) (hadWord K m) code) m) ∨
    (r = -1 ∧ ¬ ∃ m, StrictMax (2 ^ K) (fun m => corr (2 ^ (K - 1)) (hadWord K m) code) m) := by
  obtain ⟨s, hs, hr⟩ := h
  have h2 : 2 ^ K = 2 ^ (K - 1) + 2 ^ (K - 1) := by
    rw [← two_mul, ← pow_succ']; congr 1; omega
  have hpos : 1 < 2 ^ (K - 1) := Nat.one_lt_two_pow (by omega)
  set N := 2 ^ (K - 1) with hN
  set y : Nat → Int := fun t => code.getD t 0 with hy
  set c : Nat → Int := fun m => corr N (hadWord K m) code with hc
  have clow : ∀ m, m < N → c m = tr (K - 1) m y := fun m hm => corr_low (by omega) hm code
  have chigh : ∀ m, m < N → c (N + m) = -tr (K - 1) m y := fun m hm => corr_high (by omega) hm code
  -- every message is one of the two with the same index
  have msplit : ∀ m, m < 2 ^ K → ∃ i, i < N ∧ (m = i ∨ m = N + i) := by
    intro m hm
    by_cases h : m < N
    · exact ⟨m, h, Or.inl rfl⟩
    · exact ⟨m - N, by omega, Or.inr (by omega)⟩
  have cle : ∀ m i, i < N → (m = i ∨ m = N + i) → c m ≤ |tr (K - 1) i y| := by
    rintro m i hi (rfl | rfl)
    · rw [clow _ hi]; exact le_abs_self _
    · rw [chigh _ hi]; exact neg_le_abs _
  have pick : ∀ i, i < N → ∃ m, m < 2 ^ K ∧ (m = i ∨ m = N + i) ∧ c m = |tr (K - 1) i y| ∧
      (m : Int) = (i : Int) + (N : Nat) * (if tr (K - 1) i y < 0 then 1 else 0) := by
    intro i hi
    by_cases hneg : tr (K - 1) i y < 0
    · exact ⟨N + i, by omega, Or.inr rfl, by rw [chigh i hi, abs_of_neg hneg], by rw [if_pos hneg]; push_cast; ring⟩
    · exact ⟨i, by omega, Or.inl rfl, by rw [clow i hi, abs_of_nonneg (by omega)], by rw [if_neg hneg]; ring⟩
  rcases hs.result with ⟨i, hi, hm, hp, hmax⟩ | ⟨hm, hno⟩
  · left
    obtain ⟨m, hm1, hm2, hm3, hm4⟩ := pick i hi
    refine ⟨m, by rw [hr, hm4, hm], hm1, fun m' hm' hne => ?_⟩
    obtain ⟨j, hj, hj'⟩ := msplit m' hm'
    show c m' < c m
    rw [hm3]
    by_cases hji : j = i
    · subst hji
      have hsum : c m' = -c m := by
        rcases hm2 with rfl | rfl <;> rcases hj' with rfl | rfl
        · exact absurd rfl hne
        · rw [clow _ hi, chigh _ hi]
        · rw [clow _ hi, chigh _ hi, neg_neg]
        · exact absurd rfl hne
      rw [hsum, hm3]; omega
    · exact lt_of_le_of_lt (cle m' j hj hj') (hmax j hj hji)
  · right
    refine ⟨by rw [hr, hm], ?_⟩
    rintro ⟨m, hm1, hm2⟩
    obtain ⟨l, hl, hl'⟩ := msplit m hm1
    rcases hno with hz | ⟨i, j, hi, hj, hij, heq, hall⟩
    · have h0 : ∀ i, i < N → tr (K - 1) i y = 0 := fun i hi => abs_eq_zero.1 (le_antisymm (hz i hi) (abs_nonneg _))
      have hca : ∀ m, m < 2 ^ K → c m = 0 := by
        intro m hm
        obtain ⟨i, hi, rfl | rfl⟩ := msplit m hm
        · rw [clow _ hi, h0 _ hi]
        · rw [chigh _ hi, h0 _ hi, neg_zero]
      have := hm2 (if m = 0 then 1 else 0) (by split <;> omega) (by split <;> omega)
      have e1 := hca m hm1
      have e2 := hca (if m = 0 then 1 else 0) (by split <;> omega)
      have : c (if m = 0 then 1 else 0) < c m := this
      omega
    · obtain ⟨a, ha, ha', hca, _⟩ := pick i hi
      obtain ⟨b, hb, hb', hcb, _⟩ := pick j hj
      have hab : a ≠ b := by
        rintro rfl
        rcases ha' with rfl | rfl <;> rcases hb' with h | h <;> omega
      have hle : c m ≤ |tr (K - 1) i y| := le_trans (cle m l hl hl') (hall l hl)
      by_cases hma : a = m
      · have h1 : c b < c m := hm2 b hb (by omega)
        have : |tr (K - 1) i y| = |tr (K - 1) j y| := heq
        omega
      · have h1 : c a < c m := hm2 a ha hma
        omega

theorem sim_ml {K : Nat} {code : List Int} {r : Int} (hK : 1 ≤ K) (h : SimOut K (ext code) r) :
    (∃ m : Nat, r = m ∧ StrictMax (2 ^ K) (fun m => corr (2 ^ K - 1) (simWord K m) code) m) ∨
    (r = -1 ∧ ¬ ∃ m, StrictMax (2 ^ K) (fun m => corr (2 ^ K - 1) (simWord K m) code) m) := by
  obtain ⟨s, hs, hr⟩ := h
  have hpos : 1 < 2 ^ K := Nat.one_lt_two_pow (by omega)
  simp only [corr_sim]
  rcases hs.result with ⟨i, hi, hm, hp, hmax⟩ | ⟨hm, hno⟩
  · left
    exact ⟨i, by rw [hr, hm], hi, fun m' hm' hne => hmax m' hm' hne⟩
  · right
    refine ⟨by rw [hr, hm], ?_⟩
    rintro ⟨m, hm1, hm2⟩
    rcases hno with hz | ⟨i, j, hi, hj, hij, heq, hall⟩
    · have hsum := tr_sum K (ext code)
      rw [show ext code 0 = 0 from rfl, mul_zero] at hsum
      have h0 := (sum_eq_zero_iff_of_nonpos fun i hi => hz i (mem_range.1 hi)).1 hsum
      have := hm2 (if m = 0 then 1 else 0) (by split <;> omega) (by split <;> omega)
      have e1 := h0 m (mem_range.2 hm1)
      have e2 := h0 (if m = 0 then 1 else 0) (mem_range.2 (by split <;> omega))
      have : tr K (if m = 0 then 1 else 0) (ext code) < tr K m (ext code) := this
      omega
    · have a := hall m hm1
      by_cases h : i = m
      · have : tr K j (ext code) < tr K m (ext code) := hm2 j hj (by omega)
        subst h; omega
      · have : tr K i (ext code) < tr K m (ext code) := hm2 i hi h
        omega

/-! ### C33 -/

/-- **C33** (maximum likelihood): for every `K` from 2 to 24 and all soft values a `signed char` can
hold, the decoder returns `m` exactly when `m` is the only message whose codeword has the largest
correlation with the soft values, and -1 exactly when there is no such message. -/
theorem C33_maximum_likelihood {K : Nat} {sum code : List Int} (hK : 2 ≤ K) (hK' : K ≤ 24)
    (hs : sum.length = 2 ^ (K - 1)) (hl : code.length = 2 ^ (K - 1)) (hb : ∀ x ∈ code, -128 ≤ x ∧ x ≤ 127) :
    ∃ r, hadDecode K sum code = some r ∧
      (∀ m : Nat, r = m ↔ StrictMax (2 ^ K) (fun m => corr (2 ^ (K - 1)) (hadWord K m) code) m) ∧
      (r = -1 ↔ ¬ ∃ m, StrictMax (2 ^ K) (fun m => corr (2 ^ (K - 1)) (hadWord K m) code) m) := by
  have hb' : ∀ x ∈ code, |x| ≤ (128 : Nat) := fun x hx => by have := hb x hx; rw [abs_le]; push_cast; omega
  obtain ⟨r, hr, ho⟩ := hadDecode_ok hK hK' hs hl hb'
  exact ⟨r, hr, ml_iff (had_ml hK ho)⟩

/-- **C33** (unrolled versions): the specialisations for K = 2, 3, 4 return what the general code would. -/
theorem C33_unrolled_agrees {K : Nat} {sum code : List Int} (hK : 2 ≤ K) (hK' : K ≤ 24)
    (hs : sum.length = 2 ^ (K - 1)) (hl : code.length = 2 ^ (K - 1)) (hb : ∀ x ∈ code, -128 ≤ x ∧ x ≤ 127) :
    hadDecode K sum code = hadGeneric K sum code := by
  have hb' : ∀ x ∈ code, |x| ≤ (128 : Nat) := fun x hx => by have := hb x hx; rw [abs_le]; push_cast; omega
  obtain ⟨r, hr, ho⟩ := hadDecode_ok hK hK' hs hl hb'
  have hB : 2 ^ (K - 1) * 128 < 2 ^ 31 := by
    have : 2 ^ (K - 1) ≤ 2 ^ 23 := Nat.pow_le_pow_right (by norm_num) (by omega)
    omega
  have hg : Ok (hadGeneric K sum code) (HadOut (K - 1) fun t => code.getD t 0) := by
    unfold hadGeneric
    refine Ok.bind' (hadFirst_ok (by omega) hl hs (getD_bound hb') (by norm_num)) fun l1 h1 => ?_
    refine Ok.bind' (stages_ok (by omega) (getD_bound hb') hB h1) fun l2 h2 => ?_
    exact hadPick_tr h2.1 h2.2 (getD_bound hb') hB (by omega)
  obtain ⟨r', hr', ho'⟩ := hg
  rw [hr, hr']
  rcases had_ml hK ho with ⟨m, rfl, hm⟩ | ⟨rfl, hn⟩ <;> rcases had_ml hK ho' with ⟨m', rfl, hm'⟩ | ⟨rfl, hn'⟩
  · rw [hm.unique hm']
  · exact absurd ⟨m, hm⟩ hn'
  · exact absurd ⟨m', hm'⟩ hn
  · rfl

/-- **C33** (encoder): the constructor and the encoder terminate without undefined behaviour and write
the codeword of the message, whatever the table and the output array held before. -/
theorem C33_encoder {K msg : Nat} {mod code : List Int} (hK : 1 ≤ K) (hK' : K ≤ 30) (hm : mod.length = 2 ^ K)
    (hl : code.length = 2 ^ (K - 1)) (hmsg : msg < 2 ^ K) :
    (mkMod K mod >>= fun mod => hadEncode K mod code msg) = some ((List.range (2 ^ (K - 1))).map (hadWord K msg)) := by
  rw [mkMod_eq hm, sb, hadEncode_eq hl hmsg]
  congr 1
  refine List.map_congr_left fun i hi => ?_
  have hi : i < 2 ^ (K - 1) := List.mem_range.1 hi
  rw [parity_and (by omega) hmsg, chi_common, hadWord, Nat.lor_comm]
  have := Nat.two_pow_add_eq_or_of_lt hi 1
  rw [mul_one] at this
  rw [this]

/-! #### Error correction -/

/-- If every other codeword correlates with the sent one at most `N - 2 d`, then up to `d` errors
(erasures counted half) leave the sent message the strict maximum. -/
theorem correct {N W d : Nat} {word : Nat → Nat → Int} {code : List Int} {msg : Nat} {A : Int}
    (hw : ∀ m i, word m i = 1 ∨ word m i = -1) (hA : 0 < A) (hmsg : msg < W)
    (hd : ∀ m, m < W → m ≠ msg → (range N).sum (fun i => word msg i * word m i) ≤ N - 2 * d)
    (hc : ∀ i, i < N → code.getD i 0 = A * word msg i ∨ code.getD i 0 = 0 ∨ code.getD i 0 = -(A * word msg i))
    (he : 2 * count N (fun i => code.getD i 0 = -(A * word msg i)) + count N (fun i => code.getD i 0 = 0) < d) :
    StrictMax W (fun m => corr N (word m) code) msg := by
  refine ⟨hmsg, fun m hm hne => ?_⟩
  show corr N (word m) code < corr N (word msg) code
  rw [← sub_pos]
  unfold corr
  rw [← sum_sub_distrib]
  have key : ∀ i ∈ range N, A * ((1 - word msg i * word m i) - 2 * (2 * (if code.getD i 0 = -(A * word msg i) then 1 else 0) +
      (if code.getD i 0 = 0 then 1 else 0))) ≤ word msg i * code.getD i 0 - word m i * code.getD i 0 := by
    intro i hi
    have h := hc i (mem_range.1 hi)
    have hw1 := hw msg i
    have hw2 := hw m i
    have hmul : A * word msg i = A ∨ A * word msg i = -A := by rcases hw1 with h | h <;> rw [h] <;> simp
    rcases h with h | h | h <;> rw [h] <;> rcases hw1 with w1 | w1 <;> rcases hw2 with w2 | w2 <;> rw [w1, w2] <;>
      split_ifs <;> first | omega | (exfalso; omega)
  refine lt_of_lt_of_le ?_ (sum_le_sum key)
  rw [← mul_sum]
  refine mul_pos hA ?_
  rw [sum_sub_distrib, sum_sub_distrib, ← mul_sum, sum_add_distrib, ← mul_sum, sum_const, card_range, nsmul_eq_mul, mul_one]
  have h1 := hd m hm hne
  unfold count at he
  have he' : (2 * ((range N).sum fun i => if code.getD i 0 = -(A * word msg i) then (1 : Int) else 0) +
      (range N).sum fun i => if code.getD i 0 = 0 then (1 : Int) else 0) < d := by exact_mod_cast he
  linarith

theorem pm_one (n : Nat) : (-1 : Int) ^ n = 1 ∨ (-1 : Int) ^ n = -1 := neg_one_pow_eq_or Int n

theorem had_inner {K m m' : Nat} (hK : 2 ≤ K) (hm : m < 2 ^ K) (hm' : m' < 2 ^ K) (hne : m' ≠ m) :
    (range (2 ^ (K - 1))).sum (fun i => hadWord K m i * hadWord K m' i) ≤ ((2 ^ (K - 1) : Nat) : Int) - 2 * (2 ^ (K - 2) : Nat) := by
  have e2 : (2 ^ (K - 1) : Nat) = 2 * 2 ^ (K - 2) := by rw [← pow_succ']; congr 1; omega
  have hx : m ^^^ m' < 2 ^ K := Nat.xor_lt_two_pow hm hm'
  have hxn : m ^^^ m' ≠ 0 := fun h => hne (Nat.xor_eq_zero_iff.1 h).symm
  have h2 : 2 ^ K = 2 ^ (K - 1) + 2 ^ (K - 1) := by
    rw [← two_mul, ← pow_succ']; congr 1; omega
  have hpos : 0 < 2 ^ (K - 1) := by positivity
  have es : ∀ i ∈ range (2 ^ (K - 1)), hadWord K m i * hadWord K m' i = hadWord K (m ^^^ m') i := by
    intro i _
    unfold hadWord
    rw [← chi_common, ← chi_common, ← chi_common, chi_xor]
  rw [sum_congr rfl es, e2]
  push_cast
  rw [show (2 * 2 ^ (K - 2) - 2 * 2 ^ (K - 2) : Int) = 0 by ring, ← e2]
  by_cases hlt : m ^^^ m' < 2 ^ (K - 1)
  · rw [sum_congr rfl fun i hi => hadWord_low (by omega) (mem_range.1 hi) hlt, chi_sum _ _ hlt, if_neg hxn]
  · obtain ⟨q, hq⟩ : ∃ q, m ^^^ m' = 2 ^ (K - 1) + q := Nat.exists_eq_add_of_le (not_lt.1 hlt)
    rw [hq, sum_congr rfl fun i hi => hadWord_high (by omega) (mem_range.1 hi) (by omega), sum_neg_distrib,
      chi_sum _ _ (by omega)]
    split
    · have : (0 : Int) < 2 ^ (K - 1) := by positivity
      linarith
    · simp

/-- **C33** (error correction): if the received value at every position is the sent symbol times an
amplitude `A`, or zero (erased), or the negated symbol times `A` (flipped), and twice the number of
flips plus the number of erasures is below `2 ^ (K - 2)`, the decoder returns the sent message. -/
theorem C33_corrects_errors {K msg : Nat} {sum code : List Int} {A : Int} (hK : 2 ≤ K) (hK' : K ≤ 24)
    (hs : sum.length = 2 ^ (K - 1)) (hl : code.length = 2 ^ (K - 1)) (hmsg : msg < 2 ^ K) (hA : 0 < A) (hA' : A ≤ 127)
    (hc : ∀ i, i < 2 ^ (K - 1) →
      code.getD i 0 = A * hadWord K msg i ∨ code.getD i 0 = 0 ∨ code.getD i 0 = -(A * hadWord K msg i))
    (he : 2 * count (2 ^ (K - 1)) (fun i => code.getD i 0 = -(A * hadWord K msg i)) +
      count (2 ^ (K - 1)) (fun i => code.getD i 0 = 0) < 2 ^ (K - 2)) :
    hadDecode K sum code = some (msg : Int) := by
  have hb : ∀ x ∈ code, -128 ≤ x ∧ x ≤ 127 := by
    intro x hx
    obtain ⟨i, hi, rfl⟩ := List.getElem_of_mem hx
    rw [getElem_eq_getD _ 0]
    rcases pm_one (common K msg (2 ^ (K - 1) + i)) with h | h <;>
      rcases hc i (by omega) with h' | h' | h' <;> rw [h'] <;> (try (unfold hadWord; rw [h])) <;> omega
  obtain ⟨r, hr, h1, _⟩ := C33_maximum_likelihood hK hK' hs hl hb
  rw [hr, (h1 msg).2 (correct (fun m i => pm_one _) hA hmsg (fun m hm hne => had_inner hK hmsg hm hne) hc he)]

/-- **C33** (round trip): what the encoder writes, scaled by any amplitude, decodes to the message. -/
theorem C33_round_trip {K msg : Nat} {mod out sum : List Int} {A : Int} (hK : 2 ≤ K) (hK' : K ≤ 24) (hm : mod.length = 2 ^ K)
    (ho : out.length = 2 ^ (K - 1)) (hs : sum.length = 2 ^ (K - 1)) (hmsg : msg < 2 ^ K) (hA : 0 < A) (hA' : A ≤ 127) :
    (mkMod K mod >>= fun mod => hadEncode K mod out msg >>= fun code => hadDecode K sum (code.map (A * ·))) = some (msg : Int) := by
  have he := C33_encoder (mod := mod) (code := out) (by omega) (by omega) hm ho hmsg
  rw [mkMod_eq hm, sb] at he ⊢
  rw [he, sb]
  have hv : ∀ i, i < 2 ^ (K - 1) → (((List.range (2 ^ (K - 1))).map (hadWord K msg)).map (A * ·)).getD i 0 = A * hadWord K msg i := by
    intro i hi
    rw [List.map_map, getD_map_range _ hi]; rfl
  have hne : ∀ i, A * hadWord K msg i ≠ 0 := by
    intro i
    rcases pm_one (common K msg (2 ^ (K - 1) + i)) with h | h <;> unfold hadWord <;> rw [h] <;> omega
  refine C33_corrects_errors hK hK' hs (by simp) hmsg hA hA' (fun i hi => Or.inl (hv i hi)) ?_
  have z1 : count (2 ^ (K - 1)) (fun i => (((List.range (2 ^ (K - 1))).map (hadWord K msg)).map (A * ·)).getD i 0 = -(A * hadWord K msg i)) = 0 := by
    unfold count
    refine sum_eq_zero fun i hi => if_neg ?_
    show ¬ _ = _
    rw [hv i (mem_range.1 hi)]
    have := hne i; omega
  have z2 : count (2 ^ (K - 1)) (fun i => (((List.range (2 ^ (K - 1))).map (hadWord K msg)).map (A * ·)).getD i 0 = 0) = 0 := by
    unfold count
    refine sum_eq_zero fun i hi => if_neg ?_
    show ¬ _ = _
    rw [hv i (mem_range.1 hi)]
    exact hne i
  rw [z1, z2]; positivity

/-! ### C34 -/

/-- **C34** (maximum likelihood): for every `K` from 1 to 23 and all soft values a `signed char` can
hold, the decoder returns `m` exactly when `m` is the only message whose codeword has the largest
correlation with the soft values, and -1 exactly when there is no such message. -/
theorem C34_maximum_likelihood {K : Nat} {sum code : List Int} (hK : 1 ≤ K) (hK' : K ≤ 23)
    (hs : sum.length = 2 ^ K) (hl : code.length = 2 ^ K - 1) (hb : ∀ x ∈ code, -128 ≤ x ∧ x ≤ 127) :
    ∃ r, simDecode K sum code = some r ∧
      (∀ m : Nat, r = m ↔ StrictMax (2 ^ K) (fun m => corr (2 ^ K - 1) (simWord K m) code) m) ∧
      (r = -1 ↔ ¬ ∃ m, StrictMax (2 ^ K) (fun m => corr (2 ^ K - 1) (simWord K m) code) m) := by
  have hb' : ∀ x ∈ code, |x| ≤ (128 : Nat) := fun x hx => by have := hb x hx; rw [abs_le]; push_cast; omega
  obtain ⟨r, hr, ho⟩ := simDecode_ok hK hK' hs hl hb'
  exact ⟨r, hr, ml_iff (sim_ml hK ho)⟩

/-- **C34** (unrolled versions): the specialisations for K = 2, 3, 4 return what the general code would. -/
theorem C34_unrolled_agrees {K : Nat} {sum code : List Int} (hK : 1 ≤ K) (hK' : K ≤ 23)
    (hs : sum.length = 2 ^ K) (hl : code.length = 2 ^ K - 1) (hb : ∀ x ∈ code, -128 ≤ x ∧ x ≤ 127) :
    simDecode K sum code = simGeneric K sum code := by
  have hb' : ∀ x ∈ code, |x| ≤ (128 : Nat) := fun x hx => by have := hb x hx; rw [abs_le]; push_cast; omega
  obtain ⟨r, hr, ho⟩ := simDecode_ok hK hK' hs hl hb'
  have hB : 2 ^ K * 128 < 2 ^ 31 := by
    have : 2 ^ K ≤ 2 ^ 23 := Nat.pow_le_pow_right (by norm_num) (by omega)
    omega
  have hg : Ok (simGeneric K sum code) (SimOut K (ext code)) := by
    unfold simGeneric
    refine Ok.bind' (simFirst_ok (by omega) hl hs (getD_bound hb') (by norm_num)) fun l1 h1 => ?_
    refine Ok.bind' (stages_ok (by omega) (ext_bound hb') hB h1) fun l2 h2 => ?_
    exact simPick_tr h2.1 h2.2
  obtain ⟨r', hr', ho'⟩ := hg
  rw [hr, hr']
  rcases sim_ml hK ho with ⟨m, rfl, hm⟩ | ⟨rfl, hn⟩ <;> rcases sim_ml hK ho' with ⟨m', rfl, hm'⟩ | ⟨rfl, hn'⟩
  · rw [hm.unique hm']
  · exact absurd ⟨m, hm⟩ hn'
  · exact absurd ⟨m', hm'⟩ hn
  · rfl

/-- **C34** (encoder): the constructor and the encoder terminate without undefined behaviour and write
the codeword of the message, whatever the table and the output array held before. -/
theorem C34_encoder {K msg : Nat} {mod code : List Int} (hK' : K ≤ 30) (hm : mod.length = 2 ^ K)
    (hl : code.length = 2 ^ K - 1) (hmsg : msg < 2 ^ K) :
    (mkMod K mod >>= fun mod => simEncode K mod code msg) = some ((List.range (2 ^ K - 1)).map (simWord K msg)) := by
  rw [mkMod_eq hm, sb, simEncode_eq hl hmsg]
  congr 1
  refine List.map_congr_left fun i hi => ?_
  rw [parity_and (by omega) hmsg, chi_common, simWord]

theorem sim_inner {K m m' : Nat} (hK : 1 ≤ K) (hm : m < 2 ^ K) (hm' : m' < 2 ^ K) (hne : m' ≠ m) :
    (range (2 ^ K - 1)).sum (fun i => simWord K m i * simWord K m' i) ≤ ((2 ^ K - 1 : Nat) : Int) - 2 * (2 ^ (K - 1) : Nat) := by
  have e2 : (2 ^ K : Nat) = 2 * 2 ^ (K - 1) := by rw [← pow_succ']; congr 1; omega
  have hx : m ^^^ m' < 2 ^ K := Nat.xor_lt_two_pow hm hm'
  have hxn : m ^^^ m' ≠ 0 := fun h => hne (Nat.xor_eq_zero_iff.1 h).symm
  have hpos : 0 < 2 ^ (K - 1) := by positivity
  have es : ∀ i ∈ range (2 ^ K - 1), simWord K m i * simWord K m' i = chi K (m ^^^ m') (i + 1) := by
    intro i _
    unfold simWord
    rw [← chi_common, ← chi_common, chi_xor]
  have h := chi_sum K _ hx
  rw [if_neg hxn, show 2 ^ K = 2 ^ K - 1 + 1 by omega, sum_range_succ'] at h
  have h0 : chi K (m ^^^ m') 0 = 1 := by unfold chi; simp [sg]
  rw [sum_congr rfl es]
  rw [h0] at h
  have : ((2 ^ K - 1 : Nat) : Int) = 2 * (2 ^ (K - 1) : Nat) - 1 := by omega
  rw [this]; linarith

/-- **C34** (error correction): as for the Hadamard code; twice the number of flips plus the number of
erasures may reach `2 ^ (K - 1) - 1`. -/
theorem C34_corrects_errors {K msg : Nat} {sum code : List Int} {A : Int} (hK : 1 ≤ K) (hK' : K ≤ 23)
    (hs : sum.length = 2 ^ K) (hl : code.length = 2 ^ K - 1) (hmsg : msg < 2 ^ K) (hA : 0 < A) (hA' : A ≤ 127)
    (hc : ∀ i, i < 2 ^ K - 1 →
      code.getD i 0 = A * simWord K msg i ∨ code.getD i 0 = 0 ∨ code.getD i 0 = -(A * simWord K msg i))
    (he : 2 * count (2 ^ K - 1) (fun i => code.getD i 0 = -(A * simWord K msg i)) +
      count (2 ^ K - 1) (fun i => code.getD i 0 = 0) < 2 ^ (K - 1)) :
    simDecode K sum code = some (msg : Int) := by
  have hb : ∀ x ∈ code, -128 ≤ x ∧ x ≤ 127 := by
    intro x hx
    obtain ⟨i, hi, rfl⟩ := List.getElem_of_mem hx
    rw [getElem_eq_getD _ 0]
    rcases pm_one (common K msg (i + 1)) with h | h <;>
      rcases hc i (by omega) with h' | h' | h' <;> rw [h'] <;> (try (unfold simWord; rw [h])) <;> omega
  obtain ⟨r, hr, h1, _⟩ := C34_maximum_likelihood hK hK' hs hl hb
  rw [hr, (h1 msg).2 (correct (fun m i => pm_one _) hA hmsg (fun m hm hne => sim_inner hK hmsg hm hne) hc he)]

/-- **C34** (round trip): what the encoder writes, scaled by any amplitude, decodes to the message. -/
theorem C34_round_trip {K msg : Nat} {mod out sum : List Int} {A : Int} (hK : 1 ≤ K) (hK' : K ≤ 23) (hm : mod.length = 2 ^ K)
    (ho : out.length = 2 ^ K - 1) (hs : sum.length = 2 ^ K) (hmsg : msg < 2 ^ K) (hA : 0 < A) (hA' : A ≤ 127) :
    (mkMod K mod >>= fun mod => simEncode K mod out msg >>= fun code => simDecode K sum (code.map (A * ·))) = some (msg : Int) := by
  have he := C34_encoder (mod := mod) (code := out) (by omega) hm ho hmsg
  rw [mkMod_eq hm, sb] at he ⊢
  rw [he, sb]
  have hv : ∀ i, i < 2 ^ K - 1 → (((List.range (2 ^ K - 1)).map (simWord K msg)).map (A * ·)).getD i 0 = A * simWord K msg i := by
    intro i hi
    rw [List.map_map, getD_map_range _ hi]; rfl
  have hne : ∀ i, A * simWord K msg i ≠ 0 := by
    intro i
    rcases pm_one (common K msg (i + 1)) with h | h <;> unfold simWord <;> rw [h] <;> omega
  refine C34_corrects_errors hK hK' hs (by simp) hmsg hA hA' (fun i hi => Or.inl (hv i hi)) ?_
  have z1 : count (2 ^ K - 1) (fun i => (((List.range (2 ^ K - 1)).map (simWord K msg)).map (A * ·)).getD i 0 = -(A * simWord K msg i)) = 0 := by
    unfold count
    refine sum_eq_zero fun i hi => if_neg ?_
    show ¬ _ = _
    rw [hv i (mem_range.1 hi)]
    have := hne i; omega
  have z2 : count (2 ^ K - 1) (fun i => (((List.range (2 ^ K - 1)).map (simWord K msg)).map (A * ·)).getD i 0 = 0) = 0 := by
    unfold count
    refine sum_eq_zero fun i hi => if_neg ?_
    show ¬ _ = _
    rw [hv i (mem_range.1 hi)]
    exact hne i
  rw [z1, z2]; positivity

/-! ### Concrete cases -/

/-- `C33_corrects_errors`: the word of message 22 for K = 5 times 5 with three flips and one erasure (2 * 3 + 1 < 8). -/
example : (List.range 16).map (hadWord 5 22) = [-1, -1, 1, 1, 1, 1, -1, -1, -1, -1, 1, 1, 1, 1, -1, -1] ∧
    hadDecode 5 (List.replicate 16 77) [0, -5, 5, -5, 5, 5, -5, 5, -5, 5, 5, 5, 5, 5, -5, -5] = some 22 := by decide +kernel

/-- A tie is reported: all zero input. -/
example : hadDecode 3 [0, 0, 0, 0] [0, 0, 0, 0] = some (-1) := by decide +kernel
/-- The all ones word is message 0, its negation message 8. -/
example : hadDecode 4 (List.replicate 8 0) (List.replicate 8 (-128)) = some 8 := by decide +kernel
example : hadDecode 5 (List.replicate 16 0) (List.replicate 16 127) = some 0 := by decide +kernel
example : simDecode 5 (List.replicate 32 0) (List.replicate 31 127) = some 0 := by decide +kernel
/-- `C33_corrects_errors`: the word of message 11 for K = 4 times 3 with one erased symbol. -/
example : (List.range 8).map (hadWord 4 11) = [-1, 1, 1, -1, -1, 1, 1, -1] ∧
    hadDecode 4 (List.replicate 8 0) [-3, 3, 0, -3, -3, 3, 3, -3] = some 11 := by decide +kernel
/-- `C34_corrects_errors`: the word of message 5 for K = 3 times 3, one flip and one erasure. -/
example : (List.range 7).map (simWord 3 5) = [-1, 1, -1, -1, 1, -1, 1] ∧
    simDecode 3 (List.replicate 8 0) [-3, 3, 3, -3, 3, 0, 3] = some 5 := by decide +kernel

end Verif.Hadamard
