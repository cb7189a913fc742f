import Verif.OSD.Gen
import Verif.OSD.Props
import Verif.BCH.Props
/- C45: the linear encoder and the generator matrices of BCH codes. -/
namespace Verif.OSD
open Finset Polynomial
open Verif.RS (sb)
open Verif.BCH (beBit setBe_bit getBe_bit xorBe_bit b2 b2_xor genPoly bitPoly bitsOf coeff_bitPoly length_bitsOf getD_bitsOf genPoly_natDegree)
open Verif.Bits (setBe getBe xorBe)

variable {N K : Nat}

/-- The polynomial of a word of `n` symbols, the first one being the highest coefficient. -/
noncomputable def wordPoly (n : Nat) (c : Nat → ZMod 2) : (ZMod 2)[X] := ∑ p ∈ range n, C (c p) * X ^ (n - 1 - p)

theorem coeff_wordPoly (n : Nat) (c : Nat → ZMod 2) (k : Nat) : (wordPoly n c).coeff k = if k < n then c (n - 1 - k) else 0 := by
  unfold wordPoly
  rw [finsetSum_coeff]
  simp only [coeff_C_mul, coeff_X_pow, mul_ite, mul_one, mul_zero]
  by_cases h : k < n
  · rw [if_pos h, sum_eq_single (n - 1 - k)]
    · rw [if_pos (by omega)]
    · intro p hp hne
      rw [mem_range] at hp
      rw [if_neg (by omega)]
    · intro h2; exact absurd (mem_range.2 (by omega)) h2
  · rw [if_neg h]
    refine sum_eq_zero fun p hp => ?_
    rw [mem_range] at hp
    rw [if_neg (by omega)]

theorem wordPoly_bits (n : Nat) (buf : List (BitVec 8)) : wordPoly n (bitsZ buf) = bitPoly (bitsOf (beBit buf) n) := by
  ext k
  rw [coeff_wordPoly, coeff_bitPoly]
  rfl

theorem coeff_comb (m : Nat → ZMod 2) (g : (ZMod 2)[X]) (k : Nat) :
    (wordPoly K m * g).coeff k = ∑ j ∈ range K, m j * (X ^ (K - 1 - j) * g).coeff k := by
  unfold wordPoly
  rw [sum_mul, finsetSum_coeff]
  exact sum_congr rfl fun j _ => by rw [mul_assoc, coeff_C_mul]

/-- A word is the combination of the rows exactly if its polynomial is the product. -/
theorem agree_iff {g : (ZMod 2)[X]} (hK : 1 ≤ K) (hKN : K ≤ N) (hg : g.natDegree = N - K) (c m : Nat → ZMod 2) :
    (∀ p, p < N → c p = ∑ j ∈ range K, m j * shift N K g j p) ↔ wordPoly N c = wordPoly K m * g := by
  constructor
  · intro h
    ext k
    rw [coeff_wordPoly, coeff_comb]
    by_cases hk : k < N
    · rw [if_pos hk, h _ (by omega)]
      unfold shift
      rw [show N - 1 - (N - 1 - k) = k by omega]
    · rw [if_neg hk]
      symm
      refine sum_eq_zero fun j hj => ?_
      rw [mem_range] at hj
      rw [coeff_X_pow_mul', if_pos (by omega), coeff_eq_zero_of_natDegree_lt (by omega), mul_zero]
  · intro h p hp
    have := congrArg (fun q => q.coeff (N - 1 - p)) h
    rw [coeff_wordPoly, coeff_comb, if_pos (by omega), show N - 1 - (N - 1 - p) = p by omega] at this
    rw [this]; rfl

/-- The code of the rows: the multiples of the polynomial. -/
theorem inCode_shift {g : (ZMod 2)[X]} (hK : 1 ≤ K) (hKN : K ≤ N) (hg : g.natDegree = N - K) (hg0 : g ≠ 0) (c : Nat → ZMod 2) :
    InCode K N (shift N K g) c ↔ g ∣ wordPoly N c := by
  unfold InCode
  simp only [agree_iff hK hKN hg]
  constructor
  · rintro ⟨m, hm⟩; exact ⟨wordPoly K m, by rw [hm, mul_comm]⟩
  · rintro ⟨q, hq⟩
    refine ⟨fun j => q.coeff (K - 1 - j), ?_⟩
    have hqd : ∀ k, K ≤ k → q.coeff k = 0 := by
      intro k hk
      by_cases hq0 : q = 0
      · rw [hq0, coeff_zero]
      · refine coeff_eq_zero_of_natDegree_lt ?_
        by_contra hlt
        have h1 : (wordPoly N c).natDegree = N - K + q.natDegree := by rw [hq, natDegree_mul hg0 hq0, hg]
        have h2 : (wordPoly N c).coeff (wordPoly N c).natDegree ≠ 0 := by
          have : wordPoly N c ≠ 0 := by rw [hq]; exact mul_ne_zero hg0 hq0
          exact leadingCoeff_ne_zero.2 this
        rw [coeff_wordPoly, if_neg (by omega)] at h2
        exact h2 rfl
    have : wordPoly K (fun j => q.coeff (K - 1 - j)) = q := by
      ext k
      rw [coeff_wordPoly]
      by_cases hk : k < K
      · rw [if_pos hk, show K - 1 - (K - 1 - k) = k by omega]
      · rw [if_neg hk, hqd k (by omega)]
    rw [this, hq, mul_comm]

theorem fullRank_shift {g : (ZMod 2)[X]} (hK : 1 ≤ K) (hKN : K ≤ N) (hg : g.natDegree = N - K) (hg0 : g ≠ 0) :
    FullRank K N (shift N K g) := by
  intro m hm j hj
  have h := (agree_iff hK hKN hg 0 m).1 fun p hp => (hm p hp).symm
  have h0 : wordPoly N 0 = 0 := by
    ext k; rw [coeff_wordPoly, coeff_zero]; split <;> rfl
  rw [h0] at h
  have h1 := (mul_eq_zero.1 h.symm).resolve_right hg0
  have := congrArg (fun q => q.coeff (K - 1 - j)) h1
  rwa [coeff_wordPoly, if_pos (by omega), show K - 1 - (K - 1 - j) = j by omega, coeff_zero] at this

theorem inCode_entry {g h : Nat → Nat → ZMod 2} (e : ∀ j p, j < K → p < N → g j p = h j p) (c : Nat → ZMod 2) :
    InCode K N g c ↔ InCode K N h c := by
  have : ∀ m : Nat → ZMod 2, ∀ p, p < N → ∑ j ∈ range K, m j * g j p = ∑ j ∈ range K, m j * h j p :=
    fun m p hp => sum_congr rfl fun j hj => by rw [e j p (mem_range.1 hj) hp]
  constructor
  · rintro ⟨m, hm⟩; exact ⟨m, fun p hp => by rw [hm p hp, this m p hp]⟩
  · rintro ⟨m, hm⟩; exact ⟨m, fun p hp => by rw [hm p hp, this m p hp]⟩

theorem fullRank_entry {g h : Nat → Nat → ZMod 2} (e : ∀ j p, j < K → p < N → g j p = h j p) (r : FullRank K N h) : FullRank K N g := by
  intro m hm
  refine r m fun p hp => ?_
  rw [← hm p hp]
  exact sum_congr rfl fun j hj => by rw [e j p (mem_range.1 hj) hp]

theorem entry_of_bv {l : List (BitVec 8)} {j p : Nat} {z : ZMod 2} (h : l.getD (N * j + p) 0 = bv z) : entry N l j p = z := by
  unfold entry
  rw [h]
  rcases z01 z with h | h <;> rw [h] <;> decide

theorem rows01 {l : List (BitVec 8)} {v : Nat → Nat → ZMod 2} (hN : 0 < N) (h : ∀ j p, j < K → p < N → l.getD (N * j + p) 0 = bv (v j p)) :
    ∀ x, x < N * K → l.getD x 0 = 0#8 ∨ l.getD x 0 = 1#8 := by
  intro x hx
  have h1 : x / N < K := by rw [Nat.div_lt_iff_lt_mul hN, Nat.mul_comm]; exact hx
  have h2 : x % N < N := Nat.mod_lt _ hN
  rw [← Nat.div_add_mod x N, h _ _ h1 h2]
  unfold bv
  split
  · exact Or.inl rfl
  · exact Or.inr rfl

/-! ### The linear encoder -/

/-- The linear encoder multiplies the message by the matrix: bit `p` of the codeword is the sum of
the entries of column `p` over the set bits of the message; no other bit is written. -/
theorem C45_encoder {codeword message genmat : List (BitVec 8)} (hK : 1 ≤ K) (hm : K ≤ 8 * message.length) (hc : N ≤ 8 * codeword.length)
    (hg : N * K ≤ genmat.length) (h01 : ∀ x, x < N * K → genmat.getD x 0 = 0#8 ∨ genmat.getD x 0 = 1#8) :
    ∃ out, linEncode N K codeword message genmat = some out ∧ out.length = codeword.length ∧
      (∀ p, p < N → bitsZ out p = ∑ j ∈ range K, bitsZ message j * entry N genmat j p) ∧
      ∀ x, N ≤ x → x < 8 * codeword.length → beBit out x = beBit codeword x := by
  have hNK : N ≤ N * K := Nat.le_mul_of_pos_right _ (by omega)
  unfold linEncode
  have hrow : ∀ j, j < K → N * j + N ≤ N * K := by
    intro j hj
    have := Nat.mul_le_mul_left N (show j + 1 ≤ K by omega)
    rwa [Nat.mul_succ] at this
  have hb : ∀ (j i : Nat), j < K → i < N → rd genmat (N * j + i) = some (genmat.getD (N * j + i) 0) := by
    intro j i hj hi
    have := hrow j hj
    rw [rd_of_lt (by omega), getElem_eq_getD _ 0]
  have hent : ∀ j i, j < K → i < N → b2 (genmat.getD (N * j + i) 0 != 0#8) = entry N genmat j i := by
    intro j i hj hi
    have := hrow j hj
    unfold entry
    rcases h01 (N * j + i) (by omega) with h | h <;> rw [h] <;> decide
  obtain ⟨c1, e1, l1, h1, h1'⟩ : Ok (forUp 0 N codeword fun i codeword => do
      let m ← getBe message (0 : Nat)
      let g ← rd genmat i
      setBe codeword i (((if m then 1#8 else 0#8) &&& g) != 0#8)) (fun out => out.length = codeword.length ∧
      (∀ p, p < N → bitsZ out p = bitsZ message 0 * entry N genmat 0 p) ∧
      ∀ x, N ≤ x → x < 8 * codeword.length → beBit out x = beBit codeword x) := by
    refine forUp_inv (fun t (out : List (BitVec 8)) => out.length = codeword.length ∧
      (∀ p, p < t → bitsZ out p = bitsZ message 0 * entry N genmat 0 p) ∧
      ∀ x, N ≤ x → x < 8 * codeword.length → beBit out x = beBit codeword x) (Nat.zero_le _) ⟨rfl, fun p h => by omega, fun x _ _ => rfl⟩ ?_
    rintro t out _ ht ⟨l, h, h'⟩
    have e := hb 0 t (by omega) ht
    rw [Nat.mul_zero, Nat.zero_add] at e
    rw [getBe_bit (by omega), sb, e, sb]
    obtain ⟨o, e1, e2, e3⟩ := setBe_bit (buf := out) (i := t) (((if beBit message 0 then 1#8 else 0#8) &&& genmat.getD t 0) != 0#8) (by omega)
    refine ⟨o, e1, by omega, ?_, ?_⟩
    · intro p hp
      unfold bitsZ
      rw [e3 p (by omega)]
      by_cases hpt : p = t
      · subst hpt
        rw [if_pos rfl, ← hent 0 p (by omega) ht, Nat.mul_zero, Nat.zero_add]
        have := h01 p (by omega)
        rcases this with h | h <;> rw [h] <;> cases beBit message 0 <;> decide
      · rw [if_neg hpt]
        exact h p (by omega)
    · intro x hx1 hx2
      rw [e3 x (by omega), if_neg (by omega), h' x hx1 hx2]
  rw [e1, sb]
  refine forUp_inv (fun t (out : List (BitVec 8)) => out.length = codeword.length ∧
      (∀ p, p < N → bitsZ out p = ∑ j ∈ range t, bitsZ message j * entry N genmat j p) ∧
      ∀ x, N ≤ x → x < 8 * codeword.length → beBit out x = beBit codeword x) hK
      ⟨l1, fun p hp => by rw [sum_range_one]; exact h1 p hp, h1'⟩ ?_
  rintro t out ht1 ht2 ⟨l, h, h'⟩
  rw [getBe_bit (by omega), sb]
  have hsucc : ∀ p, ∑ j ∈ range (t + 1), bitsZ message j * entry N genmat j p =
      ∑ j ∈ range t, bitsZ message j * entry N genmat j p + b2 (beBit message t) * entry N genmat t p := fun p => sum_range_succ _ _
  cases hbit : beBit message t with
  | false =>
    rw [if_neg (by decide)]
    refine Ok.some ⟨l, fun p hp => ?_, h'⟩
    rw [hsucc, hbit, h p hp]
    show _ = _ + 0 * _
    rw [zero_mul, add_zero]
  | true =>
    rw [if_pos rfl]
    refine Ok.mono (forUp_inv (fun u (o : List (BitVec 8)) => o.length = codeword.length ∧
      (∀ p, p < N → bitsZ o p = if p < u then bitsZ out p + entry N genmat t p else bitsZ out p) ∧
      ∀ x, N ≤ x → x < 8 * codeword.length → beBit o x = beBit codeword x) (Nat.zero_le _)
      ⟨l, fun p _ => by rw [if_neg (by omega)], h'⟩ ?_) ?_
    · rintro u o _ hu ⟨lo, ho, ho'⟩
      rw [hb t u ht2 hu, sb]
      obtain ⟨o2, e1, e2, e3⟩ := xorBe_bit (buf := o) (i := u) (genmat.getD (N * t + u) 0 != 0#8) (by omega)
      refine ⟨o2, e1, by omega, ?_, ?_⟩
      · intro p hp
        unfold bitsZ at ho ⊢
        rw [e3 p (by omega)]
        by_cases hpu : p = u
        · subst hpu
          have := ho p hp
          rw [if_neg (by omega)] at this
          rw [if_pos rfl, if_pos (by omega), b2_xor, this, hent t p ht2 hp]
        · rw [if_neg hpu, ho p hp]
          by_cases h2 : p < u
          · rw [if_pos h2, if_pos (by omega)]
          · rw [if_neg h2, if_neg (by omega)]
      · intro x hx1 hx2
        rw [e3 x (by omega), if_neg (by omega), ho' x hx1 hx2]
    · rintro o ⟨lo, ho, ho'⟩
      refine ⟨lo, fun p hp => ?_, ho'⟩
      rw [hsucc, hbit, ho p hp, if_pos hp, h p hp]
      show _ = _ + 1 * _
      rw [one_mul]

/-! ### The generator matrices -/

/-- Without `systematic`, row `j` of the matrix is the polynomial `x^(K-1-j)` times the product of the
minimal polynomials, highest coefficient first; the array behind the matrix is not written. -/
theorem C45_matrix {polys : List Nat} (h : GenPolys (N - K) polys) (hK : 1 ≤ K) (hKN : K ≤ N) {g0 : List (BitVec 8)} (hl : N * K ≤ g0.length) :
    ∃ g, matrix N K g0 false polys = some g ∧ g.length = g0.length ∧
      (∀ x, x < N * K → g.getD x 0 = 0#8 ∨ g.getD x 0 = 1#8) ∧ (∀ x, N * K ≤ x → g.getD x 0 = g0.getD x 0) ∧
      ∀ j p, j < K → p < N → entry N g j p = (X ^ (K - 1 - j) * genPoly polys).coeff (N - 1 - p) := by
  have hNK : N ≤ N * K := Nat.le_mul_of_pos_right _ (by omega)
  unfold matrix
  obtain ⟨g1, e1, l1, h1, h1'⟩ := poly_ok h (g0 := g0) (by omega)
  rw [e1, sb]
  obtain ⟨g2, e2, l2, h2, h2'⟩ := matRows_ok hK hKN h.deg (g0 := g1) (by omega) h1
  rw [e2, sb, if_neg (by decide)]
  exact ⟨g2, rfl, by omega, rows01 (by omega) h2, fun x hx => by rw [h2' x hx, h1' x (by omega)], fun j p hj hp => entry_of_bv (h2 j p hj hp)⟩

/-- With `systematic`, the first `K` columns are the identity and the rows generate the code of all
multiples of the product of the minimal polynomials. -/
theorem C45_systematic {polys : List Nat} (h : GenPolys (N - K) polys) (hK : 1 ≤ K) (hKN : K ≤ N) {g0 : List (BitVec 8)} (hl : N * K ≤ g0.length) :
    ∃ g, matrix N K g0 true polys = some g ∧ g.length = g0.length ∧
      (∀ x, x < N * K → g.getD x 0 = 0#8 ∨ g.getD x 0 = 1#8) ∧
      (∀ j p, j < K → p < K → entry N g j p = if j = p then 1 else 0) ∧
      ∀ c, InCode K N (entry N g) c ↔ genPoly polys ∣ wordPoly N c := by
  have hNK : N ≤ N * K := Nat.le_mul_of_pos_right _ (by omega)
  have hne := (genPoly_natDegree (fun m hm => by have := h.pos m hm; omega : ∀ m ∈ polys, 0 < m)).2
  unfold matrix
  obtain ⟨g1, e1, l1, h1, h1'⟩ := poly_ok h (g0 := g0) (by omega)
  rw [e1, sb]
  obtain ⟨g2, e2, l2, h2, h2'⟩ := matRows_ok hK hKN h.deg (g0 := g1) (by omega) h1
  rw [e2, sb, if_pos rfl]
  have T : Tri K id (shift N K (genPoly polys)) := by
    refine ⟨fun a ha => ?_, fun a i ha hi => ?_⟩
    · rw [shift_eq hKN h.deg ha (by rw [id]; omega), if_pos (by rw [id]; omega), id, Nat.add_sub_cancel, lead_one h.deg hne]
    · rw [shift_eq hKN h.deg ha (by rw [id]; omega), if_neg (by rw [id]; omega)]
  obtain ⟨g3, e3, l3, v, R, S, hid⟩ := backSub_ok (N := N) (w := N) (n := N) (g := g2) (q := id) (le_refl _) hKN ⟨by omega, h2⟩ T
  have hent : ∀ j p, j < K → p < N → entry N g3 j p = v j p := fun j p hj hp => entry_of_bv (R.ent j p hj hp)
  refine ⟨g3, e3, by omega, rows01 (by omega) R.ent, fun j p hj hp => ?_, fun c => ?_⟩
  · rw [hent j p hj (by omega)]; exact hid j p hj hp
  · rw [inCode_entry hent, ← S.1 c, inCode_shift hK hKN h.deg hne]

/-- The code of the other matrix is the same. -/
theorem C45_same_code {polys : List Nat} (h : GenPolys (N - K) polys) (hK : 1 ≤ K) (hKN : K ≤ N) {g0 g : List (BitVec 8)} {b : Bool}
    (hl : N * K ≤ g0.length) (hg : matrix N K g0 b polys = some g) :
    FullRank K N (entry N g) ∧ ∀ c, InCode K N (entry N g) c ↔ genPoly polys ∣ wordPoly N c := by
  have hne := (genPoly_natDegree (fun m hm => by have := h.pos m hm; omega : ∀ m ∈ polys, 0 < m)).2
  cases b with
  | false =>
    obtain ⟨g', e, _, _, _, hent⟩ := C45_matrix h hK hKN hl
    cases hg.symm.trans e
    exact ⟨fullRank_entry hent (fullRank_shift hK hKN h.deg hne), fun c => by
      rw [inCode_entry hent]; exact inCode_shift hK hKN h.deg hne c⟩
  | true =>
    obtain ⟨g', e, _, _, hid, hc⟩ := C45_systematic h hK hKN hl
    cases hg.symm.trans e
    exact ⟨fullRank_id hKN hid, hc⟩

/-- Message times generator polynomial. -/
theorem C45_product {polys : List Nat} (h : GenPolys (N - K) polys) (hK : 1 ≤ K) (hKN : K ≤ N) {g0 g codeword message : List (BitVec 8)}
    (hl : N * K ≤ g0.length) (hg : matrix N K g0 false polys = some g) (hm : K ≤ 8 * message.length) (hc : N ≤ 8 * codeword.length) :
    ∃ out, linEncode N K codeword message g = some out ∧
      bitPoly (bitsOf (beBit out) N) = bitPoly (bitsOf (beBit message) K) * genPoly polys := by
  obtain ⟨g', e, l, h01, _, hent⟩ := C45_matrix h hK hKN hl
  cases hg.symm.trans e
  obtain ⟨out, e2, _, h2, _⟩ := C45_encoder hK hm hc (by omega) h01
  refine ⟨out, e2, ?_⟩
  rw [← wordPoly_bits, ← wordPoly_bits]
  refine (agree_iff hK hKN h.deg _ _).1 fun p hp => ?_
  rw [h2 p hp]
  exact sum_congr rfl fun j hj => by rw [hent j p (mem_range.1 hj) hp]; rfl

/-- With the systematic matrix the linear encoder gives the codeword of the BCH encoder: the message
bits followed by the parity bits that encoder computes. -/
theorem C45_bch {polys : List Nat} (h : GenPolys (N - K) polys) (hK : 1 ≤ K) (hKN : K < N) {g0 g codeword message : List (BitVec 8)}
    (hl : N * K ≤ g0.length) (hg : matrix N K g0 true polys = some g) (hm : K ≤ 8 * message.length) (hc : N ≤ 8 * codeword.length)
    {gen0 gen parity0 parity : List (BitVec 8)} {KB : Nat} (hgl : gen0.length = (N - K + 1 + 7) / 8)
    (hgen : Verif.BCH.encInit (N - K) gen0 polys = some gen) (hpl : (N - K + 7) / 8 ≤ parity0.length) (hKB : K ≤ KB)
    (hp : Verif.BCH.encode (N - K) KB gen message parity0 K = some parity) :
    ∃ out, linEncode N K codeword message g = some out ∧ (∀ p, p < K → beBit out p = beBit message p) ∧
      ∀ p, p < N - K → beBit out (K + p) = beBit parity p := by
  obtain ⟨g', e, l, h01, hid, hcode⟩ := C45_systematic h hK (by omega : K ≤ N) hl
  cases hg.symm.trans e
  obtain ⟨out, e2, _, h2, _⟩ := C45_encoder hK hm hc (by omega) h01
  have hb2 : ∀ a b : Bool, b2 a = b2 b → a = b := by decide
  have hsys : ∀ p, p < K → beBit out p = beBit message p := by
    intro p hp
    refine hb2 _ _ ?_
    have := h2 p (by omega)
    rw [sum_eq_single p] at this
    · rw [hid p p hp hp, if_pos rfl, mul_one] at this; exact this
    · intro j hj hne
      rw [hid j p (mem_range.1 hj) hp, if_neg hne, mul_zero]
    · intro h; exact absurd (mem_range.2 hp) h
  refine ⟨out, e2, hsys, ?_⟩
  have hdv := (hcode (bitsZ out)).1 ⟨_, h2⟩
  rw [wordPoly_bits] at hdv
  obtain ⟨gen', hg', he⟩ := Verif.BCH.C27_encoder (NP := N - K) (polys := polys) ⟨by omega, fun m hm => by have := h.pos m hm; omega, h.int, h.deg⟩ gen0 hgl
  cases hgen.symm.trans hg'
  obtain ⟨q, hq, _, hqd, _⟩ := he KB message parity0 K (by omega) hKB hm hpl
  cases hp.symm.trans hq
  have hsplit : bitsOf (beBit out) N = bitsOf (beBit message) K ++ bitsOf (fun p => beBit out (K + p)) (N - K) := by
    refine ext_getD false (by rw [List.length_append, length_bitsOf, length_bitsOf, length_bitsOf]; omega) fun i hi => ?_
    rw [length_bitsOf] at hi
    rw [getD_bitsOf _ hi]
    by_cases hiK : i < K
    · rw [List.getD_append _ _ _ _ (by rw [length_bitsOf]; exact hiK), getD_bitsOf _ hiK, hsys i hiK]
    · rw [List.getD_append_right _ _ _ _ (by rw [length_bitsOf]; omega), length_bitsOf, getD_bitsOf _ (by omega)]
      congr 1; omega
  rw [hsplit] at hdv
  unfold Verif.BCH.bits at hqd
  exact Verif.BCH.parity_unique h.deg hdv hqd

/-- From message to message: encode with either matrix, send with any non-zero amplitudes, and the
ordered statistics decoder of any order returns the codeword and true. -/
theorem C45_roundtrip {polys : List Nat} (h : GenPolys (N - K) polys) (hK : 1 ≤ K) (hKN : K ≤ N) {g0 g codeword message : List (BitVec 8)} {b : Bool}
    (hl : g0.length = N * K) (hg : matrix N K g0 b polys = some g) (hm : K ≤ 8 * message.length) (hc : N ≤ 8 * codeword.length) :
    ∃ out, linEncode N K codeword message g = some out ∧
      ∀ (O : Nat) (M : Mem) (cand hard soft : List (BitVec 8)), Valid N K M → cand.length = W N → N ≤ soft.length → N ≤ 8 * hard.length →
        (∀ p, p < N → (beBit out p = false → 0 < (soft.getD p 0).toInt) ∧ (beBit out p = true → (soft.getD p 0).toInt < 0)) →
        ∃ dec M' cand', decode N K O M cand hard soft g = some (true, dec, M', cand') ∧ ∀ p, p < N → beBit dec p = beBit out p := by
  have hNpos : 0 < N := by omega
  obtain ⟨h1, h2⟩ : g.length = g0.length ∧ ∀ x, x < N * K → g.getD x 0 = 0#8 ∨ g.getD x 0 = 1#8 := by
    cases b with
    | false =>
      obtain ⟨g', e, l, h01, _⟩ := C45_matrix h hK hKN (le_of_eq hl.symm)
      cases hg.symm.trans e
      exact ⟨l, h01⟩
    | true =>
      obtain ⟨g', e, l, h01, _⟩ := C45_systematic h hK hKN (le_of_eq hl.symm)
      cases hg.symm.trans e
      exact ⟨l, h01⟩
  obtain ⟨hr, _⟩ := C45_same_code h hK hKN (le_of_eq hl.symm) hg
  obtain ⟨out, e2, _, h3, _⟩ := C45_encoder hK hm hc (by omega) h2
  refine ⟨out, e2, ?_⟩
  intro O M cand hard soft hM hcand hs hh hsign
  have h01 : ∀ x ∈ g, x = 0#8 ∨ x = 1#8 := by
    intro x hx
    obtain ⟨i, hi, rfl⟩ := List.mem_iff_getElem.1 hx
    rw [getElem_eq_getD hi 0]
    exact h2 i (by omega)
  have hhard : Agree N (hardBit soft) (bitsZ out) := by
    intro p hp
    obtain ⟨s1, s2⟩ := hsign p hp
    unfold hardBit val bitsZ
    cases hb : beBit out p with
    | false => rw [if_neg (by have := s1 hb; omega)]; rfl
    | true => rw [if_pos (by have := s2 hb; omega)]; rfl
  have hnz : ∀ p, p < N → val soft p ≠ 0 := by
    intro p hp
    obtain ⟨s1, s2⟩ := hsign p hp
    unfold val
    cases hb : beBit out p with
    | false => have := s1 hb; omega
    | true => have := s2 hb; omega
  have hin : InCode K N (entry N g) (hardBit soft) := inCode_congr (fun p hp => (hhard p hp).symm) ⟨_, h3⟩
  obtain ⟨dec, M', cand', e3, h4⟩ := C46_hard_decisions (O := O) hM hcand hK h01 (by omega) hs hh hr hnz hin
  refine ⟨dec, M', cand', e3, fun p hp => ?_⟩
  have hb2 : ∀ a b : Bool, b2 a = b2 b → a = b := by decide
  exact hb2 _ _ ((h4 p hp).trans (hhard p hp))

theorem polyLoop_append (NP : Nat) (qs : List Nat) : ∀ (ps : List Nat) (s : List (BitVec 8) × Nat),
    polyLoop NP (ps ++ qs) s = (polyLoop NP ps s >>= polyLoop NP qs) := by
  intro ps
  induction ps with
  | nil => rintro ⟨g, gd⟩; rfl
  | cons m ms ih =>
    rintro ⟨g, gd⟩
    rw [List.cons_append]
    unfold polyLoop
    simp only [ih, bind_assoc]

/-- An additional constant polynomial behind a complete list makes the generator read the byte in front
of the array. -/
theorem C45_constant {polys : List Nat} {NP : Nat} (h : GenPolys NP polys) {g0 : List (BitVec 8)} (hl : NP < g0.length) :
    (∃ g, poly NP g0 polys = some g) ∧ poly NP g0 (polys ++ [1]) = none := by
  obtain ⟨g, e, _⟩ := poly_ok h hl
  refine ⟨⟨g, e⟩, ?_⟩
  have hpos : ∀ m ∈ polys, 0 < m := fun m hm => by have := h.pos m hm; omega
  unfold poly at e ⊢
  obtain ⟨z, hz⟩ : ∃ z, forUp 0 NP g0 (fun i g => wr g i 0#8) = some z := by
    rw [forUp_fill (g := fun _ => 0#8) (by omega) (fun j l hj hl => wr_of_lt (by omega))]; exact ⟨_, rfl⟩
  rw [hz, sb] at e ⊢
  cases hw : wr z NP 1#8 with
  | none => rfl
  | some g1 =>
    rw [hw, sb] at e
    rw [sb, polyLoop_append]
    cases hp : polyLoop NP polys (g1, 1) with
    | none => rfl
    | some r =>
      obtain ⟨g2, gd⟩ := r
      rw [hp, sb] at e
      dsimp only at e
      have hgd : gd = NP + 1 := by
        by_contra hne
        unfold assertUB at e
        rw [if_neg hne] at e
        exact absurd e (by simp)
      subst hgd
      rw [sb]
      have : polyLoop NP [1] (g2, NP + 1) = none := by
        unfold polyLoop
        rw [show Verif.BCH.degPacked 1 = some 0 by decide]
        unfold assertUB
        rw [if_pos (by decide), sb, if_pos (by decide), sb, sb, if_pos (by omega), sb]
        unfold Verif.BCH.mulGen forDown
        have : (byteStore NP).get g2 (0 + (NP + 1)) = none := by
          show (do let x ← rdZ g2 ((NP : Int) - ((0 + (NP + 1) : Nat) : Int)); return x != 0#8) = none
          unfold rdZ
          rw [if_pos (by omega)]
          rfl
        dsimp only
        rw [this]
        rfl
      rw [this]
      rfl

theorem assertUB_some {p : Prop} [Decidable p] {β : Type} {f : PUnit → Option β} {b : β} (h : (assertUB p >>= f) = some b) : p ∧ f ⟨⟩ = some b := by
  unfold assertUB at h
  by_cases hp : p
  · rw [if_pos hp] at h; exact ⟨hp, h⟩
  · rw [if_neg hp] at h; exact absurd h (by simp)

theorem polyLoop_some {NP : Nat} : ∀ (polys : List Nat) (g : List (BitVec 8)) (gd : Nat) (r : List (BitVec 8) × Nat), (∀ m ∈ polys, m < 2 ^ 31) →
    polyLoop NP polys (g, gd) = some r → (∀ m ∈ polys, m % 2 = 1) ∧ r.2 = gd + (polys.map Nat.log2).sum := by
  intro polys
  induction polys with
  | nil => intro g gd r _ h; cases h; simp
  | cons m ms ih =>
    intro g gd r hi h
    unfold polyLoop at h
    obtain ⟨h0, h⟩ := assertUB_some h
    obtain ⟨h1, h⟩ := assertUB_some h
    rw [Verif.BCH.degPacked_ok h0 (hi m (by simp)), sb] at h
    obtain ⟨_, h⟩ := assertUB_some h
    obtain ⟨g', hg', h⟩ := Option.bind_eq_some_iff.1 h
    obtain ⟨h3, h4⟩ := ih g' _ r (fun m' hm' => hi m' (by simp [hm'])) h
    refine ⟨?_, by rw [h4, List.map_cons, List.sum_cons]; omega⟩
    rintro m' hm'
    rcases List.mem_cons.1 hm' with rfl | hm'
    · simpa [Nat.testBit_zero] using h1
    · exact h3 m' hm'

/-- Every other list is rejected: the generator of a matrix succeeds only if every polynomial is odd and
the degrees add up to `N - K`, whatever the buffer contains. -/
theorem C45_rejects {polys : List Nat} (hi : ∀ m ∈ polys, m < 2 ^ 31) {g0 g : List (BitVec 8)} {b : Bool}
    (h : matrix N K g0 b polys = some g) : (∀ m ∈ polys, m % 2 = 1) ∧ (polys.map Nat.log2).sum = N - K := by
  unfold matrix at h
  obtain ⟨g1, h1, _⟩ := Option.bind_eq_some_iff.1 h
  unfold poly at h1
  obtain ⟨g2, _, h2⟩ := Option.bind_eq_some_iff.1 h1
  obtain ⟨g3, _, h3⟩ := Option.bind_eq_some_iff.1 h2
  obtain ⟨⟨g4, gd⟩, h4, h5⟩ := Option.bind_eq_some_iff.1 h3
  obtain ⟨h6, _⟩ := assertUB_some h5
  obtain ⟨h7, h8⟩ := polyLoop_some polys _ _ _ hi h4
  dsimp only at h8
  exact ⟨h7, by omega⟩

/-! ### Examples -/

/-- A list of too small a degree is rejected. -/
example (g0 : List (BitVec 8)) (b : Bool) : matrix 7 4 g0 b [0b111] = none := by
  cases h : matrix 7 4 g0 b [0b111] with
  | none => rfl
  | some g => exact absurd (C45_rejects (by decide) h).2 (by decide)

theorem genPolys_of {NP : Nat} {polys : List Nat} (h : ∀ m ∈ polys, m % 2 = 1 ∧ 1 < m ∧ m < 2 ^ 31) (hs : (polys.map Nat.log2).sum = NP) :
    GenPolys NP polys :=
  ⟨fun m hm => (h m hm).1, fun m hm => (h m hm).2.1, fun m hm => (h m hm).2.2, by
    rw [(genPoly_natDegree fun m hm => by have := (h m hm).2.1; omega).1, hs]⟩

/-- The two codes of the tests meet the hypotheses. -/
theorem C45_test_codes :
    GenPolys (127 - 64) [0b10001001, 0b10001111, 0b10011101, 0b11110111, 0b10111111, 0b11010101, 0b10000011, 0b11101111, 0b11001011] ∧
    GenPolys (15 - 5) [0b10011, 0b11111, 0b00111] :=
  ⟨genPolys_of (by decide) (by decide), genPolys_of (by decide) (by decide)⟩

/-- The (15, 5) code: both matrices, and a message encoded with each. -/
example : matrix 15 5 (List.replicate 75 9) false [0b10011, 0b11111, 0b00111] = some
    [1,0,1,0,0,1,1,0,1,1,1,0,0,0,0, 0,1,0,1,0,0,1,1,0,1,1,1,0,0,0, 0,0,1,0,1,0,0,1,1,0,1,1,1,0,0,
     0,0,0,1,0,1,0,0,1,1,0,1,1,1,0, 0,0,0,0,1,0,1,0,0,1,1,0,1,1,1] := by decide +kernel
example : matrix 15 5 (List.replicate 75 9) true [0b10011, 0b11111, 0b00111] = some
    [1,0,0,0,0,1,0,1,0,0,1,1,0,1,1, 0,1,0,0,0,1,1,1,1,0,1,0,1,1,0, 0,0,1,0,0,0,1,1,1,1,0,1,0,1,1,
     0,0,0,1,0,1,0,0,1,1,0,1,1,1,0, 0,0,0,0,1,0,1,0,0,1,1,0,1,1,1] := by decide +kernel
example : (matrix 15 5 (List.replicate 75 9) true [0b10011, 0b11111, 0b00111]).bind
    (linEncode 15 5 [0xFF, 0xFF] [0b10110000]) = some [0b10110010, 0b00111101] := by decide +kernel

end Verif.OSD
