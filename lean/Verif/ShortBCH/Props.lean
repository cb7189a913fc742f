import Verif.ShortBCH.Soft
/-
C30, C31, C32: short BCH codes.

`Params N K G` collects what the class needs: `1 ≤ K ≤ N ≤ 31`, `K ≤ 30`, `N - K ≤ 15`, and a generator polynomial of degree
`N - K`.  Words are naturals, bit `i` being the coefficient of `X^i`; `GF2.natPoly` is that polynomial over GF(2).
`mkPar`/`mkDec` are the constructors, run on arrays of arbitrary content.
-/
namespace Verif.ShortBCH
open Finset Verif.GF2
open Verif.RS (sb)

/-! ### Specification -/

/-- The code: multiples of the generator polynomial of degree below `N`. -/
def Codeword (N G c : Nat) : Prop := c < 2 ^ N ∧ natPoly G ∣ natPoly c

/-- Hamming distance of two words of `N` bits. -/
def dist (N x y : Nat) : Nat := ((range N).filter fun i => x.testBit i ≠ y.testBit i).card

/-- Any two codewords differ in at least `d` places. -/
def MinDist (N G d : Nat) : Prop := ∀ c c', Codeword N G c → Codeword N G c' → c ≠ c' → d ≤ dist N c c'

/-- Correlation of a word, a one being sent as -1, with soft values. -/
def corr (N : Nat) (code : List Int) (c : Nat) : Int := (range N).sum fun i => (if c.testBit i then -1 else 1) * code.getD i 0

/-- The only codeword with the largest correlation. -/
def Best (N G : Nat) (code : List Int) (c : Nat) : Prop :=
  Codeword N G c ∧ ∀ c', Codeword N G c' → c' ≠ c → corr N code c' < corr N code c

/-! ### Helper lemmas -/

theorem dist_eq (N x y : Nat) : dist N x y = weight N (x ^^^ y) := by
  unfold dist weight
  congr 1
  refine filter_congr fun i _ => ?_
  rw [Nat.testBit_xor]
  cases x.testBit i <;> cases y.testBit i <;> simp

theorem corr_eq (N : Nat) (code : List Int) (c : Nat) :
    corr N code c = (range N).sum (fun i => code.getD i 0) + 2 * met N code c := by
  unfold corr met
  rw [mul_sum, ← sum_add_distrib]
  refine sum_congr rfl fun i _ => ?_
  split <;> ring

theorem corr_lt {N : Nat} {code : List Int} {c c' : Nat} : corr N code c < corr N code c' ↔ met N code c < met N code c' := by
  rw [corr_eq, corr_eq]; constructor <;> intro h <;> linarith

theorem corr_le {N : Nat} {code : List Int} {c c' : Nat} : corr N code c ≤ corr N code c' ↔ met N code c ≤ met N code c' := by
  rw [corr_eq, corr_eq]; constructor <;> intro h <;> linarith

/-! ### C30 -/

/-- **C30** (systematic, divisible): the constructed encoder returns, for every message, a word of `N` bits whose top `K` bits
are the message and which is divisible by the generator polynomial. -/
theorem C30_systematic {N K G msg : Nat} {par : List Nat} (h : Params N K G) (hp : par.length = 2 ^ K) (hm : msg < 2 ^ K) :
    ∃ cw, (mkPar (N - K) K G par >>= fun par => encode (N - K) par msg) = some cw ∧ Codeword N G cw ∧ cw >>> (N - K) = msg := by
  rw [mkPar_eq h hp, sb, encode_eq h hm]
  exact ⟨_, rfl, ⟨enc_lt h hm, enc_div h hm⟩, enc_high h hm⟩

/-- **C30** (all codewords): every codeword is what the encoder returns for its top `K` bits. -/
theorem C30_surjective {N K G c : Nat} {par : List Nat} (h : Params N K G) (hp : par.length = 2 ^ K) (hc : Codeword N G c) :
    c >>> (N - K) < 2 ^ K ∧ (mkPar (N - K) K G par >>= fun par => encode (N - K) par (c >>> (N - K))) = some c := by
  obtain ⟨h1, h2⟩ := enc_of_div h hc.1 hc.2
  rw [mkPar_eq h hp, sb, encode_eq h h1, h2]
  exact ⟨h1, rfl⟩

/-- **C30** (linear). -/
theorem C30_linear {N K G a b x y : Nat} {par : List Nat} (h : Params N K G) (hp : par.length = 2 ^ K) (ha : a < 2 ^ K) (hb : b < 2 ^ K)
    (hx : (mkPar (N - K) K G par >>= fun par => encode (N - K) par a) = some x)
    (hy : (mkPar (N - K) K G par >>= fun par => encode (N - K) par b) = some y) :
    (mkPar (N - K) K G par >>= fun par => encode (N - K) par (a ^^^ b)) = some (x ^^^ y) := by
  obtain ⟨x', ex, cx, hx'⟩ := C30_systematic (par := par) h hp ha
  obtain ⟨y', ey, cy, hy'⟩ := C30_systematic (par := par) h hp hb
  rw [hx] at ex; rw [hy] at ey; cases ex; cases ey
  have hc : Codeword N G (x ^^^ y) := ⟨Nat.xor_lt_two_pow cx.1 cy.1, Div.xor cx.2 cy.2⟩
  have := (C30_surjective (par := par) h hp hc).2
  rwa [Nat.shiftRight_xor_distrib, hx', hy'] at this

/-- **C30** (soft form): the soft encoder returns the codeword and writes -1 for a one and 1 for a zero at position `i` for bit `i`. -/
theorem C30_soft {N K G msg : Nat} {par : List Nat} {code : List Int} (h : Params N K G) (hp : par.length = 2 ^ K) (hm : msg < 2 ^ K)
    (hc : code.length = N) :
    ∃ cw, (mkPar (N - K) K G par >>= fun par => encode (N - K) par msg) = some cw ∧
      (mkPar (N - K) K G par >>= fun par => encodeSoft N (N - K) par code msg) =
        some ((List.range N).map fun i => if cw.testBit i then -1 else 1, cw) := by
  rw [mkPar_eq h hp, sb, sb, encode_eq h hm]
  refine ⟨_, rfl, ?_⟩
  unfold encodeSoft
  rw [encode_eq h hm, sb]
  rw [forUp_fill (g := fun i => if (enc N K G msg).testBit i then (-1 : Int) else 1) (by omega)]
  · rw [sb, ← hc, List.drop_length, List.append_nil]; rfl
  · intro j l hj hl
    rw [wr_of_lt (by omega)]
    have := bit_mul (enc N K G msg) j 1
    rw [Nat.mul_one] at this
    rw [this]
    split <;> rfl

/-! ### C31 -/

/-- **C31** (sound): the constructed hard decoder returns, for every word, either -1 or a codeword at distance at most `T` of it. -/
theorem C31_sound {N K G T x : Nat} {err par : List Nat} (h : Params N K G) (hT : 1 ≤ T) (hT3 : T ≤ 3) (he : err.length = 2 ^ (N - K))
    (hp : par.length = 2 ^ K) (hx : x < 2 ^ N) :
    ∃ r, (mkDec N K G T err par >>= fun d => hard (N - K) d.1 d.2 x) = some r ∧
      (r = -1 ∨ ∃ c : Nat, r = c ∧ Codeword N G c ∧ dist N x c ≤ T) := by
  obtain ⟨⟨err', par'⟩, hd, rfl, hv, ha⟩ := mkDec_ok h hT he hp
  rw [hd, sb]
  dsimp only at hv ha ⊢
  refine ⟨_, hard_eq h hv hx, ?_⟩
  by_cases hc : err'.getD (syn N K G x) 0 ≠ 0 ∨ syn N K G x = 0
  · rw [if_pos hc]
    refine Or.inr ⟨_, rfl, ?_⟩
    rw [dist_eq, ← Nat.xor_assoc, Nat.xor_self, Nat.zero_xor]
    by_cases h0 : err'.getD (syn N K G x) 0 = 0
    · have hz : syn N K G x = 0 := by tauto
      rw [h0, Nat.xor_zero, weight_zero]
      exact ⟨⟨hx, (syn_zero_iff h hx).1 hz⟩, Nat.zero_le _⟩
    · obtain ⟨hpat, hs⟩ := hv.2 _ h0
      have hlt := Nat.xor_lt_two_pow hx hpat.lt
      exact ⟨⟨hlt, (syn_zero_iff h hlt).1 (by rw [syn_xor h hx hpat.lt, hs, Nat.xor_self])⟩, ((pat_iff hpat.lt hT3).1 hpat).2⟩
  · rw [if_neg hc]; exact Or.inl rfl

/-- **C31** (complete): it returns -1 exactly when no codeword is within distance `T`. -/
theorem C31_fails_iff {N K G T x : Nat} {err par : List Nat} (h : Params N K G) (hT : 1 ≤ T) (hT3 : T ≤ 3) (he : err.length = 2 ^ (N - K))
    (hp : par.length = 2 ^ K) (hx : x < 2 ^ N) :
    (mkDec N K G T err par >>= fun d => hard (N - K) d.1 d.2 x) = some (-1) ↔ ¬ ∃ c, Codeword N G c ∧ dist N x c ≤ T := by
  obtain ⟨r, hr, hrc⟩ := C31_sound (x := x) h hT hT3 he hp hx
  constructor
  · rintro h1 ⟨c, hc, hd⟩
    obtain ⟨⟨err', par'⟩, hd', rfl, hv, ha⟩ := mkDec_ok h hT he hp
    rw [hd', sb] at h1
    dsimp only at hv ha h1
    rw [hard_eq h hv hx] at h1
    have hcond : err'.getD (syn N K G x) 0 ≠ 0 ∨ syn N K G x = 0 := by
      rw [dist_eq] at hd
      have hlt := Nat.xor_lt_two_pow hx hc.1
      have hs : syn N K G (x ^^^ c) = syn N K G x := by
        rw [syn_xor h hx hc.1, (syn_zero_iff h hc.1).2 hc.2, Nat.xor_zero]
      by_cases h0 : x ^^^ c = 0
      · right; rw [← hs, h0]; exact (syn_zero_iff h (by positivity)).2 (Div.zero G)
      · left
        have := ha _ ((pat_iff hlt hT3).2 ⟨h0, hd⟩)
        unfold Has at this
        rwa [hs] at this
    rw [if_pos hcond] at h1
    injection h1 with h1
    omega
  · intro hno
    rcases hrc with rfl | ⟨c, _, hc, hd⟩
    · exact hr
    · exact absurd ⟨c, hc, hd⟩ hno

/-- **C31** (corrects): if any two codewords differ in at least `2 T + 1` places, every word within distance `T` of a codeword decodes
to that codeword. -/
theorem C31_corrects {N K G T x c : Nat} {err par : List Nat} (h : Params N K G) (hT : 1 ≤ T) (hT3 : T ≤ 3) (he : err.length = 2 ^ (N - K))
    (hp : par.length = 2 ^ K) (hd : MinDist N G (2 * T + 1)) (hc : Codeword N G c) (hx : x < 2 ^ N) (hxc : dist N x c ≤ T) :
    (mkDec N K G T err par >>= fun d => hard (N - K) d.1 d.2 x) = some (c : Int) := by
  obtain ⟨r, hr, hrc⟩ := C31_sound (x := x) h hT hT3 he hp hx
  rcases hrc with rfl | ⟨c', rfl, hc', hdc⟩
  · exact absurd ⟨c, hc, hxc⟩ ((C31_fails_iff h hT hT3 he hp hx).1 hr)
  · rw [hr]
    by_cases hcc : c' = c
    · rw [hcc]
    · have h1 := hd c' c hc' hc hcc
      rw [dist_eq] at h1 hxc hdc
      have h2 := weight_xor_le N (x ^^^ c') (x ^^^ c)
      rw [show x ^^^ c' ^^^ (x ^^^ c) = c' ^^^ c by
        rw [Nat.xor_comm x c', Nat.xor_assoc, ← Nat.xor_assoc x, Nat.xor_self, Nat.zero_xor]] at h2
      omega

/-! ### C32 -/

/-- **C32** (maximum likelihood): for `K ≤ 4` and all soft values a `signed char` can hold, the soft decoder returns a codeword `c`
exactly when `c` is the only codeword with the largest correlation, and -1 exactly when there is none. -/
theorem C32_maximum_likelihood {N K G T : Nat} {err par : List Nat} {code : List Int} (h : Params N K G) (hT : 1 ≤ T)
    (he : err.length = 2 ^ (N - K)) (hp : par.length = 2 ^ K) (hK : K ≤ 4) (hl : code.length = N) (hb : ∀ x ∈ code, -128 ≤ x ∧ x ≤ 127) :
    ∃ r, (mkDec N K G T err par >>= fun d => soft N K T d.1 d.2 code) = some r ∧
      (∀ c : Nat, r = c ↔ Best N G code c) ∧ (r = -1 ↔ ¬ ∃ c, Best N G code c) := by
  obtain ⟨⟨err', par'⟩, hd, hB⟩ := mkDec_ok h hT he hp
  rw [hd, sb]
  have hc : SoftIn N code := ⟨hl, hb⟩
  obtain ⟨cw, hcw, hlt, hsg⟩ := sign_ok hl
  obtain ⟨w, hw, hwc⟩ := hard_cases h hB hlt
  obtain ⟨s, hs, hml⟩ := search_ok h hc hwc
  have hpar : par' = parTab N K G := hB.1
  unfold soft
  dsimp only at hw ⊢
  rw [hcw, sb, hw, sb, metric_eq hc h.n31, sb, if_neg (by omega), sb, if_pos hK, hpar, hs, sb]
  refine ⟨_, rfl, ?_⟩
  have uniq : ∀ c c', Best N G code c → Best N G code c' → c = c' := by
    intro c c' h1 h2
    by_contra hne
    have a := h1.2 c' h2.1 (Ne.symm hne)
    have b := h2.2 c h1.1 hne
    omega
  rcases hml.result h with ⟨c, hr, h1, h2⟩ | ⟨hr, c, c', h1, h2, h3, h4, h5⟩
  · have hbest : Best N G code c := ⟨h1, fun c' hc' hne => corr_lt.2 (h2 c' hc' hne)⟩
    rw [hr]
    refine ⟨fun c' => ⟨fun hcc => ?_, fun hcc => by rw [uniq c c' hbest hcc]⟩, ⟨fun hh => by omega, fun hh => absurd ⟨c, hbest⟩ hh⟩⟩
    have : c = c' := by exact_mod_cast hcc
    exact this ▸ hbest
  · have hno : ¬ ∃ x, Best N G code x := by
      rintro ⟨x, hx, hx2⟩
      have hle := h5 x hx
      by_cases hxc : c = x
      · subst hxc
        have := corr_lt.1 (hx2 c' h2 (Ne.symm h3))
        omega
      · have := corr_lt.1 (hx2 c h1 hxc)
        omega
    rw [hr]
    exact ⟨fun x => ⟨fun hh => by omega, fun hh => absurd ⟨x, hh⟩ hno⟩, ⟨fun _ => hno, fun _ => rfl⟩⟩

/-- **C32** (error free): for every `K`, if no soft value is zero and their signs form a codeword, and the minimum distance is more
than `T` (so that the hard decoder maps codewords to themselves), the decoder returns that codeword. -/
theorem C32_sign_codeword {N K G T cw : Nat} {err par : List Nat} {code : List Int} (h : Params N K G) (hT : 1 ≤ T) (hT3 : T ≤ 3)
    (he : err.length = 2 ^ (N - K)) (hp : par.length = 2 ^ K) (hl : code.length = N) (hb : ∀ x ∈ code, -128 ≤ x ∧ x ≤ 127)
    (hd : MinDist N G (T + 1)) (hcw : Codeword N G cw)
    (hs : ∀ i, i < N → if cw.testBit i then code.getD i 0 < 0 else 0 < code.getD i 0) :
    (mkDec N K G T err par >>= fun d => soft N K T d.1 d.2 code) = some (cw : Int) := by
  obtain ⟨⟨err', par'⟩, hdec, hB⟩ := mkDec_ok h hT he hp
  have hc : SoftIn N code := ⟨hl, hb⟩
  have hsg : ∀ i, i < N → cw.testBit i = decide (code.getD i 0 < 0) := by
    intro i hi
    have := hs i hi
    split at this
    · rename_i hbit; rw [hbit]; exact (decide_eq_true this).symm
    · rename_i hbit; rw [Bool.not_eq_true] at hbit; rw [hbit]; exact (decide_eq_false (by omega)).symm
  have hnz : ∀ i, i < N → code.getD i 0 ≠ 0 := by
    intro i hi
    have := hs i hi
    split at this <;> omega
  obtain ⟨cw', hcw', hlt, hsg'⟩ := sign_ok hl
  have hcc : cw' = cw := by
    apply Nat.eq_of_testBit_eq
    intro i
    by_cases hi : i < N
    · rw [hsg' i hi, hsg i hi]
    · rw [Nat.testBit_eq_false_of_lt (lt_of_lt_of_le hlt (Nat.pow_le_pow_right (by norm_num) (by omega))),
        Nat.testBit_eq_false_of_lt (lt_of_lt_of_le hcw.1 (Nat.pow_le_pow_right (by norm_num) (by omega)))]
  subst hcc
  have hbest : ∀ c, IsCW N G c → c ≠ cw' → met N code c < met N code cw' := fun c hcc hne => met_lt h hsg hnz hcw.1 hcc.1 hne
  have h0 := met_sign_nonneg h hsg
  -- the hard decoder returns the codeword itself
  have hw : hard (N - K) err' par' cw' = some (cw' : Int) := by
    obtain ⟨hpar, hv, ha⟩ := hB
    dsimp only at hpar hv ha
    rw [hpar, hard_eq h hv hlt]
    have hz : syn N K G cw' = 0 := (syn_zero_iff h hlt).2 hcw.2
    rw [if_pos (Or.inr hz), hz]
    by_cases he0 : err'.getD 0 0 = 0
    · rw [he0, Nat.xor_zero]
    · exfalso
      obtain ⟨hpat, hsy⟩ := hv.2 0 he0
      have hcode : Codeword N G (err'.getD 0 0) := ⟨hpat.lt, (syn_zero_iff h hpat.lt).1 hsy⟩
      have := hd _ 0 hcode ⟨by positivity, Div.zero G⟩ he0
      rw [dist_eq, Nat.xor_zero] at this
      have := ((pat_iff hpat.lt hT3).1 hpat).2
      omega
  rw [hdec, sb]
  unfold soft
  dsimp only
  rw [hcw', sb, hw, sb, metric_eq hc h.n31, sb]
  by_cases hK : K ≤ 4
  · rw [if_neg (by omega), sb, if_pos hK]
    obtain ⟨s, hse, hml⟩ := search_ok (w := (cw' : Int)) h hc (Or.inr ⟨cw', rfl, hcw⟩)
    have hpar : par' = parTab N K G := hB.1
    rw [hpar, hse, sb]
    rcases hml.result h with ⟨c, hr, h1, h2⟩ | ⟨hr, c, c', h1, h2, h3, h4, h5⟩
    · have : c = cw' := by
        by_contra hne
        have a := h2 cw' hcw (Ne.symm hne)
        have b := hbest c h1 hne
        omega
      subst this
      exact congrArg some hr
    · exfalso
      have a := h5 cw' hcw
      by_cases hcc : c = cw'
      · subst hcc
        have := hbest c' h2 (Ne.symm h3); omega
      · have := hbest c h1 hcc; omega
  · rw [if_pos (by omega)]
    have hst : Ok (chase N (N - K) T err' par' code cw' ((cw' : Int), metI N code cw', -2)) (Stay N code cw') := by
      obtain ⟨worst, hworst, hwl, hwlt⟩ := findWorst_ok h (L := T) hc.len
      unfold chase
      rw [hworst, sb]
      refine Ok.mono (forUp_inv (fun _ s => Stay N code cw' s) Nat.one_le_two_pow ⟨rfl, metI_nat N code cw', ?_⟩ ?_) (fun _ h => h)
      · dsimp only; rw [metI_nat]; omega
      · intro j s _ _ hss
        obtain ⟨p, hp, hp1, _⟩ := pattern_ok h (j := j) hwl hwlt
        obtain ⟨r, hr, hrc⟩ := hard_cases h hB (Nat.xor_lt_two_pow hlt hp1)
        rw [hp, sb, hr, sb, update_eq hc h.n31]
        exact Ok.some (Stay.step h hss h0 hbest hrc)
    obtain ⟨s, hse, h1, h2, h3⟩ := hst
    rw [hse, sb, if_neg hK, sb, if_neg (by omega), h1]
    rfl

/-- **C32** (Chase, `K > 4`): the decoder terminates and returns -1 or a codeword.  A returned codeword correlates at least as well with
the soft values as every word that the hard decoder produces after flipping any subset of the positions `findWorst` picked (the empty
subset included) in the hard decision. -/
theorem C32_chase {N K G T : Nat} {err par : List Nat} {code : List Int} (h : Params N K G) (hT : 1 ≤ T)
    (he : err.length = 2 ^ (N - K)) (hp : par.length = 2 ^ K) (hK : 4 < K) (hl : code.length = N) (hb : ∀ x ∈ code, -128 ≤ x ∧ x ≤ 127) :
    ∃ err' par' worst r, mkDec N K G T err par = some (err', par') ∧ findWorst N T code = some worst ∧
      soft N K T err' par' code = some r ∧
      (r = -1 ∨ ∃ c : Nat, r = c ∧ Codeword N G c ∧
        ∀ x c' : Nat, (∀ i, x.testBit i ≠ (decide (i < N) && decide (code.getD i 0 < 0)) → i ∈ worst) →
          hard (N - K) err' par' x = some (c' : Int) → corr N code c' ≤ corr N code c) := by
  obtain ⟨⟨err', par'⟩, hdec, hB⟩ := mkDec_ok h hT he hp
  have hc : SoftIn N code := ⟨hl, hb⟩
  obtain ⟨cw, hcw, hlt, hsg⟩ := sign_ok hl
  obtain ⟨w, hw, hwc⟩ := hard_cases h hB hlt
  dsimp only at hw
  obtain ⟨worst, hworst, s, hs, hci⟩ := chase_ok h (L := T) hB hc hlt hw
  refine ⟨err', par', worst, if s.2.1 = s.2.2 then -1 else s.1, hdec, hworst, ?_, ?_⟩
  · unfold soft
    dsimp only at hs ⊢
    rw [hcw, sb, hw, sb, metric_eq hc h.n31, sb, if_pos (by omega), hs, sb, if_neg (by omega), sb]
    rfl
  · by_cases heq : s.2.1 = s.2.2
    · rw [if_pos heq]; exact Or.inl rfl
    · rw [if_neg heq]
      rcases hci.ex with ⟨h1, _⟩ | ⟨c, h1, h2, h3⟩
      · exact Or.inl h1
      · refine Or.inr ⟨c, h1, h2, fun x c' hx hhard => corr_le.2 ?_⟩
        rw [← h3, ← metI_nat]
        refine hci.all _ ⟨cw ^^^ x, fun b hb => hx b ?_, ?_⟩
        · rw [Nat.testBit_xor] at hb
          by_cases hbN : b < N
          · rw [hsg b hbN] at hb
            simp only [hbN, decide_true, Bool.true_and]
            intro hxx; rw [hxx] at hb; simp at hb
          · rw [Nat.testBit_eq_false_of_lt (lt_of_lt_of_le hlt (Nat.pow_le_pow_right (by norm_num) (by omega)))] at hb
            simp only [Bool.false_bne] at hb
            simp [hbN, hb]
        · rw [← Nat.xor_assoc, Nat.xor_self, Nat.zero_xor]; exact hhard

/-- **C32** (a weakness of the Chase search): if the first symbol is strictly the least reliable one, the list of least reliable
positions contains nothing but position 0, whatever the other reliabilities are. -/
theorem C32_chase_list_degenerate {N L : Nat} {code : List Int} (hN : 1 ≤ N) (hl : code.length = N)
    (hmin : ∀ k, 1 ≤ k → k < N → |code.getD 0 0| < |code.getD k 0|) : findWorst N L code = some (List.replicate L 0) := by
  unfold findWorst
  have habs : ∀ i, i < N → absAt code i = some |code.getD i 0| := by
    intro i hi
    unfold absAt
    rw [rd_of_lt (by omega), sb, getElem_eq_getD _ 0]
    congr 1
    split
    · rename_i hneg; rw [abs_of_neg hneg]
    · rename_i hneg; rw [abs_of_nonneg (by omega)]
  refine Ok.eq_some.1 (Ok.mono (forUp_inv (fun _ w => w = List.replicate L 0) (Nat.zero_le _) rfl ?_) (fun _ h => h))
  rintro k w _ hk rfl
  have hzero : ∀ n j, n + j = L → ∀ i, i < n → rd (List.replicate L 0) (j + i) = some 0 := by
    intro n j hj i hi
    rw [rd_of_lt (by simp; omega)]; simp
  have hset : ∀ i : Nat, (List.replicate L 0).set i 0 = List.replicate L 0 := by
    intro i
    refine List.ext_getElem (by simp) fun a h1 h2 => ?_
    rw [List.getElem_set]; split <;> simp
  by_cases hk0 : k = 0
  · subst hk0
    have hpos : findPos code (List.replicate L 0) 0 L 0 = some 0 := by
      cases L with
      | zero => rfl
      | succ L =>
        rw [findPos, rd_of_lt (by simp), sb]
        simp only [List.getElem_replicate]
        rw [habs 0 (by omega), sb, sb, if_neg (lt_irrefl _)]; rfl
    rw [hpos, sb]
    unfold insertAt
    have : Ok (forDown (0 + 1) (L - 1 - 0) (List.replicate L 0) fun i worst => do
        let v ← rd worst (i - 1)
        wr worst i v) (fun w => w = List.replicate L 0) := by
      refine forDown_inv (fun _ w => w = List.replicate L 0) _ _ rfl ?_
      rintro j w hj rfl
      rw [rd_of_lt (by simp; omega), sb, wr_of_lt (by simp; omega)]
      simp only [List.getElem_replicate]
      exact Ok.some (hset _)
    obtain ⟨w, hw, rfl⟩ := this
    rw [hw, sb]
    split
    · rw [wr_of_lt (by simpa), hset]; exact Ok.some rfl
    · exact Ok.some rfl
  · have hpos : ∀ n j, n + j = L → findPos code (List.replicate L 0) k n j = some L := by
      intro n
      induction n with
      | zero => intro j hj; rw [findPos]; congr 1; omega
      | succ n ih =>
        intro j hj
        rw [findPos, rd_of_lt (by simp; omega), sb]
        simp only [List.getElem_replicate]
        rw [habs 0 (by omega), sb, habs k hk, sb, if_pos (hmin k (by omega) hk)]
        exact ih (j + 1) (by omega)
    rw [hpos L 0 (by omega), sb]
    unfold insertAt
    rw [show L - 1 - L = 0 by omega, forDown, sb, if_neg (lt_irrefl _)]
    exact Ok.some rfl

/-! ### Concrete codes -/

/-- Counting ones, for evaluation. -/
def ones : Nat → Nat → Nat
  | 0, _ => 0
  | n + 1, x => (if x.testBit n then 1 else 0) + ones n x

theorem ones_eq (n x : Nat) : ones n x = weight n x := by
  induction n with
  | zero => unfold ones weight; simp
  | succ n ih =>
    unfold ones
    rw [ih]
    unfold weight
    rw [range_add_one, filter_insert]
    split
    · rw [card_insert_of_notMem (by simp), Nat.add_comm]
    · rw [Nat.zero_add]

/-- The minimum distance from the weights of the encoded nonzero messages. -/
theorem minDist_of {N K G d : Nat} (h : Params N K G) (hw : ∀ m, m < 2 ^ K → m ≠ 0 → d ≤ ones N (enc N K G m)) : MinDist N G d := by
  intro c c' hc hc' hne
  have hx : Codeword N G (c ^^^ c') := ⟨Nat.xor_lt_two_pow hc.1 hc'.1, Div.xor hc.2 hc'.2⟩
  obtain ⟨h1, h2⟩ := enc_of_div h hx.1 hx.2
  have hm : (c ^^^ c') >>> (N - K) ≠ 0 := by
    intro h0
    rw [h0, enc_zero h] at h2
    exact hne (Nat.xor_eq_zero_iff.1 h2.symm)
  have := hw _ h1 hm
  rwa [h2, ones_eq, ← dist_eq] at this

/-- Parameters of the (15, 5) code of tests/short_bch_code_decoder_test.cc. -/
theorem params_nasa : Params 15 5 0b10100110111 := by constructor <;> decide
/-- Parameters of the (23, 12) Golay code of the same test. -/
theorem params_golay : Params 23 12 0b101011100011 := by constructor <;> decide
/-- Parameters of the (31, 16) code of the same test. -/
theorem params_bch31 : Params 31 16 0b1000111110101111 := by constructor <;> decide
/-- A code with K = 4: the (15, 4) simplex code. -/
theorem params_simplex : Params 15 4 0b111101011001 := by constructor <;> decide

/-- All messages below `n` have codewords of weight at least `d` (message 0 excepted). -/
def allWeights (N K G d : Nat) : Nat → Bool
  | 0 => true
  | m + 1 => (m == 0 || Nat.ble d (ones N (enc N K G m))) && allWeights N K G d m

theorem allWeights_spec {N K G d : Nat} : ∀ n, allWeights N K G d n = true → ∀ m, m < n → m ≠ 0 → d ≤ ones N (enc N K G m)
  | 0, _, m, hm, _ => by omega
  | n + 1, h, m, hm, hne => by
    rw [allWeights, Bool.and_eq_true, Bool.or_eq_true] at h
    by_cases hmn : m = n
    · subst hmn
      rcases h.1 with h' | h'
      · simp at h'; omega
      · exact Nat.le_of_ble_eq_true h'
    · exact allWeights_spec n h.2 m (by omega) hne

/-- **C31** (instance): the (15, 5) code has minimum distance 7, so three errors are corrected. -/
theorem C31_nasa_minDist : MinDist 15 0b10100110111 7 :=
  minDist_of params_nasa (allWeights_spec _ (by decide +kernel))

/-- **C31** (instance): the binary Golay code has minimum distance 7, so three errors are corrected. -/
theorem C31_golay_minDist : MinDist 23 0b101011100011 7 :=
  minDist_of params_golay (allWeights_spec _ (by decide +kernel))

/-- `C31_corrects` applies: three errors in the codeword of message 2888 of the Golay code. -/
example {err par : List Nat} (he : err.length = 2 ^ 11) (hp : par.length = 2 ^ 12) :
    (mkDec 23 12 0b101011100011 3 err par >>= fun d => hard 11 d.1 d.2 (0b101011100011 ^^^ 0b10000000000000001000001)) =
      some (0b101011100011 : Nat) :=
  C31_corrects params_golay (by norm_num) (by norm_num) he hp C31_golay_minDist ⟨by decide, dvd_rfl⟩ (by decide) (by decide +kernel)

/-- `C32_maximum_likelihood` applies to the (15, 4) code; an evaluation with one wrong sign and a tie. -/
example {err par : List Nat} {code : List Int} (he : err.length = 2 ^ 11) (hp : par.length = 2 ^ 4) (hl : code.length = 15)
    (hb : ∀ x ∈ code, -128 ≤ x ∧ x ≤ 127) :
    ∃ r, (mkDec 15 4 0b111101011001 3 err par >>= fun d => soft 15 4 3 d.1 d.2 code) = some r ∧
      (∀ c : Nat, r = c ↔ Best 15 0b111101011001 code c) ∧ (r = -1 ↔ ¬ ∃ c, Best 15 0b111101011001 code c) :=
  C32_maximum_likelihood params_simplex (by norm_num) he hp (by norm_num) hl hb

/-- A short code evaluated: repetition code of length 3 (K = 1, G = 111). -/
example : (mkDec 3 1 7 1 [9, 9, 9, 9] [9, 9] >>= fun d => soft 3 1 1 d.1 d.2 [-5, -4, 10]) = some 0 ∧
    (mkDec 3 1 7 1 [9, 9, 9, 9] [9, 9] >>= fun d => soft 3 1 1 d.1 d.2 [-5, -5, 10]) = some (-1) ∧
    (mkDec 3 1 7 1 [9, 9, 9, 9] [9, 9] >>= fun d => soft 3 1 1 d.1 d.2 [-5, -6, 10]) = some 7 := by decide +kernel

/-- The degenerate list at work: three different weak positions, only position 0 is listed. -/
example : findWorst 6 3 [1, 2, 3, 9, -9, 9] = some [0, 0, 0] := by decide +kernel
/-- The intended list, when position 0 is reliable. -/
example : findWorst 6 3 [9, 2, 3, 1, -9, 9] = some [3, 1, 2] := by decide +kernel

end Verif.ShortBCH
