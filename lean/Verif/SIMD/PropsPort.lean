import Verif.SIMD.ProofPort
/- C83 (simd.hh): what the portable templates compute, in numbers and bits.  `W` is the number of lanes, `w` the size of a lane in bits, `tmp` whatever
the uninitialised result holds before. -/
namespace Verif.SIMD.T
variable {w u W : Nat}

/-! What is claimed about a result `r`. -/

/-- Defined, with `W` lanes, which read as signed numbers are `v 0`, `v 1`, .. -/
def Ints (W : Nat) (r : Option (List (BitVec w))) (v : Nat → Int) : Prop := ∃ l, r = some l ∧ l.length = W ∧ ∀ k, k < W → (l.getD k 0).toInt = v k
/-- The same, read as unsigned numbers. -/
def Nats (W : Nat) (r : Option (List (BitVec w))) (v : Nat → Nat) : Prop := ∃ l, r = some l ∧ l.length = W ∧ ∀ k, k < W → (l.getD k 0).toNat = v k
/-- The same, bit by bit. -/
def Bits (W : Nat) (r : Option (List (BitVec w))) (v : Nat → Nat → Bool) : Prop :=
  ∃ l, r = some l ∧ l.length = W ∧ ∀ k, k < W → ∀ j, j < w → (l.getD k 0).getLsbD j = v k j
/-- A mask: all bits of lane `k` are set if `c k` holds, none if it does not. -/
def Masks (W : Nat) (r : Option (List (BitVec w))) (c : Nat → Prop) : Prop :=
  ∃ l, r = some l ∧ l.length = W ∧ ∀ k, k < W → ∀ j, j < w → ((l.getD k 0).getLsbD j = true ↔ c k)

/-- The number is one of the signed numbers with `w` bits. -/
def Fits (w : Nat) (x : Int) : Prop := -2 ^ (w - 1) ≤ x ∧ x < 2 ^ (w - 1)

/-- Signed arithmetic with the exact results `z k`: they are the result if all fit; if one does not, 8 and 16 bit lanes hold the number that is congruent modulo `2^w`,
and the behaviour for 32 and 64 bit lanes is undefined. -/
def Arith (W : Nat) (r : Option (List (BitVec w))) (z : Nat → Int) : Prop :=
  ((∀ k, k < W → Fits w (z k)) → Ints W r z) ∧
  (w ≤ 16 → Ints W r fun k => Int.bmod (z k) (2 ^ w)) ∧
  (32 ≤ w → (∃ k, k < W ∧ ¬ Fits w (z k)) → r = none)

/-- Lane `k` of an operand as signed number. -/
def I (a : List (BitVec w)) (k : Nat) : Int := (a.getD k 0).toInt
/-- Lane `k` of an operand as unsigned number. -/
def U (a : List (BitVec w)) (k : Nat) : Nat := (a.getD k 0).toNat
/-- Bit `j` of lane `k` of an operand. -/
def B (a : List (BitVec w)) (k j : Nat) : Bool := (a.getD k 0).getLsbD j

variable {tmp a b c : List (BitVec w)}

theorem Ints.of {tmp : List (BitVec w)} {f : Nat → Option (BitVec w)} {g : Nat → BitVec w} {v : Nat → Int} (hl : tmp.length = W)
    (h : ∀ k, k < W → f k = some (g k)) (hv : ∀ k, k < W → (g k).toInt = v k) : Ints W (each W tmp f) v :=
  ⟨_, each_some hl h, by simp, fun k hk => by rw [range_getD hk]; exact hv k hk⟩

theorem Nats.of {tmp : List (BitVec w)} {f : Nat → Option (BitVec w)} {g : Nat → BitVec w} {v : Nat → Nat} (hl : tmp.length = W)
    (h : ∀ k, k < W → f k = some (g k)) (hv : ∀ k, k < W → (g k).toNat = v k) : Nats W (each W tmp f) v :=
  ⟨_, each_some hl h, by simp, fun k hk => by rw [range_getD hk]; exact hv k hk⟩

theorem Bits.of {tmp : List (BitVec w)} {f : Nat → Option (BitVec w)} {g : Nat → BitVec w} {v : Nat → Nat → Bool} (hl : tmp.length = W)
    (h : ∀ k, k < W → f k = some (g k)) (hv : ∀ k, k < W → ∀ j, j < w → (g k).getLsbD j = v k j) : Bits W (each W tmp f) v :=
  ⟨_, each_some hl h, by simp, fun k hk j hj => by rw [range_getD hk]; exact hv k hk j hj⟩

theorem Masks.of {tmp : List (BitVec w)} {f : Nat → Option (BitVec w)} {d : Nat → Bool} {v : Nat → Prop} (hl : tmp.length = W)
    (h : ∀ k, k < W → f k = some (minus w (d k))) (hv : ∀ k, k < W → (d k = true ↔ v k)) : Masks W (each W tmp f) v :=
  ⟨_, each_some hl h, by simp, fun k hk j hj => by
    rw [range_getD hk, ← hv k hk]
    cases d k
    · rw [minus_false]; simp
    · rw [minus_true]; simp [hj]⟩

theorem chk_some {n : Nat} {x : Int} (h : Fits n x) : chk n x = some x := if_pos h
theorem chk_none {n : Nat} {x : Int} (h : ¬ Fits n x) : chk n x = none := if_neg h

theorem fits_mono {m n : Nat} (h : m ≤ n) {x : Int} (hx : Fits m x) : Fits n x := by
  have : (2 : Int) ^ (m - 1) ≤ 2 ^ (n - 1) := pow_le_pow_right₀ (by norm_num) (by omega)
  have := hx.1
  have := hx.2
  constructor <;> omega

theorem Arith.of {tmp : List (BitVec w)} {f : Nat → Option (BitVec w)} {z : Nat → Int} (hw : 0 < w) (hl : tmp.length = W)
    (h : ∀ k, k < W → f k = (chk (promoted w) (z k)).map (conv w)) (hz : ∀ k, k < W → w ≤ 16 → Fits 32 (z k)) : Arith W (each W tmp f) z := by
  have some' : ∀ k, k < W → Fits (promoted w) (z k) → f k = some (conv w (z k)) := fun k hk hf => by rw [h k hk, chk_some hf]; rfl
  refine ⟨fun hf => ?_, fun h16 => ?_, fun h32 ⟨k, hk, hn⟩ => ?_⟩
  · exact Ints.of hl (fun k hk => some' k hk (fits_mono (le_max_left _ _) (hf k hk))) fun k hk => toInt_conv hw (hf k hk).1 (hf k hk).2
  · refine Ints.of hl (fun k hk => some' k hk (fits_mono (le_max_right _ _) (hz k hk h16))) fun k hk => BitVec.toInt_ofInt ..
  · refine each_none hk ?_
    rw [h k hk, chk_none (by rwa [promoted, max_eq_left h32])]; rfl

theorem small (hw : 0 < w) (h16 : w ≤ 16) (a : List (BitVec w)) (k : Nat) : -32768 ≤ I a k ∧ I a k ≤ 32767 := by
  have h := toInt_range hw (a.getD k 0)
  have : (2 : Int) ^ (w - 1) ≤ 2 ^ 15 := pow_le_pow_right₀ (by norm_num) (by omega)
  norm_num at this
  unfold I
  constructor <;> linarith [h.1, h.2]

theorem fits32 {x : Int} (h1 : -2147483648 ≤ x) (h2 : x ≤ 2147483647) : Fits 32 x := by unfold Fits; norm_num; omega

theorem sgn_eq (x : Int) : (if x > 0 then (1 : Int) else 0) - (if x < 0 then 1 else 0) = x.sign := by
  rcases lt_trichotomy x 0 with h | rfl | h
  · rw [Int.sign_eq_neg_one_of_neg h]; simp [h, not_lt.2 h.le]
  · rfl
  · rw [Int.sign_eq_one_of_pos h]; simp [h, not_lt.2 h.le]

theorem one_arg (ha : a.length = W) {f : BitVec w → Option (BitVec u)} {k : Nat} (hk : k < W) : (rd a k).bind f = f (a.getD k 0) := by rw [rd_lt ha hk]; rfl
theorem two_arg (ha : a.length = W) (hb : b.length = W) {f : BitVec w → BitVec w → Option (BitVec u)} {k : Nat} (hk : k < W) :
    ((rd a k).bind fun x => (rd b k).bind (f x)) = f (a.getD k 0) (b.getD k 0) := by rw [rd_lt ha hk, rd_lt hb hk]; rfl

/-- `vneg`, `vabs`, `vadd`, `vsub`, `vmul` and `vsign` (the first operand with the sign of the second one). -/
theorem C83_arith (hw : w = 8 ∨ w = 16 ∨ w = 32 ∨ w = 64) (ht : tmp.length = W) (ha : a.length = W) (hb : b.length = W) :
    Arith W (vneg W tmp a) (fun k => -I a k) ∧ Arith W (vabs W tmp a) (fun k => |I a k|) ∧
    Arith W (vadd W tmp a b) (fun k => I a k + I b k) ∧ Arith W (vsub W tmp a b) (fun k => I a k - I b k) ∧
    Arith W (vmul W tmp a b) (fun k => I a k * I b k) ∧ Arith W (vsign W tmp a b) (fun k => (I b k).sign * I a k) := by
  have hw0 : 0 < w := by omega
  refine ⟨Arith.of hw0 ht (fun k hk => one_arg ha hk) fun k hk h => ?_, Arith.of hw0 ht (fun k hk => one_arg ha hk) fun k hk h => ?_,
    Arith.of hw0 ht (fun k hk => two_arg ha hb hk) fun k hk h => ?_, Arith.of hw0 ht (fun k hk => two_arg ha hb hk) fun k hk h => ?_,
    Arith.of hw0 ht (fun k hk => two_arg ha hb hk) fun k hk h => ?_, Arith.of hw0 ht (fun k hk => ?_) fun k hk h => ?_⟩
  · have := small hw0 h a k; exact fits32 (by omega) (by omega)
  · have := small hw0 h a k
    have := abs_le.2 (show -32768 ≤ I a k ∧ I a k ≤ 32768 by omega)
    have := abs_nonneg (I a k)
    exact fits32 (by omega) (by omega)
  · have := small hw0 h a k; have := small hw0 h b k; exact fits32 (by omega) (by omega)
  · have := small hw0 h a k; have := small hw0 h b k; exact fits32 (by omega) (by omega)
  · have h1 := small hw0 h a k; have h2 := small hw0 h b k
    have := abs_mul (I a k) (I b k)
    have h1 := abs_le.2 (show -32768 ≤ I a k ∧ I a k ≤ 32768 by omega)
    have h2 := abs_le.2 (show -32768 ≤ I b k ∧ I b k ≤ 32768 by omega)
    have h3 : |I a k| * |I b k| ≤ 32768 * 32768 := mul_le_mul h1 h2 (abs_nonneg _) (by norm_num)
    rw [← this] at h3
    have := abs_le.1 h3
    exact fits32 (by omega) (by omega)
  · refine (two_arg ha hb hk).trans ?_
    show (chk _ (((if (b.getD k 0).toInt > 0 then (1 : Int) else 0) - (if (b.getD k 0).toInt < 0 then 1 else 0)) * (a.getD k 0).toInt)).map _ = _
    rw [sgn_eq]; rfl
  · have := small hw0 h a k
    rcases lt_trichotomy (I b k) 0 with h | h | h
    · rw [Int.sign_eq_neg_one_of_neg h]; exact fits32 (by omega) (by omega)
    · rw [h]; exact fits32 (by simp) (by simp)
    · rw [Int.sign_eq_one_of_pos h]; exact fits32 (by omega) (by omega)

theorem U_lt (a : List (BitVec w)) (k : Nat) : U a k < 2 ^ w := (a.getD k 0).isLt

/-- Saturation of a result computed with twice the number of bits. -/
theorem sat_lane (hw : w = 8 ∨ w = 16) {x : Int} (h1 : -2 ^ w ≤ x) (h2 : x < 2 ^ w) :
    ∃ r, ((chk (promoted w) x).map fun s => conv w (min (max (conv (2 * w) s).toInt (-2 ^ (w - 1))) (2 ^ (w - 1) - 1))) = some r ∧
      r.toInt = max (-2 ^ (w - 1)) (min (2 ^ (w - 1) - 1) x) := by
  have hb : Fits (2 * w) x := by rcases hw with rfl | rfl <;> (unfold Fits; norm_num at *; omega)
  refine ⟨_, by rw [chk_some (by rcases hw with rfl | rfl <;> (unfold Fits promoted; norm_num at *; omega))]; rfl, ?_⟩
  show (conv w (min (max (conv (2 * w) x).toInt (-2 ^ (w - 1))) (2 ^ (w - 1) - 1))).toInt = _
  rw [toInt_conv (by omega) hb.1 hb.2, toInt_conv (by omega)]
  · rcases hw with rfl | rfl <;> (norm_num at *; omega)
  · rcases hw with rfl | rfl <;> (norm_num at *)
  · rcases hw with rfl | rfl <;> (norm_num at *)

/-- `vqabs` for all sizes, `vqadd` and `vqsub` for 8 and 16 bits: the number next to the exact result.  Unsigned `vqsub` stops at 0. -/
theorem C83_saturating (ht : tmp.length = W) (ha : a.length = W) (hb : b.length = W) :
    (w = 8 ∨ w = 16 ∨ w = 32 ∨ w = 64 → Ints W (vqabs W tmp a) fun k => min |I a k| (2 ^ (w - 1) - 1)) ∧
    (w = 8 ∨ w = 16 → Ints W (vqadd W tmp a b) (fun k => max (-2 ^ (w - 1)) (min (2 ^ (w - 1) - 1) (I a k + I b k))) ∧
      Ints W (vqsub W tmp a b) (fun k => max (-2 ^ (w - 1)) (min (2 ^ (w - 1) - 1) (I a k - I b k))) ∧
      Nats W (vqsubU W tmp a b) fun k => U a k - U b k) := by
  constructor
  · intro hw
    have hw0 : 0 < w := by omega
    have key : ∀ k, |max (a.getD k 0).toInt (-(2 ^ (w - 1) - 1))| = min |I a k| (2 ^ (w - 1) - 1) ∧ Fits w (min |I a k| (2 ^ (w - 1) - 1)) := fun k => by
      have h := toInt_range hw0 (a.getD k 0)
      have hp : (0 : Int) < 2 ^ (w - 1) := by positivity
      unfold I Fits
      generalize (2 : Int) ^ (w - 1) = p at *
      generalize (a.getD k 0).toInt = x at *
      rcases abs_cases x with h1 | h1 <;> rcases abs_cases (max x (-(p - 1))) with h2 | h2 <;> omega
    refine Ints.of (g := fun k => conv w (min |I a k| (2 ^ (w - 1) - 1))) ht (fun k hk => ?_) fun k hk => toInt_conv hw0 (key k).2.1 (key k).2.2
    refine (one_arg ha hk).trans ?_
    show (chk (promoted w) |max (a.getD k 0).toInt (-(2 ^ (w - 1) - 1))|).map (conv w) = _
    rw [(key k).1, chk_some (n := promoted w) (fits_mono (le_max_left _ _) (key k).2)]; rfl
  · intro hw
    have hw0 : 0 < w := by omega
    have e : (2 : Int) ^ w = 2 * 2 ^ (w - 1) := by rcases hw with rfl | rfl <;> norm_num
    have hI : ∀ (a : List (BitVec w)) k, -2 ^ (w - 1) ≤ I a k ∧ I a k < 2 ^ (w - 1) := fun a k => toInt_range hw0 _
    have add := fun k => sat_lane hw (x := I a k + I b k) (by have := hI a k; have := hI b k; omega) (by have := hI a k; have := hI b k; omega)
    have sub := fun k => sat_lane hw (x := I a k - I b k) (by have := hI a k; have := hI b k; omega) (by have := hI a k; have := hI b k; omega)
    choose g1 h1 h1' using add
    choose g2 h2 h2' using sub
    refine ⟨Ints.of ht (fun k hk => (two_arg ha hb hk).trans (h1 k)) fun k _ => h1' k, Ints.of ht (fun k hk => (two_arg ha hb hk).trans (h2 k)) fun k _ => h2' k,
      Nats.of (g := fun k => conv w (max ((U a k : Int) - U b k) 0)) ht (fun k hk => (two_arg ha hb hk).trans ?_) fun k hk => ?_⟩
    · have h1 := U_lt a k
      have h2 := U_lt b k
      show (chk (promoted w) ((conv (2 * w) (U a k)).toInt - (conv (2 * w) (U b k)).toInt)).map _ = _
      rw [toInt_conv (by omega), toInt_conv (by omega), chk_some]
      · show some (conv w (max (conv (2 * w) ((U a k : Int) - U b k)).toInt 0)) = _
        rw [toInt_conv (by omega)]
        · rcases hw with rfl | rfl <;> (norm_num at *; omega)
        · rcases hw with rfl | rfl <;> (norm_num at *; omega)
      all_goals rcases hw with rfl | rfl <;> (try unfold Fits promoted) <;> norm_num at * <;> omega
    · have h1 := U_lt a k
      rw [show max ((U a k : Int) - U b k) 0 = ((U a k - U b k : Nat) : Int) by omega, conv, BitVec.ofInt_natCast, BitVec.toNat_ofNat, Nat.mod_eq_of_lt (by omega)]

/-- The comparisons give masks, also of unsigned numbers. -/
theorem C83_compare (ht : tmp.length = W) (ha : a.length = W) (hb : b.length = W) :
    Masks W (vcgtz W tmp a) (fun k => I a k > 0) ∧ Masks W (vceqz W tmp a) (fun k => I a k = 0) ∧ Masks W (vcltz W tmp a) (fun k => I a k < 0) ∧
    Masks W (vclez W tmp a) (fun k => I a k ≤ 0) ∧ Masks W (vcgt W tmp a b) (fun k => I a k > I b k) ∧ Masks W (vcgtU W tmp a b) (fun k => U a k > U b k) ∧
    Masks W (vceq W tmp a b) (fun k => I a k = I b k) :=
  ⟨Masks.of ht (fun k hk => one_arg ha hk) fun _ _ => decide_eq_true_iff, Masks.of ht (fun k hk => one_arg ha hk) fun _ _ => decide_eq_true_iff,
   Masks.of ht (fun k hk => one_arg ha hk) fun _ _ => decide_eq_true_iff, Masks.of ht (fun k hk => one_arg ha hk) fun _ _ => decide_eq_true_iff,
   Masks.of ht (fun k hk => two_arg ha hb hk) fun _ _ => decide_eq_true_iff, Masks.of ht (fun k hk => two_arg ha hb hk) fun _ _ => decide_eq_true_iff,
   Masks.of ht (fun k hk => two_arg ha hb hk) fun _ _ => decide_eq_true_iff⟩

/-- `vmin`, `vmax`, `vclamp` and `vsignum`. -/
theorem C83_order (hw : 2 ≤ w) (lo hi : BitVec w) (ht : tmp.length = W) (ha : a.length = W) (hb : b.length = W) :
    Ints W (vmin W tmp a b) (fun k => min (I a k) (I b k)) ∧ Ints W (vmax W tmp a b) (fun k => max (I a k) (I b k)) ∧
    Ints W (vclamp W tmp a lo hi) (fun k => min (max (I a k) lo.toInt) hi.toInt) ∧ Ints W (vsignum W tmp a) fun k => (I a k).sign := by
  refine ⟨Ints.of ht (fun k hk => two_arg ha hb hk) fun k _ => ?_, Ints.of ht (fun k hk => two_arg ha hb hk) fun k _ => ?_,
    Ints.of ht (fun k hk => one_arg ha hk) fun k _ => ?_, Ints.of ht (fun k hk => one_arg ha hk) fun k _ => ?_⟩
  · unfold I; split <;> omega
  · unfold I; split <;> omega
  · unfold I; split <;> split <;> omega
  · rw [sgn_eq]
    have hp : (2 : Int) ≤ 2 ^ (w - 1) := by
      calc (2 : Int) = 2 ^ 1 := by norm_num
        _ ≤ _ := pow_le_pow_right₀ (by norm_num) (by omega)
    have : -1 ≤ (a.getD k 0).toInt.sign ∧ (a.getD k 0).toInt.sign ≤ 1 := by
      rcases Int.sign_trichotomy (a.getD k 0).toInt with h | h | h <;> rw [h] <;> norm_num
    exact toInt_conv (by omega) (by omega) (by omega)

/-- The bit operations; `vbsl` selects bits of its second and third operand. -/
theorem C83_bits (ht : tmp.length = W) (ha : a.length = W) (hb : b.length = W) (hc : c.length = W) :
    Bits W (vnot W tmp a) (fun k j => !B a k j) ∧ Bits W (vorr W tmp a b) (fun k j => B a k j || B b k j) ∧ Bits W (vand W tmp a b) (fun k j => B a k j && B b k j) ∧
    Bits W (veor W tmp a b) (fun k j => B a k j != B b k j) ∧ Bits W (vbic W tmp a b) (fun k j => B a k j && !B b k j) ∧
    Bits W (vbsl W tmp a b c) (fun k j => if B a k j then B b k j else B c k j) := by
  refine ⟨Bits.of ht (fun k hk => one_arg ha hk) fun k _ j hj => ?_, Bits.of ht (fun k hk => two_arg ha hb hk) fun k _ j hj => ?_,
    Bits.of ht (fun k hk => two_arg ha hb hk) fun k _ j hj => ?_, Bits.of ht (fun k hk => two_arg ha hb hk) fun k _ j hj => ?_,
    Bits.of ht (fun k hk => two_arg ha hb hk) fun k _ j hj => ?_,
    Bits.of (g := fun k => (a.getD k 0 &&& b.getD k 0) ||| (~~~ a.getD k 0 &&& c.getD k 0)) ht (fun k hk => by rw [rd_lt ha hk, rd_lt hb hk, rd_lt hc hk]; rfl) fun k _ j hj => ?_⟩
  · rw [BitVec.getLsbD_not]; simp [hj, B]
  · rw [BitVec.getLsbD_or]; rfl
  · rw [BitVec.getLsbD_and]; rfl
  · rw [BitVec.getLsbD_xor]; rfl
  · rw [BitVec.getLsbD_and, BitVec.getLsbD_not]; simp [hj, B]
  · rw [BitVec.getLsbD_or, BitVec.getLsbD_and, BitVec.getLsbD_and, BitVec.getLsbD_not]
    unfold B
    cases (a.getD k 0).getLsbD j <;> simp [hj]

/-- `vdup`, `vzero` (whatever `tmp` holds), `vreinterpret` with `vmask`, `vunsigned` and `vsigned` (the same bits, so the same number modulo `2^w`), and
`vshuf`: the lane that the index names, or 0 if there is none. -/
theorem C83_moves (x : BitVec w) (m : List (BitVec u)) (ht : tmp.length = W) (ha : a.length = W) (hm : m.length = W) :
    (∃ l, vdup W tmp x = some l ∧ l = List.replicate W x) ∧ (∃ l, vzero W tmp = some l ∧ l = List.replicate W 0) ∧
    vreinterpret W tmp a = some a ∧ (∀ k, I a k = Int.bmod (U a k) (2 ^ w)) ∧
    Nats W (vshuf W tmp a m) fun k => if U m k < W then U a (U m k) else 0 := by
  refine ⟨⟨_, each_some (g := fun _ => x) ht fun k _ => rfl, by simp⟩, ⟨_, ?_, rfl⟩, ?_, fun k => BitVec.toInt_eq_toNat_bmod _, ?_⟩
  · unfold vzero
    rw [forUp_fill (g := fun _ => 0) (by omega)]
    · rw [← ht, List.drop_length, List.append_nil]; simp
    · intro j l hj hl
      rw [rd_lt (W := W) (by omega) hj, Option.bind_some, wr, if_pos (by omega), BitVec.xor_self]; rfl
  · refine (each_some (g := fun k => a.getD k 0) ht fun k hk => one_arg ha hk).trans (congrArg some ?_)
    refine ext_getD 0 (by simp [ha]) fun k hk => ?_
    rw [range_getD (by simpa using hk)]
  · refine Nats.of (g := fun k => if U m k < W then a.getD (U m k) 0 else 0) ht (fun k hk => (one_arg hm hk).trans ?_) fun k hk => ?_
    · show (if U m k < W then rd a (U m k) else some 0) = _
      split
      · rename_i h; rw [rd_lt ha h]
      · rfl
    · split <;> rfl

/-- With a mask from a comparison `vbsl` selects whole lanes: those of its second operand where the condition holds, those of the third one elsewhere. -/
theorem C83_select {r : Option (List (BitVec w))} {m : List (BitVec w)} {cond : Nat → Prop} (hr : Masks W r cond) (hm : r = some m)
    (ht : tmp.length = W) (ha : a.length = W) (hb : b.length = W) :
    ∃ l, vbsl W tmp m a b = some l ∧ l.length = W ∧ ∀ k, k < W → (cond k → l.getD k 0 = a.getD k 0) ∧ (¬ cond k → l.getD k 0 = b.getD k 0) := by
  obtain ⟨m', h1, h2, h3⟩ := hr
  obtain rfl : m' = m := Option.some.inj (h1.symm.trans hm)
  obtain ⟨-, -, -, -, -, l, e1, e2, e3⟩ := C83_bits ht h2 ha hb
  refine ⟨l, e1, e2, fun k hk => ⟨fun hc => ?_, fun hc => ?_⟩⟩
  · refine BitVec.eq_of_getLsbD_eq fun j hj => ?_
    exact (e3 k hk j hj).trans (if_pos ((h3 k hk j hj).2 hc))
  · refine BitVec.eq_of_getLsbD_eq fun j hj => ?_
    exact (e3 k hk j hj).trans (if_neg fun h => hc ((h3 k hk j hj).1 h))

/-- Where the result is defined, its lanes are `g 0`, `g 1`, .. -/
def LanesAre (W : Nat) (r : Option (List (BitVec w))) (g : Nat → BitVec w) : Prop := ∀ l, r = some l → ∀ k, k < W → l.getD k 0 = g k

theorem each_inv {tmp l : List (BitVec u)} {f : Nat → Option (BitVec u)} (ht : tmp.length = W) (h : each W tmp f = some l) {k : Nat} (hk : k < W) :
    f k = some (l.getD k 0) := by
  have hf : ∀ k, ∃ y, k < W → f k = some y := fun k => by
    by_cases hk : k < W
    · cases e : f k with
      | none => rw [each_none hk e] at h; cases h
      | some y => exact ⟨y, fun _ => rfl⟩
    · exact ⟨0, fun h => absurd h hk⟩
  choose g hg using hf
  rw [each_some ht fun k hk => hg k hk] at h
  obtain rfl := Option.some.inj h
  rw [range_getD hk, hg k hk]

theorem map_chk {n : Nat} {x : Int} {y : BitVec w} {f : Int → BitVec w} (h : (chk n x).map f = some y) : y = f x := by
  unfold chk at h
  split at h
  · exact (Option.some.inj h).symm
  · cases h

/-- The lane functions that C52, C53 and C54 compare the back ends with are those of these templates. -/
theorem C83_reference (hw : w = 8 ∨ w = 16 ∨ w = 32 ∨ w = 64) (lo hi : BitVec w) (m : List (BitVec u)) (ht : tmp.length = W) (ha : a.length = W) (hb : b.length = W)
    (hc : c.length = W) (hm : m.length = W) :
    (LanesAre W (vneg W tmp a) (fun k => P.vneg (a.getD k 0)) ∧ LanesAre W (vabs W tmp a) (fun k => P.vabs (a.getD k 0)) ∧
      LanesAre W (vqabs W tmp a) (fun k => P.vqabs (a.getD k 0)) ∧ LanesAre W (vadd W tmp a b) (fun k => P.vadd (a.getD k 0) (b.getD k 0)) ∧
      LanesAre W (vsub W tmp a b) (fun k => P.vsub (a.getD k 0) (b.getD k 0)) ∧ LanesAre W (vmul W tmp a b) (fun k => P.vmul (a.getD k 0) (b.getD k 0)) ∧
      LanesAre W (vsignum W tmp a) (fun k => P.vsignum (a.getD k 0)) ∧ LanesAre W (vsign W tmp a b) (fun k => P.vsign (a.getD k 0) (b.getD k 0)) ∧
      (w ≤ 16 → LanesAre W (vqadd W tmp a b) (fun k => P.vqadd (a.getD k 0) (b.getD k 0)) ∧ LanesAre W (vqsub W tmp a b) (fun k => P.vqsub (a.getD k 0) (b.getD k 0)) ∧
        LanesAre W (vqsubU W tmp a b) fun k => P.vqsubU (a.getD k 0) (b.getD k 0))) ∧
    (LanesAre W (vnot W tmp a) (fun k => P.vnot (a.getD k 0)) ∧ LanesAre W (vorr W tmp a b) (fun k => P.vorr (a.getD k 0) (b.getD k 0)) ∧
      LanesAre W (vand W tmp a b) (fun k => P.vand (a.getD k 0) (b.getD k 0)) ∧ LanesAre W (veor W tmp a b) (fun k => P.veor (a.getD k 0) (b.getD k 0)) ∧
      LanesAre W (vbic W tmp a b) (fun k => P.vbic (a.getD k 0) (b.getD k 0)) ∧
      LanesAre W (vbsl W tmp a b c) fun k => P.vbsl (a.getD k 0) (b.getD k 0) (c.getD k 0)) ∧
    (LanesAre W (vcgtz W tmp a) (fun k => P.vcgtz (a.getD k 0)) ∧ LanesAre W (vceqz W tmp a) (fun k => P.vceqz (a.getD k 0)) ∧
      LanesAre W (vcltz W tmp a) (fun k => P.vcltz (a.getD k 0)) ∧ LanesAre W (vclez W tmp a) (fun k => P.vclez (a.getD k 0)) ∧
      LanesAre W (vceq W tmp a b) fun k => P.vceq (a.getD k 0) (b.getD k 0)) ∧
    LanesAre W (vmin W tmp a b) (fun k => P.vmin (a.getD k 0) (b.getD k 0)) ∧ LanesAre W (vmax W tmp a b) (fun k => P.vmax (a.getD k 0) (b.getD k 0)) ∧
    LanesAre W (vclamp W tmp a lo hi) (fun k => P.vclamp (a.getD k 0) lo hi) ∧
    LanesAre W (vshuf W tmp a m) fun k => P.vshuf W (fun k => a.getD k 0) (fun k => m.getD k 0) k := by
  have one : ∀ {f : BitVec w → Option (BitVec w)} {p : BitVec w → BitVec w}, (∀ x y, f x = some y → y = p x) →
      LanesAre W (each1 W tmp a f) fun k => p (a.getD k 0) := fun h l hl k hk => by
    have := each_inv ht hl hk
    rw [one_arg ha hk] at this
    exact h _ _ this
  have two : ∀ {f : BitVec w → BitVec w → Option (BitVec w)} {p : BitVec w → BitVec w → BitVec w}, (∀ x x' y, f x x' = some y → y = p x x') →
      LanesAre W (each2 W tmp a b f) fun k => p (a.getD k 0) (b.getD k 0) := fun h l hl k hk => by
    have := each_inv ht hl hk
    rw [two_arg ha hb hk] at this
    exact h _ _ _ this
  have so : ∀ {x y : BitVec w}, some x = some y → y = x := fun h => (Option.some.inj h).symm
  refine ⟨⟨one fun x y h => map_chk h, one fun x y h => map_chk h, one fun x y h => map_chk h, two fun x x' y h => map_chk h, two fun x x' y h => map_chk h,
    two fun x x' y h => map_chk h, one fun x y h => so h, two fun x x' y h => map_chk h, fun h16 => ?_⟩,
    ⟨one fun x y h => so h, two fun x x' y h => so h, two fun x x' y h => so h, two fun x x' y h => so h, two fun x x' y h => so h, fun l hl k hk => ?_⟩,
    ⟨one fun x y h => (so h).trans (minus_eq _), one fun x y h => (so h).trans (minus_eq _), one fun x y h => (so h).trans (minus_eq _),
      one fun x y h => (so h).trans (minus_eq _), two fun x x' y h => (so h).trans (minus_eq _)⟩,
    two fun x x' y h => so h, two fun x x' y h => so h, one fun x y h => so h, fun l hl k hk => ?_⟩
  · have hw2 : w = 8 ∨ w = 16 := by omega
    have hw0 : 0 < w := by omega
    obtain ⟨-, h⟩ := C83_saturating ht ha hb
    obtain ⟨⟨l1, e1, -, v1⟩, ⟨l2, e2, -, v2⟩, ⟨l3, e3, -, v3⟩⟩ := h hw2
    have hp : (0 : Int) < 2 ^ (w - 1) := by positivity
    have val : ∀ x : Int, (BitVec.ofInt w (min (max x (-2 ^ (w - 1))) (2 ^ (w - 1) - 1))).toInt = max (-2 ^ (w - 1)) (min (2 ^ (w - 1) - 1) x) := fun x => by
      refine (toInt_conv hw0 ?_ ?_).trans ?_ <;> omega
    refine ⟨fun l hl k hk => ?_, fun l hl k hk => ?_, fun l hl k hk => ?_⟩
    · obtain rfl : l1 = l := Option.some.inj (e1.symm.trans hl)
      exact BitVec.eq_of_toInt_eq ((v1 k hk).trans (val _).symm)
    · obtain rfl : l2 = l := Option.some.inj (e2.symm.trans hl)
      exact BitVec.eq_of_toInt_eq ((v2 k hk).trans (val _).symm)
    · obtain rfl : l3 = l := Option.some.inj (e3.symm.trans hl)
      refine BitVec.eq_of_toNat_eq ((v3 k hk).trans ?_)
      have := U_lt a k
      show _ = (BitVec.ofInt w (max ((U a k : Int) - U b k) 0)).toNat
      rw [show max ((U a k : Int) - U b k) 0 = ((U a k - U b k : Nat) : Int) by omega, BitVec.ofInt_natCast, BitVec.toNat_ofNat, Nat.mod_eq_of_lt (by omega)]
  · have := each_inv ht hl hk
    rw [rd_lt ha hk, rd_lt hb hk, rd_lt hc hk] at this
    exact so this
  · have := each_inv ht hl hk
    rw [one_arg hm hk] at this
    have : (if U m k < W then rd a (U m k) else some 0) = some (l.getD k 0) := this
    show _ = if U m k < W then a.getD (U m k) 0 else 0
    split at this
    · rename_i h; rw [rd_lt ha h] at this; rw [if_pos h]; exact so this
    · rename_i h; rw [if_neg h]; exact so this

/-! Three lanes of 8 bits, with numbers that overflow, and of 32 bits. -/

def ex1 : List (BitVec 8) := [100, -128, 5]
def ex2 : List (BitVec 8) := [100, -1, -7]
def junk : List (BitVec 8) := [1, 2, 3]

example : vadd 3 junk ex1 ex2 = some [200, 127, 254] ∧ vqadd 3 junk ex1 ex2 = some [127, 128, 254] ∧ vabs 3 junk ex1 = some [100, 128, 5] ∧
    vqabs 3 junk ex1 = some [100, 127, 5] ∧ vmul 3 junk ex1 ex2 = some [16, 128, 221] ∧ vsign 3 junk ex1 ex2 = some [100, 128, 251] ∧
    vqsubU 3 junk ex1 ex2 = some [0, 0, 0] ∧ vqsubU 3 junk ex2 ex1 = some [0, 127, 244] := by decide +kernel
example : vcgt 3 junk ex1 ex2 = some [0, 0, 255] ∧ vcgtU 3 junk ex2 ex1 = some [0, 255, 255] ∧ vbsl 3 junk [0, 0, 255] ex1 ex2 = some [100, 255, 5] ∧
    vclamp 3 junk ex1 (-10) 6 = some [6, 246, 5] ∧ vzero 3 junk = some [0, 0, 0] ∧ vshuf 3 junk ex1 ([2, 3, 0] : List (BitVec 8)) = some [5, 0, 100] := by decide +kernel
example : vabs 2 [0, 0] [(5 : BitVec 32), 0x80000000] = none ∧ vabs 2 [0, 0] [(5 : BitVec 32), 0x80000001] = some [5, 0x7fffffff] ∧
    vadd 1 [0] [(0x7fffffff : BitVec 32)] [1] = none := by decide +kernel
example : I ex1 1 = -128 ∧ U ex1 1 = 128 ∧ Int.bmod (I ex1 0 + I ex2 0) (2 ^ 8) = -56 ∧ ¬ Fits 8 (I ex1 0 + I ex2 0) := by unfold Fits; decide +kernel

end Verif.SIMD.T
