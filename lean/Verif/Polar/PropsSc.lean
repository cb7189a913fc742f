import Verif.Polar.Sc
import Verif.Polar.PropsEnc
import Verif.PolarHelper.Props
/- C37 (polar_decoder.hh). -/
namespace Verif.Polar
open PolarHelper (t8 I8 sgn vsign vmin vmax vqabs vqadd vsignum prodV maddV qmulV)
open Verif.RS (sb)
variable {τ : Type}

/-! ### From the arrays to the lists -/

theorem filter_range_map (one : τ) (f : Nat → Bool) (message : List τ) : ∀ n, rank f n ≤ message.length →
    ((List.range n).filter fun j => !f j).map (complete one f message) = message.take (rank f n) := by
  intro n
  induction n with
  | zero => intro _; simp [rank]
  | succ n ih =>
    intro hm
    rw [rank_succ] at hm ⊢
    rw [List.range_succ, List.filter_append, List.map_append, ih (by omega)]
    cases h : f n with
    | true => simp [h]
    | false =>
      rw [h] at hm
      simp only [Bool.false_eq_true, if_false] at hm ⊢
      simp only [List.filter_cons, h, Bool.not_false, if_true, List.filter_nil, List.map_cons, List.map_nil]
      rw [List.take_add_one, List.getElem?_eq_getElem (by omega)]
      congr 1
      simp only [complete, h, Bool.false_eq_true, if_false, Option.toList]
      rw [← getElem_eq_getD (by omega)]

theorem info_range (f : Nat → Bool) (u : Nat → τ) (n : Nat) : info ((List.range n).map f) ((List.range n).map u) =
    ((List.range n).filter fun j => !f j).map u := by
  unfold info
  rw [List.zip_map', List.filter_map, List.map_map]
  rfl

theorem fbits_zero (frozen : List Nat) (n : Nat) : fbits frozen 0 n = (List.range n).map (fbit frozen) := by
  unfold fbits
  refine List.map_congr_left fun i _ => ?_
  rw [mul_zero, zero_add]

theorem filter_count (frozen : List Nat) (n : Nat) : ((fbits frozen 0 n).filter fun b => !b).length = rank (fbit frozen) n := by
  rw [fbits_zero, List.filter_map, List.length_map]; rfl

theorem getD_range_map (u : Nat → τ) (d : τ) {i n : Nat} (h : i < n) : ((List.range n).map u).getD i d = u i := by
  rw [← getElem_eq_getD (by simpa using h)]; simp

/-- The copy loop at the start of the decoders. -/
theorem copy_ok {n : Nat} {soft codeword : List τ} (d : τ) (hs : 2 * n ≤ soft.length) (hc : n ≤ codeword.length) :
    Ok (forUp 0 n soft fun i soft => do
      let v ← rd codeword i
      wr soft (n + i) v) (fun a => a.length = soft.length ∧ Has d a n (codeword.take n)) := by
  have hl : (codeword.take n).length = n := by simp [hc]
  refine Ok.mono (fill_upd (d := d) (o := n) (l := codeword.take n) hl (by omega) fun i a' hi _ => ?_) ?_
  · rw [rd_of_lt (by omega), sb, getElem_eq_getD _ d, getD_take_lt hi]
  · rintro a ⟨a1, a2⟩
    refine ⟨a1, by rw [hl]; omega, fun i hi => ?_⟩
    rw [hl] at hi
    rw [a2, if_pos (by rw [hl]; omega), Nat.add_sub_cancel_left]

theorem scDecode_tree {H : PH τ} {MAX_M : Nat} {soft hard message codeword : List τ} {frozen : List Nat} {level : Nat} (d : τ) (h5 : 5 ≤ level)
    (h20 : level ≤ 20) (hM : level ≤ MAX_M) (hsl : soft.length = 2 * 2 ^ MAX_M) (hhl : hard.length = 2 ^ MAX_M) (hc : 2 ^ level ≤ codeword.length)
    (hf : 2 ^ level ≤ 32 * frozen.length) (hw : ∀ w ∈ frozen, w < 2 ^ 32) {r : Msg τ × List τ × Unit}
    (hr : treeF (scWalk H) (scN H) level (fbits frozen 0 (2 ^ level)) ⟨message, 0⟩ (codeword.take (2 ^ level)) = some r) :
    scDecode H MAX_M soft hard message codeword frozen level = some r.1.msg := by
  have hp : (2 : Nat) ^ level ≤ 2 ^ MAX_M := Nat.pow_le_pow_right (by omega) hM
  rw [← Ok.eq_some]
  unfold scDecode
  refine Ok.bind' (P := fun _ => True) (Ok.assertUB hM trivial) fun _ _ => ?_
  refine Ok.bind' (copy_ok d (by omega) hc) ?_
  rintro a ⟨a1, a2⟩
  refine Ok.bind' (treeTop_ok (d := d) (m := ⟨⟨message, 0⟩, hard, a⟩) (scAgree H d) hw h5 h20 hf (by simp [hc]) a2 (by dsimp only; omega) hr) ?_
  rintro t ⟨t1, _⟩
  exact Ok.some (by rw [t1])

theorem scDecode_ok {H : PH τ} {Hard : τ → Prop} {Sg : τ → τ → Prop} (L : Laws H Hard Sg) {MAX_M : Nat} {soft hard message codeword out : List τ}
    {frozen : List Nat} {level : Nat} (h5 : 5 ≤ level)
    (h20 : level ≤ 20) (hM : level ≤ MAX_M) (hsl : soft.length = 2 * 2 ^ MAX_M) (hhl : hard.length = 2 ^ MAX_M) (hc : 2 ^ level ≤ codeword.length)
    (hf : 2 ^ level ≤ 32 * frozen.length) (hw : ∀ w ∈ frozen, w < 2 ^ 32) (hm : rank (fbit frozen) (2 ^ level) ≤ message.length)
    (hh : ∀ x ∈ message, Hard x) (ho : rank (fbit frozen) (2 ^ level) ≤ out.length)
    (hs : ∀ j, j < 2 ^ level → Sg (codeword.getD j H.one) (P H.qmul level (complete H.one (fbit frozen) message) j)) :
    scDecode H MAX_M soft hard out codeword frozen level =
      some (message.take (rank (fbit frozen) (2 ^ level)) ++ out.drop (rank (fbit frozen) (2 ^ level))) := by
  set u := (List.range (2 ^ level)).map (complete H.one (fbit frozen) message) with hu
  have hul : u.length = 2 ^ level := by simp [hu]
  have hinfo : info (fbits frozen 0 (2 ^ level)) u = message.take (rank (fbit frozen) (2 ^ level)) := by
    rw [fbits_zero, hu, info_range, filter_range_map _ _ _ _ hm]
  have hil : (info (fbits frozen 0 (2 ^ level)) u).length = rank (fbit frozen) (2 ^ level) := by rw [hinfo]; simp [hm]
  obtain ⟨k, rfl⟩ : ∃ k, level = k + 1 := ⟨level - 1, by omega⟩
  have hhu : ∀ z ∈ u, Hard z := by
    intro z hz
    obtain ⟨i, _, rfl⟩ := List.mem_map.1 hz
    unfold complete
    split
    · exact L.one
    · by_cases hi : rank (fbit frozen) i < message.length
      · rw [← getElem_eq_getD hi]; exact hh _ (List.getElem_mem _)
      · rw [List.getD_eq_default _ _ (by omega)]; exact L.one
  have hT := T_length H.qmul (k + 1) u hul
  have hr := sc_node L k (sc_pure L k) (fbits frozen 0 (2 ^ (k + 1))) ⟨out, 0⟩ (codeword.take (2 ^ (k + 1))) u (by simp [fbits])
    ⟨by simp [fbits, hul], fun i hi => ?_⟩ hhu ⟨by simp [hT, hc], fun j hj => ?_⟩ (by dsimp only; omega)
  · rw [scDecode_tree H.one h5 h20 hM hsl hhl hc hf hw hr]
    simp only [put, List.take_zero, List.nil_append, zero_add]
    rw [hil, hinfo]
  · by_cases hi' : i < 2 ^ (k + 1)
    · rw [fbits_zero, getD_range_map _ _ hi'] at hi
      rw [hu, getD_range_map _ _ hi']
      unfold complete
      rw [if_pos hi]
    · rw [List.getD_eq_default _ _ (by omega)]
  · have hj' : j < 2 ^ (k + 1) := by simp at hj; omega
    rw [getD_take_lt hj', T_getD _ H.one _ _ hul j hj']
    have := hs j hj'
    rwa [P_congr' (v := complete H.one (fbit frozen) message) (fun i hi => ?_) hj']
    rw [hu, getD_range_map _ _ hi]

/-! ### The two arithmetics -/

/-- The soft value `s` is an `int8_t`, is not zero and has the sign of the symbol `x`. -/
def SignOf (s x : Int) : Prop := I8 s ∧ ((x = 1 ∧ 0 < s) ∨ (x = -1 ∧ s < 0))

theorem qmul_sym {x y : Int} (hx : Sym x) (hy : Sym y) : PolarHelper.qmul x y = x * y := (hx.mul hy).t8

theorem prod_sign {a b x y : Int} (hx : Sym x) (hy : Sym y) (ha : SignOf a (x * y)) (hb : SignOf b y) : SignOf (PolarHelper.prod a b) x := by
  obtain ⟨ia, ha⟩ := ha
  obtain ⟨ib, hb⟩ := hb
  have r := (PolarHelper.C49_closed a b 0)
  have e := PolarHelper.prod_eq ia ib
  have ea := PolarHelper.qabs_eq ia
  have eb := PolarHelper.qabs_eq ib
  have pa : 0 < PolarHelper.qabs a := by
    rw [ea.1]; have : 0 < |a| := abs_pos.2 (by rcases ha with h | h <;> omega)
    omega
  have pb : 0 < PolarHelper.qabs b := by
    rw [eb.1]; have : 0 < |b| := abs_pos.2 (by rcases hb with h | h <;> omega)
    omega
  have hmin : 0 < min (PolarHelper.qabs a) (PolarHelper.qabs b) := lt_min pa pb
  have hmin' : min (PolarHelper.qabs a) (PolarHelper.qabs b) ≤ 127 := le_trans (min_le_left _ _) ea.2.2
  generalize min (PolarHelper.qabs a) (PolarHelper.qabs b) = m at e hmin hmin'
  rcases PolarHelper.sgn_cases a with ⟨h, s⟩ | ⟨h, s⟩ | ⟨h, s⟩ <;> rcases PolarHelper.sgn_cases b with ⟨h', s'⟩ | ⟨h', s'⟩ | ⟨h', s'⟩ <;>
    rw [s, s'] at e <;> rcases hx with rfl | rfl <;> rcases hy with rfl | rfl <;> rw [e] <;> unfold SignOf I8 <;> omega

theorem madd_sign {a b x y : Int} (hx : Sym x) (hy : Sym y) (ha : SignOf a (x * y)) (hb : SignOf b y) : SignOf (PolarHelper.madd x a b) y := by
  obtain ⟨ia, ha⟩ := ha
  obtain ⟨ib, hb⟩ := hb
  have hsgn : SignOf (min (max (x * a + b) (-127)) 127) y := by
    unfold SignOf I8 at *
    rcases hx with rfl | rfl <;> rcases hy with rfl | rfl <;> omega
  unfold PolarHelper.madd
  rwa [PolarHelper.t8_id hsgn.1.1 hsgn.1.2]

theorem laws8 : Laws ph8 Sym SignOf where
  one := Or.inl rfl
  q_hard x y hx hy := by
    show Sym (PolarHelper.qmul x y)
    rw [qmul_sym hx hy]; exact hx.mul hy
  signum s x h := by
    show PolarHelper.signum s = x
    rw [PolarHelper.signum_eq]
    obtain ⟨_, h⟩ := h
    rcases PolarHelper.sgn_cases s with ⟨h', e⟩ | ⟨h', e⟩ | ⟨h', e⟩ <;> omega
  prod a b x y hx hy ha hb := prod_sign hx hy (by rw [← qmul_sym hx hy]; exact ha) hb
  madd a b x y hx hy ha hb := madd_sign hx hy (by rw [← qmul_sym hx hy]; exact ha) hb
  medial x y z w hx hy hz hw := by
    show PolarHelper.qmul (PolarHelper.qmul x y) (PolarHelper.qmul z w) = PolarHelper.qmul (PolarHelper.qmul x z) (PolarHelper.qmul y w)
    rw [qmul_sym hx hy, qmul_sym hz hw, qmul_sym hx hz, qmul_sym hy hw, qmul_sym (hx.mul hy) (hz.mul hw), qmul_sym (hx.mul hz) (hy.mul hw)]
    ring
  cancel x y hx hy := by
    show PolarHelper.qmul (PolarHelper.qmul x y) y = x
    rw [qmul_sym hx hy, qmul_sym (hx.mul hy) hy, mul_assoc, hy.sq, mul_one]
  one_one := by decide

theorem maddV_sign {a b x y : Int} (hx : Sym x) (hy : Sym y) (ha : SignOf a (x * y)) (hb : SignOf b y) : SignOf (maddV x a b) y := by
  obtain ⟨ia, ha⟩ := ha
  obtain ⟨ib, hb⟩ := hb
  have e : vsign (max a (-127)) x = x * max a (-127) := by
    unfold vsign
    unfold I8 at ia
    rcases hx with rfl | rfl
    · rw [show sgn 1 = 1 from rfl, PolarHelper.t8_id (by omega) (by omega)]
    · rw [show sgn (-1) = -1 from rfl, PolarHelper.t8_id (by omega) (by omega)]
  unfold maddV vmax
  rw [e]
  unfold vqadd
  rw [PolarHelper.t8_id (by omega) (by omega)]
  unfold SignOf I8 at *
  rcases hx with rfl | rfl <;> rcases hy with rfl | rfl <;> omega

theorem qmulV_sym {x y : Int} (hx : Sym x) (hy : Sym y) : qmulV x y = x * y := by
  rcases hx with rfl | rfl <;> rcases hy with rfl | rfl <;> rfl

theorem lawsV (W : Nat) : Laws (phV W) (fun x => ∀ k, Sym (x k)) (fun s x => ∀ k, SignOf (s k) (x k)) where
  one _ := Or.inl rfl
  q_hard x y hx hy k := by
    show Sym (qmulV (x k) (y k))
    rw [qmulV_sym (hx k) (hy k)]; exact (hx k).mul (hy k)
  signum s x h := by
    funext k
    exact laws8.signum _ _ (h k)
  prod a b x y hx hy ha hb k := by
    show SignOf (prodV (a k) (b k)) (x k)
    rw [PolarHelper.prodV_eq (ha k).1 (hb k).1]
    refine prod_sign (hx k) (hy k) ?_ (hb k)
    rw [← qmulV_sym (hx k) (hy k)]; exact ha k
  madd a b x y hx hy ha hb k := by
    refine maddV_sign (hx k) (hy k) ?_ (hb k)
    rw [← qmulV_sym (hx k) (hy k)]; exact ha k
  medial x y z w hx hy hz hw := by
    funext k
    show qmulV (qmulV (x k) (y k)) (qmulV (z k) (w k)) = qmulV (qmulV (x k) (z k)) (qmulV (y k) (w k))
    rw [qmulV_sym (hx k) (hy k), qmulV_sym (hz k) (hw k), qmulV_sym (hx k) (hz k), qmulV_sym (hy k) (hw k),
      qmulV_sym ((hx k).mul (hy k)) ((hz k).mul (hw k)), qmulV_sym ((hx k).mul (hz k)) ((hy k).mul (hw k))]
    ring
  cancel x y hx hy := by
    funext k
    show qmulV (qmulV (x k) (y k)) (y k) = x k
    rw [qmulV_sym (hx k) (hy k), qmulV_sym ((hx k).mul (hy k)) (hy k), mul_assoc, (hy k).sq, mul_one]
  one_one := rfl

/-! ### C37 -/

/-- The arrays of a `PolarDecoder<TYPE, MAX_M>` (`soft` and `hard`, in any state) and a call it accepts:
`level` from 5 to `MAX_M ≤ 20`, a frozen set of 32-bit words for `2^level` positions, `2^level` soft values. -/
structure Call (MAX_M : Nat) (soft hard codeword : List τ) (frozen : List Nat) (level : Nat) : Prop where
  max_le : MAX_M ≤ 20
  level_ge : 5 ≤ level
  level_le : level ≤ MAX_M
  soft_len : soft.length = 2 * 2 ^ MAX_M
  hard_len : hard.length = 2 ^ MAX_M
  codeword_len : 2 ^ level ≤ codeword.length
  frozen_len : 2 ^ level ≤ 32 * frozen.length
  frozen_words : ∀ w ∈ frozen, w < 2 ^ 32

/-- The SC decoder inverts the encoder: if the soft values have the signs of the codeword that
`PolarEncoder` makes of `message` — any non-zero `int8_t` amplitudes — then the decoder writes the message
to the first `K` cells of its output, and changes no other cell.  `K` is the number of positions that are not
frozen.  Nothing is assumed about the frozen set (so the subtrees of any shape, shortcut or not, are
covered) or the previous contents of the scratch arrays. -/
theorem C37_decode (MAX_M : Nat) (soft hard : List Int) (message cw0 cw codeword out : List Int) (frozen : List Nat) (level : Nat)
    (hcall : Call MAX_M soft hard codeword frozen level)
    (hm : freeBelow frozen (2 ^ level) ≤ message.length) (hi : ∀ x ∈ message, x = 1 ∨ x = -1)
    (hc : 2 ^ level ≤ cw0.length) (henc : encode ph8 cw0 message frozen level = some cw)
    (hsign : ∀ j, j < 2 ^ level → I8 (codeword.getD j 0) ∧ 0 < codeword.getD j 0 * cw.getD j 0)
    (ho : freeBelow frozen (2 ^ level) ≤ out.length) :
    scDecode ph8 MAX_M soft hard out codeword frozen level =
      some (message.take (freeBelow frozen (2 ^ level)) ++ out.drop (freeBelow frozen (2 ^ level))) := by
  obtain ⟨g1, g2, g3, g4, g5, g6, g7, g8⟩ := hcall
  rw [← rank_eq] at hm ho ⊢
  obtain ⟨cw', e, h1, h2⟩ := encode_ok (H := ph8) (message := message) (frozen := frozen) (k := level) (c := cw0) 0 (by omega) g7 hm hc
  rw [henc] at e
  cases e
  refine scDecode_ok laws8 g2 (by omega) g3 g4 g5 g6 g7 g8 hm hi ho fun j hj => ?_
  have hs : Sym (P ph8.qmul level (complete ph8.one (fbit frozen) message) j) := by
    rw [complete_eq, P8_sym _ _ (symbolAt_sym hi)]
    exact P_sym _ _ (symbolAt_sym hi) _
  obtain ⟨s1, s2⟩ := hsign j hj
  rw [h2, if_pos hj] at s2
  rw [← getElem_eq_getD (by omega), getElem_eq_getD _ 0]
  refine ⟨s1, ?_⟩
  rcases hs with h | h
  · rw [h, mul_one] at s2; exact Or.inl ⟨h, s2⟩
  · rw [h] at s2; exact Or.inr ⟨h, by omega⟩

/-- On any soft values whatsoever the decoder stays inside its arrays and writes exactly the first `K` cells
of the message array. -/
theorem C37_in_bounds {H : PH τ} (MAX_M : Nat) (soft hard codeword out : List τ) (frozen : List Nat) (level : Nat)
    (hcall : Call MAX_M soft hard codeword frozen level) (ho : freeBelow frozen (2 ^ level) ≤ out.length) :
    ∃ l, l.length = freeBelow frozen (2 ^ level) ∧
      scDecode H MAX_M soft hard out codeword frozen level = some (l ++ out.drop (freeBelow frozen (2 ^ level))) := by
  obtain ⟨g1, g2, g3, g4, g5, g6, g7, g8⟩ := hcall
  rw [← rank_eq] at ho ⊢
  obtain ⟨k, rfl⟩ : ∃ k, level = k + 1 := ⟨level - 1, by omega⟩
  obtain ⟨r, hr, _, _, l, hl, hput⟩ := sc_total_node H k (sc_total H k) (fbits frozen 0 (2 ^ (k + 1))) ⟨out, 0⟩ (codeword.take (2 ^ (k + 1)))
    (by simp [fbits]) (by simp [g6]) (by rw [filter_count]; simpa using ho)
  rw [filter_count] at hl
  refine ⟨l, hl, ?_⟩
  rw [scDecode_tree H.one g2 (by omega) g3 g4 g5 g6 g7 g8 hr, hput]
  simp [put, hl]

/-- The same for registers of `W` codewords decoded side by side (`PolarDecoder<SIMD<int8_t, W>, MAX_M>`), each
lane with its own message and amplitudes. -/
theorem C37_simd (W MAX_M : Nat) (soft hard : List (Fin W → Int)) (message codeword out : List (Fin W → Int)) (frozen : List Nat) (level : Nat)
    (hcall : Call MAX_M soft hard codeword frozen level)
    (hm : freeBelow frozen (2 ^ level) ≤ message.length) (hi : ∀ x ∈ message, ∀ k, x k = 1 ∨ x k = -1)
    (hsign : ∀ (k : Fin W) (j : Nat), j < 2 ^ level → I8 (codeword.getD j 0 k) ∧
      0 < codeword.getD j 0 k * polar level (symbolAt frozen (message.map fun x => x k)) j)
    (ho : freeBelow frozen (2 ^ level) ≤ out.length) :
    scDecode (phV W) MAX_M soft hard out codeword frozen level =
      some (message.take (freeBelow frozen (2 ^ level)) ++ out.drop (freeBelow frozen (2 ^ level))) := by
  obtain ⟨g1, g2, g3, g4, g5, g6, g7, g8⟩ := hcall
  rw [← rank_eq] at hm ho ⊢
  refine scDecode_ok (lawsV W) g2 (by omega) g3 g4 g5 g6 g7 g8 hm hi ho fun j hj k => ?_
  have hi' : ∀ x ∈ message.map fun x => x k, x = 1 ∨ x = -1 := by
    intro x hx
    obtain ⟨y, hy, rfl⟩ := List.mem_map.1 hx
    exact hi y hy k
  have hu := symbolAt_sym (frozen := frozen) hi'
  have hlane : ∀ i, complete (phV W).one (fbit frozen) message i k = symbolAt frozen (message.map fun x => x k) i := by
    intro i
    rw [← complete_eq]
    unfold complete
    split
    · rfl
    · by_cases h : rank (fbit frozen) i < message.length
      · rw [← getElem_eq_getD h, ← getElem_eq_getD (by simpa using h)]; simp
      · rw [List.getD_eq_default _ _ (by omega), List.getD_eq_default _ _ (by simp; omega)]; rfl
  have hP : ∀ s j, P (phV W).qmul s (complete (phV W).one (fbit frozen) message) j k =
      P (· * ·) s (symbolAt frozen (message.map fun x => x k)) j := by
    intro s
    induction s with
    | zero => exact hlane
    | succ s ih =>
      intro j
      show (if _ then _ else _ : Fin W → Int) k = if _ then _ else _
      split
      · show qmulV _ _ = _
        rw [ih, ih, qmulV_sym (P_sym _ _ hu _) (P_sym _ _ hu _)]
      · exact ih j
  obtain ⟨s1, s2⟩ := hsign k j hj
  have e : codeword.getD j (phV W).one k = codeword.getD j 0 k := by
    rw [← getElem_eq_getD (by omega), ← getElem_eq_getD (by omega)]
  rw [e, hP]
  rw [show polar level (symbolAt frozen (message.map fun x => x k)) j = P (· * ·) level (symbolAt frozen (message.map fun x => x k)) j from
    (P_prod level _ j hj).symm] at s2
  refine ⟨s1, ?_⟩
  rcases P_sym level _ hu j with h | h
  · rw [h, mul_one] at s2; exact Or.inl ⟨h, s2⟩
  · rw [h] at s2; exact Or.inr ⟨h, by omega⟩

/-- Level 5, information set {15, 23, 27, 29, 30, 31}, amplitudes from 1 to 128. -/
example : (encode ph8 (List.replicate 32 0) [-1, 1, 1, -1, -1, 1] [0x177f7fff] 5 >>= fun cw =>
    scDecode ph8 5 (List.replicate 64 99) (List.replicate 32 77) (List.replicate 7 5)
      (List.zipWith (fun (i : Nat) (x : Int) => if x < 0 then -((i : Int) * 4 + 4) else (i : Int) * 3 + 1) (List.range 32) cw)
      [0x177f7fff] 5) = some [-1, 1, 1, -1, -1, 1, 5] := by decide +kernel

example : Call 5 (List.replicate 64 (99 : Int)) (List.replicate 32 77) (List.replicate 32 1) [0x177f7fff] 5 :=
  ⟨by omega, by omega, by omega, by simp, by simp, by simp, by simp, by simp⟩

/-- A level outside 5..20 fails an assertion (polar_decoder.hh:254, 275), with any arrays. -/
theorem C37_level (H : PH τ) (MAX_M : Nat) (soft hard out codeword : List τ) (frozen : List Nat) (level : Nat) (h : level < 5 ∨ 20 < level ∨ MAX_M < level) :
    scDecode H MAX_M soft hard out codeword frozen level = none := by
  unfold scDecode
  by_cases hM : level ≤ MAX_M
  · refine bind_none_of _ _ fun _ => bind_none_of _ _ fun a => ?_
    have : treeTop (scWalk H) 20 frozen level ⟨⟨out, 0⟩, hard, a⟩ = none := by
      unfold treeTop
      rw [show assertUB (5 ≤ level ∧ level ≤ 20) = none from if_neg (by omega)]
      rfl
    rw [this]; rfl
  · rw [show assertUB (level ≤ MAX_M) = none from if_neg hM]
    rfl

end Verif.Polar
