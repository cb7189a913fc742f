import Verif.Polar.Shift
import Verif.Polar.PropsSc
import Verif.Polar.PropsFloat
/- C82 for the successive cancellation decoder (polar_decoder.hh): what it does depends on the noise
alone, not on the codeword that was sent. -/
namespace Verif.Polar
open PolarHelper (t8 I8 sgn vsign vmin vmax vqabs vqadd vsignum prodV maddV qmulV)
open Verif.RS (sb)
variable {τ : Type}

/-- The decoder on `codeword` and on `codeword'`, any arithmetic. -/
theorem scDecode_shift {H : PH τ} {Hard : τ → Prop} {S D : τ → τ → τ → Prop} (L : ShiftLaws H Hard S D) {MAX_M : Nat}
    {soft hard soft' hard' message codeword codeword' out out' : List τ} {frozen : List Nat} {level : Nat}
    (hcall : Call MAX_M soft hard codeword frozen level) (hcall' : Call MAX_M soft' hard' codeword' frozen level)
    (hm : freeBelow frozen (2 ^ level) ≤ message.length) (hh : ∀ x ∈ message, Hard x)
    (hs : ∀ j, j < 2 ^ level → S (P H.qmul level (complete H.one (fbit frozen) message) j) (codeword.getD j H.one) (codeword'.getD j H.one))
    (ho : freeBelow frozen (2 ^ level) ≤ out.length) (ho' : freeBelow frozen (2 ^ level) ≤ out'.length) :
    ∃ l l', scDecode H MAX_M soft hard out codeword frozen level = some (l ++ out.drop (freeBelow frozen (2 ^ level))) ∧
      scDecode H MAX_M soft' hard' out' codeword' frozen level = some (l' ++ out'.drop (freeBelow frozen (2 ^ level))) ∧
      l.length = freeBelow frozen (2 ^ level) ∧ l'.length = freeBelow frozen (2 ^ level) ∧
      ∀ i, i < freeBelow frozen (2 ^ level) → D (message.getD i H.one) (l.getD i H.one) (l'.getD i H.one) := by
  obtain ⟨g1, g2, g3, g4, g5, g6, g7, g8⟩ := hcall
  obtain ⟨_, _, _, g4', g5', g6', _, _⟩ := hcall'
  rw [← rank_eq] at hm ho ho' ⊢
  set K := rank (fbit frozen) (2 ^ level) with hK
  set u := (List.range (2 ^ level)).map (complete H.one (fbit frozen) message) with hu
  have hul : u.length = 2 ^ level := by simp [hu]
  have hinfo : info (fbits frozen 0 (2 ^ level)) u = message.take K := by
    rw [fbits_zero, hu, info_range, filter_range_map _ _ _ _ hm]
  have hil : (info (fbits frozen 0 (2 ^ level)) u).length = K := by rw [hinfo]; simp [hm]
  have hhu : ∀ z ∈ u, Hard z := by
    intro z hz
    obtain ⟨i, _, rfl⟩ := List.mem_map.1 hz
    unfold complete
    split
    · exact L.one
    · by_cases hi : rank (fbit frozen) i < message.length
      · rw [← getElem_eq_getD hi]; exact hh _ (List.getElem_mem _)
      · rw [List.getD_eq_default _ _ (by omega)]; exact L.one
  obtain ⟨k, rfl⟩ : ∃ k, level = k + 1 := ⟨level - 1, by omega⟩
  have hT := T_length H.qmul (k + 1) u hul
  have key := shift_node L k (sc_shift L k) (fbits frozen 0 (2 ^ (k + 1))) (codeword.take (2 ^ (k + 1))) (codeword'.take (2 ^ (k + 1))) u
    (by simp [fbits]) ⟨by simp [fbits, hul], fun i hi => ?_⟩ hhu ⟨by simp [hT, g6], by simp [hT, g6'], fun j hj => ?_⟩
  · obtain ⟨l, l', h, h', e1, -, e3⟩ := key
    obtain ⟨l1, l2, l3⟩ := e1
    rw [hil] at l1 l2 l3
    refine ⟨l, l', ?_, ?_, l1, l2, fun i hi => ?_⟩
    · rw [scDecode_tree H.one g2 (by omega) g3 g4 g5 g6 g7 g8 (e3 ⟨out, 0⟩ (by dsimp only; omega)).1]
      simp [put, l1]
    · rw [scDecode_tree H.one g2 (by omega) g3 g4' g5' g6' g7 g8 (e3 ⟨out', 0⟩ (by dsimp only; omega)).2]
      simp [put, l2]
    · have := l3 i hi
      rwa [hinfo, getD_take_lt hi] at this
  · by_cases hi' : i < 2 ^ (k + 1)
    · rw [fbits_zero, getD_range_map _ _ hi'] at hi
      rw [hu, getD_range_map _ _ hi']
      unfold complete
      rw [if_pos hi]
    · rw [List.getD_eq_default _ _ (by omega)]
  · have hj' : j < 2 ^ (k + 1) := by rw [hT] at hj; exact hj
    rw [getD_take_lt hj', getD_take_lt hj', T_getD _ H.one _ _ hul j hj']
    have := hs j hj'
    rwa [P_congr' (v := complete H.one (fbit frozen) message) (fun i hi => ?_) hj']
    rw [hu, getD_range_map _ _ hi]

/-! ### 8-bit integers -/

/-- A soft value other than -128, and its product with a symbol. -/
def S8 (x a a' : Int) : Prop := -127 ≤ a ∧ a ≤ 127 ∧ a' = x * a
/-- A decision, and its product with a symbol. -/
def D8 (x h h' : Int) : Prop := -1 ≤ h ∧ h ≤ 1 ∧ h' = x * h

theorem prod_neg_left {a b : Int} (ha : -127 ≤ a ∧ a ≤ 127) (hb : I8 b) : PolarHelper.prod (-a) b = -PolarHelper.prod a b := by
  have i1 : I8 a := by unfold I8; omega
  have i2 : I8 (-a) := by unfold I8; omega
  have e : sgn (-a) = -sgn a := by
    rcases PolarHelper.sgn_cases a with ⟨h, s⟩ | ⟨h, s⟩ | ⟨h, s⟩ <;> rcases PolarHelper.sgn_cases (-a) with ⟨h', s'⟩ | ⟨h', s'⟩ | ⟨h', s'⟩ <;> omega
  rw [PolarHelper.prod_eq i1 hb, PolarHelper.prod_eq i2 hb, (PolarHelper.qabs_eq i1).1, (PolarHelper.qabs_eq i2).1, abs_neg, e]
  ring

theorem prod_neg_right {a b : Int} (ha : I8 a) (hb : -127 ≤ b ∧ b ≤ 127) : PolarHelper.prod a (-b) = -PolarHelper.prod a b := by
  have i1 : I8 b := by unfold I8; omega
  have i2 : I8 (-b) := by unfold I8; omega
  have e : sgn (-b) = -sgn b := by
    rcases PolarHelper.sgn_cases b with ⟨h, s⟩ | ⟨h, s⟩ | ⟨h, s⟩ <;> rcases PolarHelper.sgn_cases (-b) with ⟨h', s'⟩ | ⟨h', s'⟩ | ⟨h', s'⟩ <;> omega
  rw [PolarHelper.prod_eq ha i1, PolarHelper.prod_eq ha i2, (PolarHelper.qabs_eq i1).1, (PolarHelper.qabs_eq i2).1, abs_neg, e]
  ring

theorem prod_range {a b : Int} (ha : I8 a) (hb : I8 b) : -127 ≤ PolarHelper.prod a b ∧ PolarHelper.prod a b ≤ 127 := by
  rw [PolarHelper.prod_eq ha hb]
  have h1 := (PolarHelper.qabs_eq ha).2
  have h2 := (PolarHelper.qabs_eq hb).2
  have h3 : 0 ≤ min (PolarHelper.qabs a) (PolarHelper.qabs b) := le_min h1.1 h2.1
  have h4 : min (PolarHelper.qabs a) (PolarHelper.qabs b) ≤ 127 := (min_le_left _ _).trans h1.2
  generalize min (PolarHelper.qabs a) (PolarHelper.qabs b) = m at h3 h4
  rcases PolarHelper.sgn_cases a with ⟨h, s⟩ | ⟨h, s⟩ | ⟨h, s⟩ <;> rcases PolarHelper.sgn_cases b with ⟨h', s'⟩ | ⟨h', s'⟩ | ⟨h', s'⟩ <;>
    rw [s, s'] <;> omega

theorem prod_S8 {x y a a' b b' : Int} (hx : Sym x) (hy : Sym y) (ha : S8 (x * y) a a') (hb : S8 y b b') :
    S8 x (PolarHelper.prod a b) (PolarHelper.prod a' b') := by
  obtain ⟨a1, a2, rfl⟩ := ha
  obtain ⟨b1, b2, rfl⟩ := hb
  have ia : I8 a := by unfold I8; omega
  have ib : I8 b := by unfold I8; omega
  have ib' : I8 (-b) := by unfold I8; omega
  obtain ⟨r1, r2⟩ := prod_range ia ib
  refine ⟨r1, r2, ?_⟩
  have e1 := prod_neg_left (a := a) ⟨a1, a2⟩ ib
  have e2 := prod_neg_right (b := b) ia ⟨b1, b2⟩
  have e3 := prod_neg_left (a := a) ⟨a1, a2⟩ ib'
  rcases hx with rfl | rfl <;> rcases hy with rfl | rfl <;> norm_num
  · rw [e3, e2]; ring
  · exact e1
  · exact e2

theorem madd_S8 {x y h h' a a' b b' : Int} (hx : Sym x) (hy : Sym y) (hh : D8 x h h') (ha : S8 (x * y) a a') (hb : S8 y b b') :
    S8 y (PolarHelper.madd h a b) (PolarHelper.madd h' a' b') := by
  obtain ⟨_, _, rfl⟩ := hh
  obtain ⟨_, _, rfl⟩ := ha
  obtain ⟨_, _, rfl⟩ := hb
  have hx2 := hx.sq
  have e : x * h * (x * y * a) + y * b = y * (h * a + b) := by
    rw [show x * h * (x * y * a) = (x * x) * (y * (h * a)) by ring, hx2]; ring
  unfold PolarHelper.madd S8
  rw [e]
  generalize h * a + b = t
  rw [PolarHelper.t8_id (by omega) (by omega), PolarHelper.t8_id (by omega) (by omega)]
  rcases hy with rfl | rfl <;> omega

theorem signum_D8 {x s s' : Int} (hx : Sym x) (h : S8 x s s') : D8 x (PolarHelper.signum s) (PolarHelper.signum s') := by
  obtain ⟨_, _, rfl⟩ := h
  rw [PolarHelper.signum_eq, PolarHelper.signum_eq]
  unfold D8
  rcases hx with rfl | rfl <;> rcases PolarHelper.sgn_cases s with ⟨h, e⟩ | ⟨h, e⟩ | ⟨h, e⟩ <;>
    [rcases PolarHelper.sgn_cases (1 * s) with ⟨h', e'⟩ | ⟨h', e'⟩ | ⟨h', e'⟩; rcases PolarHelper.sgn_cases (1 * s) with ⟨h', e'⟩ | ⟨h', e'⟩ | ⟨h', e'⟩;
     rcases PolarHelper.sgn_cases (1 * s) with ⟨h', e'⟩ | ⟨h', e'⟩ | ⟨h', e'⟩; rcases PolarHelper.sgn_cases (-1 * s) with ⟨h', e'⟩ | ⟨h', e'⟩ | ⟨h', e'⟩;
     rcases PolarHelper.sgn_cases (-1 * s) with ⟨h', e'⟩ | ⟨h', e'⟩ | ⟨h', e'⟩; rcases PolarHelper.sgn_cases (-1 * s) with ⟨h', e'⟩ | ⟨h', e'⟩ | ⟨h', e'⟩] <;> omega

theorem tri {h : Int} (h1 : -1 ≤ h) (h2 : h ≤ 1) : h = -1 ∨ h = 0 ∨ h = 1 := by omega

theorem qmul_D8 {x y a a' b b' : Int} (hx : Sym x) (hy : Sym y) (ha : D8 x a a') (hb : D8 y b b') :
    D8 (x * y) (PolarHelper.qmul a b) (PolarHelper.qmul a' b') := by
  obtain ⟨a1, a2, rfl⟩ := ha
  obtain ⟨b1, b2, rfl⟩ := hb
  rcases hx with rfl | rfl <;> rcases hy with rfl | rfl <;> rcases tri a1 a2 with rfl | rfl | rfl <;> rcases tri b1 b2 with rfl | rfl | rfl <;>
    unfold D8 <;> decide

theorem shift8 : ShiftLaws ph8 Sym S8 D8 where
  one := laws8.one
  q_hard := laws8.q_hard
  prod x y a a' b b' hx hy ha hb := prod_S8 hx hy (by rw [← qmul_sym hx hy]; exact ha) hb
  madd x y h h' a a' b b' hx hy hh ha hb := madd_S8 hx hy hh (by rw [← qmul_sym hx hy]; exact ha) hb
  signum x s s' hx h := signum_D8 hx h
  qmul x y a a' b b' hx hy ha hb := by
    show D8 (PolarHelper.qmul x y) _ _
    rw [qmul_sym hx hy]; exact qmul_D8 hx hy ha hb
  done := by unfold D8; decide
  medial := laws8.medial
  cancel := laws8.cancel
  one_one := laws8.one_one

/-- The soft values of `codeword'` are those of `codeword`, with the signs changed as the codeword of
`message` says.  Then the decisions of the decoder on `codeword'` are those on `codeword`, multiplied by the symbols
of `message`; a decision may also be 0 (no decision), and then it is 0 both times.  The scratch arrays
and the output arrays of the two calls may hold anything. -/
theorem C82_polar (MAX_M : Nat) (soft hard soft' hard' message codeword codeword' out out' : List Int) (frozen : List Nat) (level : Nat)
    (hcall : Call MAX_M soft hard codeword frozen level) (hcall' : Call MAX_M soft' hard' codeword' frozen level)
    (hm : freeBelow frozen (2 ^ level) ≤ message.length) (hi : ∀ x ∈ message, x = 1 ∨ x = -1)
    (hr : ∀ j, j < 2 ^ level → -127 ≤ codeword.getD j 0 ∧ codeword.getD j 0 ≤ 127)
    (hs : ∀ j, j < 2 ^ level → codeword'.getD j 0 = polar level (symbolAt frozen message) j * codeword.getD j 0)
    (ho : freeBelow frozen (2 ^ level) ≤ out.length) (ho' : freeBelow frozen (2 ^ level) ≤ out'.length) :
    ∃ l l', scDecode ph8 MAX_M soft hard out codeword frozen level = some (l ++ out.drop (freeBelow frozen (2 ^ level))) ∧
      scDecode ph8 MAX_M soft' hard' out' codeword' frozen level = some (l' ++ out'.drop (freeBelow frozen (2 ^ level))) ∧
      l.length = freeBelow frozen (2 ^ level) ∧ l'.length = freeBelow frozen (2 ^ level) ∧
      ∀ i, i < freeBelow frozen (2 ^ level) → l'.getD i 0 = message.getD i 0 * l.getD i 0 := by
  obtain ⟨l, l', h1, h2, h3, h4, h5⟩ := scDecode_shift shift8 hcall hcall' hm hi (fun j hj => by
    have c1 := hcall.codeword_len
    have c2 := hcall'.codeword_len
    have := hs j hj
    rw [show polar level (symbolAt frozen message) j = P (· * ·) level (symbolAt frozen message) j from (P_prod level _ j hj).symm] at this
    rw [complete_eq, P8_sym _ _ (symbolAt_sym hi), ← getElem_eq_getD (by omega), ← getElem_eq_getD (by omega), getElem_eq_getD _ 0, getElem_eq_getD _ 0]
    exact ⟨(hr j hj).1, (hr j hj).2, this⟩) ho ho'
  refine ⟨l, l', h1, h2, h3, h4, fun i hi => ?_⟩
  have := (h5 i hi).2.2
  rwa [← getElem_eq_getD (by omega), ← getElem_eq_getD (by omega), ← getElem_eq_getD (by omega), getElem_eq_getD _ 0, getElem_eq_getD _ 0,
    getElem_eq_getD _ 0] at this

/-! ### Registers of 8-bit integers -/

theorem maddV_eq {h a b : Int} (hh : -1 ≤ h ∧ h ≤ 1) (ha : -127 ≤ a ∧ a ≤ 127) (hb : -127 ≤ b ∧ b ≤ 127) : maddV h a b = PolarHelper.madd h a b := by
  have e : vsign (max a (-127)) h = h * a := by
    unfold vsign
    rcases tri hh.1 hh.2 with rfl | rfl | rfl
    · rw [show sgn (-1) = -1 from rfl, PolarHelper.t8_id (by omega) (by omega)]; omega
    · rw [show sgn 0 = 0 from rfl, PolarHelper.t8_id (by omega) (by omega)]; omega
    · rw [show sgn 1 = 1 from rfl, PolarHelper.t8_id (by omega) (by omega)]; omega
  unfold maddV vmax PolarHelper.madd
  rw [e]
  unfold vqadd
  have : -127 ≤ h * a ∧ h * a ≤ 127 := by rcases tri hh.1 hh.2 with rfl | rfl | rfl <;> omega
  rw [PolarHelper.t8_id (by omega) (by omega), PolarHelper.t8_id (by omega) (by omega)]
  omega

theorem qmulV_eq {a b : Int} (ha : -1 ≤ a ∧ a ≤ 1) (hb : -1 ≤ b ∧ b ≤ 1) : qmulV a b = PolarHelper.qmul a b := by
  rcases tri ha.1 ha.2 with rfl | rfl | rfl <;> rcases tri hb.1 hb.2 with rfl | rfl | rfl <;> decide

theorem S8.range {x a a' : Int} (hx : Sym x) (h : S8 x a a') : (-127 ≤ a ∧ a ≤ 127) ∧ (-127 ≤ a' ∧ a' ≤ 127) := by
  obtain ⟨h1, h2, rfl⟩ := h
  rcases hx with rfl | rfl <;> omega

theorem D8.range {x a a' : Int} (hx : Sym x) (h : D8 x a a') : (-1 ≤ a ∧ a ≤ 1) ∧ (-1 ≤ a' ∧ a' ≤ 1) := by
  obtain ⟨h1, h2, rfl⟩ := h
  rcases hx with rfl | rfl <;> omega

theorem I8_of {a : Int} (h : -127 ≤ a ∧ a ≤ 127) : I8 a := by unfold I8; omega

theorem shiftV (W : Nat) : ShiftLaws (phV W) (fun x => ∀ k, Sym (x k)) (fun x a a' => ∀ k, S8 (x k) (a k) (a' k)) (fun x a a' => ∀ k, D8 (x k) (a k) (a' k)) where
  one := (lawsV W).one
  q_hard := (lawsV W).q_hard
  prod x y a a' b b' hx hy ha hb k := by
    have ha := ha k
    change S8 (qmulV (x k) (y k)) (a k) (a' k) at ha
    rw [qmulV_sym (hx k) (hy k)] at ha
    have r := ha.range ((hx k).mul (hy k))
    have r' := (hb k).range (hy k)
    show S8 (x k) (prodV (a k) (b k)) (prodV (a' k) (b' k))
    rw [PolarHelper.prodV_eq (I8_of r.1) (I8_of r'.1), PolarHelper.prodV_eq (I8_of r.2) (I8_of r'.2)]
    exact prod_S8 (hx k) (hy k) ha (hb k)
  madd x y h h' a a' b b' hx hy hh ha hb k := by
    have ha := ha k
    change S8 (qmulV (x k) (y k)) (a k) (a' k) at ha
    rw [qmulV_sym (hx k) (hy k)] at ha
    have r := ha.range ((hx k).mul (hy k))
    have r' := (hb k).range (hy k)
    have rh := (hh k).range (hx k)
    show S8 (y k) (maddV (h k) (a k) (b k)) (maddV (h' k) (a' k) (b' k))
    rw [maddV_eq rh.1 r.1 r'.1, maddV_eq rh.2 r.2 r'.2]
    exact madd_S8 (hx k) (hy k) (hh k) ha (hb k)
  signum x s s' hx h k := signum_D8 (hx k) (h k)
  qmul x y a a' b b' hx hy ha hb k := by
    have r := (ha k).range (hx k)
    have r' := (hb k).range (hy k)
    show D8 (qmulV (x k) (y k)) (qmulV (a k) (b k)) (qmulV (a' k) (b' k))
    rw [qmulV_sym (hx k) (hy k), qmulV_eq r.1 r'.1, qmulV_eq r.2 r'.2]
    exact qmul_D8 (hx k) (hy k) (ha k) (hb k)
  done k := by
    show D8 1 1 1
    unfold D8; decide
  medial := (lawsV W).medial
  cancel := (lawsV W).cancel
  one_one := (lawsV W).one_one

/-- The position `j` of the codeword of `message`, any lane-wise arithmetic that multiplies symbols. -/
theorem P_lane {α W : Type} {H : PH (W → α)} {c : Int → α} {q : α → α → α} (hq : ∀ a b k, H.qmul a b k = q (a k) (b k)) (hone : ∀ k, H.one k = c 1)
    (hmul : ∀ x y, Sym x → Sym y → q (c x) (c y) = c (x * y)) {frozen : List Nat} {message : List (W → α)} (k : W) {m : List Int}
    (hm : message.map (fun x => x k) = m.map c) (hi : ∀ x ∈ m, x = 1 ∨ x = -1) (level j : Nat) (hj : j < 2 ^ level) :
    P H.qmul level (complete H.one (fbit frozen) message) j k = c (polar level (symbolAt frozen m) j) := by
  have hu := symbolAt_sym (frozen := frozen) hi
  have hl : message.length = m.length := by simpa using congrArg List.length hm
  have hlane : ∀ i, complete H.one (fbit frozen) message i k = c (symbolAt frozen m i) := by
    intro i
    rw [← complete_eq]
    unfold complete
    split
    · exact hone k
    · by_cases h : rank (fbit frozen) i < message.length
      · have := congrArg (fun l => l[rank (fbit frozen) i]?) hm
        simp only [List.getElem?_map] at this
        rw [List.getElem?_eq_getElem h, List.getElem?_eq_getElem (by omega)] at this
        rw [← getElem_eq_getD h, ← getElem_eq_getD (by omega)]
        simpa using this
      · rw [List.getD_eq_default _ _ (by omega), List.getD_eq_default _ _ (by omega)]; exact hone k
  have hP : ∀ s j, P H.qmul s (complete H.one (fbit frozen) message) j k = c (P (· * ·) s (symbolAt frozen m) j) := by
    intro s
    induction s with
    | zero => exact hlane
    | succ s ih =>
      intro j
      unfold P
      split
      · rw [hq, ih, ih, hmul _ _ (P_sym _ _ hu _) (P_sym _ _ hu _)]
      · exact ih j
  rw [hP, P_prod level _ j hj]
  rfl

/-- The same for registers of `W` codewords (`PolarDecoder<SIMD<int8_t, W>, MAX_M>`), each lane with its own message. -/
theorem C82_polar_simd (W MAX_M : Nat) (soft hard soft' hard' message codeword codeword' out out' : List (Fin W → Int)) (frozen : List Nat) (level : Nat)
    (hcall : Call MAX_M soft hard codeword frozen level) (hcall' : Call MAX_M soft' hard' codeword' frozen level)
    (hm : freeBelow frozen (2 ^ level) ≤ message.length) (hi : ∀ x ∈ message, ∀ k, x k = 1 ∨ x k = -1)
    (hr : ∀ k j, j < 2 ^ level → -127 ≤ codeword.getD j 0 k ∧ codeword.getD j 0 k ≤ 127)
    (hs : ∀ (k : Fin W) j, j < 2 ^ level → codeword'.getD j 0 k = polar level (symbolAt frozen (message.map fun x => x k)) j * codeword.getD j 0 k)
    (ho : freeBelow frozen (2 ^ level) ≤ out.length) (ho' : freeBelow frozen (2 ^ level) ≤ out'.length) :
    ∃ l l', scDecode (phV W) MAX_M soft hard out codeword frozen level = some (l ++ out.drop (freeBelow frozen (2 ^ level))) ∧
      scDecode (phV W) MAX_M soft' hard' out' codeword' frozen level = some (l' ++ out'.drop (freeBelow frozen (2 ^ level))) ∧
      l.length = freeBelow frozen (2 ^ level) ∧ l'.length = freeBelow frozen (2 ^ level) ∧
      ∀ i, i < freeBelow frozen (2 ^ level) → ∀ k, l'.getD i 0 k = message.getD i 0 k * l.getD i 0 k := by
  obtain ⟨l, l', h1, h2, h3, h4, h5⟩ := scDecode_shift (shiftV W) hcall hcall' hm hi (fun j hj k => by
    have c1 := hcall.codeword_len
    have c2 := hcall'.codeword_len
    have := hs k j hj
    rw [P_lane (c := id) (q := qmulV) (fun _ _ _ => rfl) (fun _ => rfl) (fun x y hx hy => qmulV_sym hx hy) k (m := message.map fun x => x k) (by simp) (by
      intro x hx
      obtain ⟨y, hy, rfl⟩ := List.mem_map.1 hx
      exact hi y hy k) level j hj, ← getElem_eq_getD (by omega), ← getElem_eq_getD (by omega), getElem_eq_getD _ 0, getElem_eq_getD _ 0]
    exact ⟨(hr k j hj).1, (hr k j hj).2, this⟩) ho ho'
  refine ⟨l, l', h1, h2, h3, h4, fun i hi k => ?_⟩
  have := (h5 i hi k).2.2
  rwa [← getElem_eq_getD (by omega), ← getElem_eq_getD (by omega), ← getElem_eq_getD (by omega), getElem_eq_getD _ 0, getElem_eq_getD _ 0,
    getElem_eq_getD _ 0] at this

/-! ### Floating point -/

/-- IEEE 754 negation -/
def flNeg : Fl → Fl
  | .nan => .nan
  | .inf a => .inf !a
  | .fin q => .fin (-q)

/-- A floating point value with the sign of the symbol `x` applied. -/
def flAct (x : Int) (v : Fl) : Fl := if x = 1 then v else flNeg v

theorem flNeg_neg (v : Fl) : flNeg (flNeg v) = v := by
  cases v <;> simp [flNeg]

theorem flAct_mul {x y : Int} (hx : Sym x) (hy : Sym y) (v : Fl) : flAct (x * y) v = flAct x (flAct y v) := by
  rcases hx with rfl | rfl <;> rcases hy with rfl | rfl <;> simp [flAct, flNeg_neg]

section
variable {F : Rounding} (hodd : ∀ q, F.rnd (-q) = -F.rnd q)
include hodd

theorem ofQ_neg (q : ℚ) : Fl.ofQ F (-q) = flNeg (Fl.ofQ F q) := by
  unfold Fl.ofQ
  rw [hodd, abs_neg]
  split
  · rfl
  · rename_i h
    have h1 := F.one_lt
    unfold flNeg
    congr 1
    rcases lt_trichotomy (F.rnd q) 0 with h2 | h2 | h2
    · simp [h2, not_lt.2 h2.le]
    · rw [h2] at h; simp at h; linarith
    · simp [h2, not_lt.2 h2.le]

theorem mul_neg_left (a b : Fl) : Fl.mul F (flNeg a) b = flNeg (Fl.mul F a b) := by
  cases a with
  | nan => cases b <;> rfl
  | inf s =>
    cases b with
    | nan => rfl
    | inf t => cases s <;> cases t <;> rfl
    | fin q =>
      simp only [flNeg, Fl.mul]
      split
      · rfl
      · cases s <;> cases decide (q < 0) <;> rfl
  | fin p =>
    cases b with
    | nan => rfl
    | inf t =>
      simp only [flNeg, Fl.mul, neg_eq_zero]
      split
      · rfl
      · rename_i h
        congr 1
        rcases lt_trichotomy p 0 with h2 | h2 | h2
        · simp [h2, not_lt.2 h2.le]
        · exact absurd h2 h
        · simp [h2, not_lt.2 h2.le]
    | fin q =>
      simp only [flNeg, Fl.mul]
      rw [neg_mul, ofQ_neg hodd]
      rfl

theorem mul_neg_right (a b : Fl) : Fl.mul F a (flNeg b) = flNeg (Fl.mul F a b) := by
  have hc : ∀ a b : Fl, Fl.mul F a b = Fl.mul F b a := by
    intro a b
    cases a <;> cases b <;> simp only [Fl.mul]
    · rw [Bool.xor_comm]
    · rename_i s q; split
      · rfl
      · rw [Bool.xor_comm]
    · rename_i q s; split
      · rfl
      · rw [Bool.xor_comm]
    · rw [mul_comm]
  rw [hc, mul_neg_left hodd, hc]

theorem mul_act {x y : Int} (hx : Sym x) (hy : Sym y) (a b : Fl) : Fl.mul F (flAct x a) (flAct y b) = flAct (x * y) (Fl.mul F a b) := by
  rcases hx with rfl | rfl <;> rcases hy with rfl | rfl <;> simp [flAct, mul_neg_left hodd, mul_neg_right hodd, flNeg_neg]

theorem add_act {y : Int} (a b : Fl) : Fl.add F (flAct y a) (flAct y b) = flAct y (Fl.add F a b) := by
  unfold flAct
  split
  · rfl
  · cases a with
    | nan => cases b <;> rfl
    | inf s =>
      cases b with
      | nan => rfl
      | inf t => cases s <;> cases t <;> rfl
      | fin q => rfl
    | fin p =>
      cases b with
      | nan => rfl
      | inf t => rfl
      | fin q =>
        simp only [flNeg, Fl.add]
        rw [← neg_add, ofQ_neg hodd]
        rfl

omit hodd in
theorem signum_act {x : Int} (v : Fl) : Fl.signum (flAct x v) = flAct x (Fl.signum v) := by
  unfold flAct
  split
  · rfl
  · cases v with
    | nan => simp [flNeg, Fl.signum, Fl.lt]
    | inf s => cases s <;> simp [flNeg, Fl.signum, Fl.lt]
    | fin q =>
      simp only [flNeg, Fl.signum, Fl.lt]
      rcases lt_trichotomy q 0 with h | h | h
      · simp [h, not_lt.2 h.le]
      · simp [h]
      · simp [h, not_lt.2 h.le]

omit hodd in
theorem abs_act {x : Int} (v : Fl) : Fl.abs (flAct x v) = Fl.abs v := by
  unfold flAct
  split
  · rfl
  · cases v <;> simp [flNeg, Fl.abs]

theorem prod_act {x y : Int} (hx : Sym x) (hy : Sym y) (a b : Fl) : Fl.prod F (flAct (x * y) a) (flAct y b) = flAct x (Fl.prod F a b) := by
  unfold Fl.prod
  rw [signum_act, signum_act, abs_act, abs_act, mul_act hodd (hx.mul hy) hy, mul_assoc, hy.sq, mul_one]
  have := mul_act hodd (x := x) (y := 1) hx (Or.inl rfl) (Fl.mul F (Fl.signum a) (Fl.signum b)) (Fl.min (Fl.abs a) (Fl.abs b))
  rw [mul_one] at this
  exact this

theorem madd_act {x y : Int} (hx : Sym x) (hy : Sym y) (h a b : Fl) : Fl.madd F (flAct x h) (flAct (x * y) a) (flAct y b) = flAct y (Fl.madd F h a b) := by
  unfold Fl.madd
  rw [mul_act hodd hx (hx.mul hy), ← mul_assoc, hx.sq, one_mul, add_act hodd]

/-- `a'` is `a` with the symbol `x` applied. -/
def SF (x a a' : Fl) : Prop := ∃ s : Int, Sym s ∧ x = flSym s ∧ a' = flAct s a

omit hodd in
theorem SF.get {x : Int} (hx : Sym x) {a a' : Fl} (h : SF (flSym x) a a') : a' = flAct x a := by
  obtain ⟨s, _, e, rfl⟩ := h
  have : s = x := by
    have := Fl.fin.inj e
    exact_mod_cast this.symm
  rw [this]

theorem shiftFV (W : Nat) : ShiftLaws (phFV F W) (fun a => ∀ k, ∃ x : Int, Sym x ∧ a k = flSym x) (fun x a a' => ∀ k, SF (x k) (a k) (a' k))
    (fun x a a' => ∀ k, SF (x k) (a k) (a' k)) := by
  have mul_sym : ∀ {x y : Int}, Sym x → Sym y → Fl.mul F (flSym x) (flSym y) = flSym (x * y) := fun hx hy => Fl.mul_sym hx hy
  constructor
  · exact fun k => ⟨1, Or.inl rfl, by simp [phFV, flSym]⟩
  · intro a b ha hb k
    obtain ⟨x, hx, e⟩ := ha k
    obtain ⟨y, hy, e'⟩ := hb k
    refine ⟨x * y, hx.mul hy, ?_⟩
    show Fl.mul F (a k) (b k) = _
    rw [e, e', mul_sym hx hy]
  · intro x y a a' b b' hx hy ha hb k
    obtain ⟨s, hs, e⟩ := hx k
    obtain ⟨t, ht, e'⟩ := hy k
    have ha := ha k
    change SF (Fl.mul F (x k) (y k)) _ _ at ha
    rw [e, e', mul_sym hs ht] at ha
    have hb := hb k
    rw [e'] at hb
    refine ⟨s, hs, e, ?_⟩
    show Fl.prod F (a' k) (b' k) = flAct s (Fl.prod F (a k) (b k))
    rw [ha.get (hs.mul ht), hb.get ht, prod_act hodd hs ht]
  · intro x y h h' a a' b b' hx hy hh ha hb k
    obtain ⟨s, hs, e⟩ := hx k
    obtain ⟨t, ht, e'⟩ := hy k
    have ha := ha k
    change SF (Fl.mul F (x k) (y k)) _ _ at ha
    rw [e, e', mul_sym hs ht] at ha
    have hb := hb k
    rw [e'] at hb
    have hh := hh k
    rw [e] at hh
    refine ⟨t, ht, e', ?_⟩
    show Fl.madd F (h' k) (a' k) (b' k) = flAct t (Fl.madd F (h k) (a k) (b k))
    rw [hh.get hs, ha.get (hs.mul ht), hb.get ht, madd_act hodd hs ht]
  · intro x a a' hx ha k
    obtain ⟨s, hs, e, e'⟩ := ha k
    refine ⟨s, hs, e, ?_⟩
    show Fl.signum (a' k) = flAct s (Fl.signum (a k))
    rw [e', signum_act]
  · intro x y a a' b b' hx hy ha hb k
    obtain ⟨s, hs, e, e'⟩ := ha k
    obtain ⟨t, ht, f, f'⟩ := hb k
    refine ⟨s * t, hs.mul ht, ?_, ?_⟩
    · show Fl.mul F (x k) (y k) = _
      rw [e, f, mul_sym hs ht]
    · show Fl.mul F (a' k) (b' k) = flAct (s * t) (Fl.mul F (a k) (b k))
      rw [e', f', mul_act hodd hs ht]
  · exact fun k => ⟨1, Or.inl rfl, by simp [phFV, flSym], by simp [flAct]⟩
  · intro x y z w hx hy hz hw
    funext k
    obtain ⟨x', hx, ex⟩ := hx k
    obtain ⟨y', hy, ey⟩ := hy k
    obtain ⟨z', hz, ez⟩ := hz k
    obtain ⟨w', hw, ew⟩ := hw k
    show Fl.mul F (Fl.mul F (x k) (y k)) (Fl.mul F (z k) (w k)) = Fl.mul F (Fl.mul F (x k) (z k)) (Fl.mul F (y k) (w k))
    rw [ex, ey, ez, ew, mul_sym hx hy, mul_sym hz hw, mul_sym hx hz, mul_sym hy hw, mul_sym (hx.mul hy) (hz.mul hw), mul_sym (hx.mul hz) (hy.mul hw)]
    congr 1; ring
  · intro x y hx hy
    funext k
    obtain ⟨x', hx, ex⟩ := hx k
    obtain ⟨y', hy, ey⟩ := hy k
    show Fl.mul F (Fl.mul F (x k) (y k)) (y k) = x k
    rw [ex, ey, mul_sym hx hy, mul_sym (hx.mul hy) hy, mul_assoc, hy.sq, mul_one]
  · funext k
    have := mul_sym (x := 1) (y := 1) (Or.inl rfl) (Or.inl rfl)
    simpa [phFV, flSym] using this

theorem shiftF : ShiftLaws (phF F) (fun a => ∃ x : Int, Sym x ∧ a = flSym x) SF SF := by
  have L := shiftFV hodd 1
  have c : ∀ {p : Fin 1 → Prop}, p 0 → ∀ k, p k := fun h k => by rw [Subsingleton.elim k 0]; exact h
  constructor
  · exact L.one 0
  · exact fun x y hx hy => L.q_hard (fun _ => x) (fun _ => y) (fun _ => hx) (fun _ => hy) 0
  · exact fun x y a a' b b' hx hy ha hb => L.prod (fun _ => x) (fun _ => y) (fun _ => a) (fun _ => a') (fun _ => b) (fun _ => b')
      (fun _ => hx) (fun _ => hy) (fun _ => ha) (fun _ => hb) 0
  · exact fun x y h h' a a' b b' hx hy hh ha hb => L.madd (fun _ => x) (fun _ => y) (fun _ => h) (fun _ => h') (fun _ => a) (fun _ => a') (fun _ => b) (fun _ => b')
      (fun _ => hx) (fun _ => hy) (fun _ => hh) (fun _ => ha) (fun _ => hb) 0
  · exact fun x a a' hx ha => L.signum (fun _ => x) (fun _ => a) (fun _ => a') (fun _ => hx) (fun _ => ha) 0
  · exact fun x y a a' b b' hx hy ha hb => L.qmul (fun _ => x) (fun _ => y) (fun _ => a) (fun _ => a') (fun _ => b) (fun _ => b')
      (fun _ => hx) (fun _ => hy) (fun _ => ha) (fun _ => hb) 0
  · exact L.done 0
  · exact fun x y z w hx hy hz hw => congrFun (L.medial (fun _ => x) (fun _ => y) (fun _ => z) (fun _ => w) (fun _ => hx) (fun _ => hy) (fun _ => hz) (fun _ => hw)) 0
  · exact fun x y hx hy => congrFun (L.cancel (fun _ => x) (fun _ => y) (fun _ => hx) (fun _ => hy)) 0
  · exact congrFun L.one_one 0

end

/-- `PolarDecoder<float>`, `PolarDecoder<double>` (`hodd`: rounding treats `q` and `-q` alike, which round-to-nearest does, see below)
on any soft values at all, infinities and NaN included: flip the signs by a codeword, and the decisions are
flipped by the message of that codeword, bit for bit up to the sign of zero. -/
theorem C82_polar_float (F : Rounding) (hodd : ∀ q, F.rnd (-q) = -F.rnd q) (MAX_M : Nat) (soft hard soft' hard' codeword codeword' out out' : List Fl)
    (message : List Int) (frozen : List Nat) (level : Nat)
    (hcall : Call MAX_M soft hard codeword frozen level) (hcall' : Call MAX_M soft' hard' codeword' frozen level)
    (hm : freeBelow frozen (2 ^ level) ≤ message.length) (hi : ∀ x ∈ message, x = 1 ∨ x = -1)
    (hs : ∀ j, j < 2 ^ level → codeword'.getD j .nan = flAct (polar level (symbolAt frozen message) j) (codeword.getD j .nan))
    (ho : freeBelow frozen (2 ^ level) ≤ out.length) (ho' : freeBelow frozen (2 ^ level) ≤ out'.length) :
    ∃ l l', scDecode (phF F) MAX_M soft hard out codeword frozen level = some (l ++ out.drop (freeBelow frozen (2 ^ level))) ∧
      scDecode (phF F) MAX_M soft' hard' out' codeword' frozen level = some (l' ++ out'.drop (freeBelow frozen (2 ^ level))) ∧
      l.length = freeBelow frozen (2 ^ level) ∧ l'.length = freeBelow frozen (2 ^ level) ∧
      ∀ i, i < freeBelow frozen (2 ^ level) → l'.getD i .nan = flAct (message.getD i 1) (l.getD i .nan) := by
  obtain ⟨l, l', h1, h2, h3, h4, h5⟩ := scDecode_shift (shiftF hodd) (message := message.map flSym) hcall hcall' (by simpa using hm) (by
      intro x hx
      obtain ⟨y, hy, rfl⟩ := List.mem_map.1 hx
      exact ⟨y, hi y hy, rfl⟩) (fun j hj => by
    have c1 := hcall.codeword_len
    have c2 := hcall'.codeword_len
    have := complete_F F frozen message
    change complete (phF F).one (fbit frozen) (message.map flSym) = _ at this
    rw [this, P_F F _ (symbolAt_sym hi), P_prod level _ j hj]
    refine ⟨polar level (symbolAt frozen message) j, polar_sym (symbolAt_sym hi) hj, rfl, ?_⟩
    have := hs j hj
    rw [← getElem_eq_getD (by omega), ← getElem_eq_getD (by omega)] at this ⊢
    exact this) ho ho'
  refine ⟨l, l', h1, h2, h3, h4, fun i hi' => ?_⟩
  have hlt : i < message.length := by omega
  have := h5 i hi'
  rw [← getElem_eq_getD (by omega), ← getElem_eq_getD (by omega), ← getElem_eq_getD (by omega)]
  rw [← getElem_eq_getD (by simpa using hlt), ← getElem_eq_getD (by omega), ← getElem_eq_getD (by omega)] at this
  simp only [List.getElem_map] at this
  exact this.get (hi _ (List.getElem_mem hlt))

/-- The same for registers of `W` codewords (`PolarDecoder<SIMD<float, W>, MAX_M>`, `PolarDecoder<SIMD<double, W>, MAX_M>`). -/
theorem C82_polar_float_simd (F : Rounding) (hodd : ∀ q, F.rnd (-q) = -F.rnd q) (W MAX_M : Nat) (soft hard soft' hard' codeword codeword' out out' : List (Fin W → Fl))
    (message : List (Fin W → Int)) (frozen : List Nat) (level : Nat)
    (hcall : Call MAX_M soft hard codeword frozen level) (hcall' : Call MAX_M soft' hard' codeword' frozen level)
    (hm : freeBelow frozen (2 ^ level) ≤ message.length) (hi : ∀ x ∈ message, ∀ k, x k = 1 ∨ x k = -1)
    (hs : ∀ (k : Fin W) j, j < 2 ^ level →
      codeword'.getD j (fun _ => .nan) k = flAct (polar level (symbolAt frozen (message.map fun x => x k)) j) (codeword.getD j (fun _ => .nan) k))
    (ho : freeBelow frozen (2 ^ level) ≤ out.length) (ho' : freeBelow frozen (2 ^ level) ≤ out'.length) :
    ∃ l l', scDecode (phFV F W) MAX_M soft hard out codeword frozen level = some (l ++ out.drop (freeBelow frozen (2 ^ level))) ∧
      scDecode (phFV F W) MAX_M soft' hard' out' codeword' frozen level = some (l' ++ out'.drop (freeBelow frozen (2 ^ level))) ∧
      l.length = freeBelow frozen (2 ^ level) ∧ l'.length = freeBelow frozen (2 ^ level) ∧
      ∀ i, i < freeBelow frozen (2 ^ level) → ∀ k, l'.getD i (fun _ => .nan) k = flAct (message.getD i 1 k) (l.getD i (fun _ => .nan) k) := by
  obtain ⟨l, l', h1, h2, h3, h4, h5⟩ := scDecode_shift (shiftFV hodd W) (message := message.map fun x k => flSym (x k)) hcall hcall' (by simpa using hm) (by
      intro x hx k
      obtain ⟨y, hy, rfl⟩ := List.mem_map.1 hx
      exact ⟨y k, hi y hy k, rfl⟩) (fun j hj k => by
    have c1 := hcall.codeword_len
    have c2 := hcall'.codeword_len
    have hik : ∀ x ∈ message.map (fun x => x k), x = 1 ∨ x = -1 := by
      intro x hx
      obtain ⟨y, hy, rfl⟩ := List.mem_map.1 hx
      exact hi y hy k
    rw [P_lane (c := flSym) (q := Fl.mul F) (fun _ _ _ => rfl) (fun _ => by simp [phFV, flSym]) (fun x y hx hy => Fl.mul_sym hx hy) k
      (m := message.map fun x => x k) (by simp [Function.comp_def]) hik level j hj]
    refine ⟨polar level (symbolAt frozen (message.map fun x => x k)) j, polar_sym (symbolAt_sym hik) hj, rfl, ?_⟩
    have := hs k j hj
    rw [← getElem_eq_getD (by omega), ← getElem_eq_getD (by omega)] at this ⊢
    exact this) ho ho'
  refine ⟨l, l', h1, h2, h3, h4, fun i hi' k => ?_⟩
  have hlt : i < message.length := by omega
  have := h5 i hi' k
  rw [← getElem_eq_getD (by omega), ← getElem_eq_getD (by omega), ← getElem_eq_getD (by omega)]
  rw [← getElem_eq_getD (by simpa using hlt), ← getElem_eq_getD (by omega), ← getElem_eq_getD (by omega)] at this
  simp only [List.getElem_map] at this
  exact this.get (hi _ (List.getElem_mem hlt) k)

/-- IEEE 754 rounding to nearest, ties to even, treats `q` and `-q` alike. -/
theorem round_odd (p : Nat) (emin : ℤ) (q : ℚ) : Ieee.round p emin (-q) = -Ieee.round p emin q := by
  unfold Ieee.round
  rcases lt_trichotomy q 0 with h | rfl | h
  · rw [if_neg (by linarith), if_pos h, neg_neg]
  · simp [Ieee.roundPos_zero]
  · rw [if_pos (by linarith), if_neg (by linarith), neg_neg]

theorem binary32_odd (q : ℚ) : binary32.rnd (-q) = -binary32.rnd q := round_odd _ _ q

theorem binary64_odd (q : ℚ) : binary64.rnd (-q) = -binary64.rnd q := round_odd _ _ q

/-! ### The hypotheses can be met -/

/-- soft values of 32 positions: weak, strong, saturated, some of the wrong sign, four of them erased -/
def softExample : List Int := (List.range 32).map fun i => if i % 9 = 4 then 0 else if i % 5 = 2 then -(i : Int) - 3 else if i = 30 then 127 else 2 * i + 1

def messageExample : List Int := [-1, 1, 1, -1, -1, 1]

def shiftedExample : List Int := (List.range 32).map fun j => P (· * ·) 5 (complete 1 (fbit [0x177f7fff]) messageExample) j * softExample.getD j 0

example : Call 5 (List.replicate 64 (99 : Int)) (List.replicate 32 77) softExample [0x177f7fff] 5 ∧
    Call 5 (List.replicate 64 (3 : Int)) (List.replicate 32 0) shiftedExample [0x177f7fff] 5 ∧
    freeBelow [0x177f7fff] (2 ^ 5) ≤ messageExample.length ∧ (∀ x ∈ messageExample, x = 1 ∨ x = -1) ∧
    (∀ j, j < 2 ^ 5 → -127 ≤ softExample.getD j 0 ∧ softExample.getD j 0 ≤ 127) ∧
    (∀ j, j < 2 ^ 5 → shiftedExample.getD j 0 = polar 5 (symbolAt [0x177f7fff] messageExample) j * softExample.getD j 0) :=
  ⟨⟨by omega, by omega, by omega, by simp, by simp, by decide +kernel, by simp, by simp⟩,
    ⟨by omega, by omega, by omega, by simp, by simp, by decide +kernel, by simp, by simp⟩,
    by decide +kernel, by decide, by decide +kernel, fun j hj => by
      rw [show polar 5 (symbolAt [0x177f7fff] messageExample) j = P (· * ·) 5 (symbolAt [0x177f7fff] messageExample) j from (P_prod 5 _ j hj).symm, ← complete_eq]
      revert j; decide +kernel⟩
example : scDecode ph8 5 (List.replicate 64 99) (List.replicate 32 77) (List.replicate 7 5) softExample [0x177f7fff] 5 = some [1, 1, 1, 1, 1, 1, 5] := by
  decide +kernel
example : scDecode ph8 5 (List.replicate 64 3) (List.replicate 32 0) (List.replicate 6 8) shiftedExample [0x177f7fff] 5 = some [-1, 1, 1, -1, -1, 1] := by
  decide +kernel

end Verif.Polar
