import Verif.Polar.Erase
import Verif.Polar.PropsFloat
/- The arithmetics of polar_helper.hh on erased soft values, and what "lost" means. -/
namespace Verif.Polar
open PolarHelper (t8 I8 sgn)
open Verif.RS (sb)
open Verif (Ok)
variable {τ : Type}

theorem elaws8 : ELaws ph8 Sym SignOf (· = 0) (· = 0) where
  toLaws := laws8
  prod_l := by
    rintro a b y rfl hb
    have ib : I8 b := by rcases hb with rfl | hb; exacts [by unfold I8; omega, hb.1]
    show PolarHelper.prod 0 b = 0
    rw [PolarHelper.prod_eq (by unfold I8; omega) ib]
    simp [sgn]
  prod_r := by
    rintro a b y rfl hb
    have ib : I8 a := by rcases hb with rfl | hb; exacts [by unfold I8; omega, hb.1]
    show PolarHelper.prod a 0 = 0
    rw [PolarHelper.prod_eq ib (by unfold I8; omega)]
    simp [sgn]
  madd_l := by
    rintro a b x y hx hy rfl ⟨ib, hb⟩
    have h : SignOf (min (max (x * 0 + b) (-127)) 127) y := by
      unfold SignOf I8 at *
      rcases hy with rfl | rfl <;> omega
    show SignOf (t8 _) y
    rwa [PolarHelper.t8_id h.1.1 h.1.2]
  madd_r := by
    rintro a b x y hx hy ha rfl
    have ha : SignOf a (x * y) := by rw [← qmul_sym hx hy]; exact ha
    have h : SignOf (min (max (x * a + 0) (-127)) 127) y := by
      unfold SignOf I8 at *
      rcases hx with rfl | rfl <;> rcases hy with rfl | rfl <;> omega
    show SignOf (t8 _) y
    rwa [PolarHelper.t8_id h.1.1 h.1.2]
  madd_e := by
    rintro a b x hx rfl rfl
    show t8 _ = 0
    rw [mul_zero]; decide
  signum_e := by rintro s rfl; show PolarHelper.signum 0 = 0; decide
  z_l := by rintro a b rfl _; show t8 (0 * b) = 0; rw [zero_mul]; decide
  z_r := by rintro a b rfl _; show t8 (a * 0) = 0; rw [mul_zero]; decide
  z_not := by rintro a rfl h; unfold Sym at h; omega

namespace Fl
variable {F : Rounding}

theorem zero_huge : |(0 : ℚ)| < F.huge := by rw [abs_zero]; linarith [F.one_lt]

theorem num_zero : Num F (fin 0) := ⟨F.zero, zero_huge⟩

theorem signum_zero : signum (fin 0) = fin 0 := by simp [signum, lt]

theorem mul_zero_l (q : ℚ) : mul F (fin 0) (fin q) = fin 0 := by
  simp only [mul, zero_mul]; exact ofQ_rep F.zero zero_huge

theorem mul_zero_r (q : ℚ) : mul F (fin q) (fin 0) = fin 0 := by
  simp only [mul, mul_zero]; exact ofQ_rep F.zero zero_huge

theorem add_zero_l {s : Fl} (h : Num F s) : add F (fin 0) s = s := by
  cases s with
  | nan => exact h.elim
  | inf a => rfl
  | fin q => simp only [add, zero_add]; exact ofQ_rep h.1 h.2

theorem add_zero_r {s : Fl} (h : Num F s) : add F s (fin 0) = s := by
  cases s with
  | nan => exact h.elim
  | inf a => rfl
  | fin q => simp only [add, add_zero]; exact ofQ_rep h.1 h.2

/-- The decision on a number is -1, 0 or 1. -/
theorem signum_fin (s : Fl) : ∃ q, signum s = fin q := ⟨_, rfl⟩

theorem min_abs_zero_l {s : Fl} (h : Num F s) : min (abs (fin 0)) (abs s) = fin 0 := by
  cases s with
  | nan => exact h.elim
  | inf a => simp [min, abs, lt]
  | fin q => simp [min, abs, lt, not_lt.2 (abs_nonneg q)]

theorem min_abs_zero_r {s : Fl} (h : Num F s) : min (abs s) (abs (fin 0)) = fin 0 := by
  cases s with
  | nan => exact h.elim
  | inf a => simp [min, abs, lt]
  | fin q =>
    by_cases hq : q = 0
    · subst hq; simp [min, abs, lt]
    · simp [min, abs, lt, abs_pos.2 hq]

end Fl

theorem elawsF (F : Rounding) : ELaws (phF F) (fun a => ∃ x : Int, Sym x ∧ a = .fin x) (fun s a => ∃ x : Int, a = .fin x ∧ s.Num F ∧ s.Sgn x)
    (· = .fin 0) (· = .fin 0) where
  toLaws := lawsF F
  prod_l := by
    rintro a b y rfl hb
    have ib : b.Num F := by rcases hb with rfl | ⟨_, -, hb, -⟩; exacts [Fl.num_zero, hb]
    show Fl.mul F (Fl.mul F _ _) _ = _
    obtain ⟨q, hq⟩ := Fl.signum_fin b
    rw [Fl.min_abs_zero_l ib, Fl.signum_zero, hq, Fl.mul_zero_l, Fl.mul_zero_l]
  prod_r := by
    rintro a b y rfl hb
    have ib : a.Num F := by rcases hb with rfl | ⟨_, -, hb, -⟩; exacts [Fl.num_zero, hb]
    show Fl.mul F (Fl.mul F _ _) _ = _
    obtain ⟨q, hq⟩ := Fl.signum_fin a
    rw [Fl.min_abs_zero_r ib, Fl.signum_zero, hq, Fl.mul_zero_r, Fl.mul_zero_l]
  madd_l := by
    rintro a b _ y ⟨x, hx, rfl⟩ hy rfl ⟨z, e, hn, hs⟩
    show ∃ _, _
    refine ⟨z, e, ?_⟩
    show Fl.Num F (Fl.add F (Fl.mul F _ _) b) ∧ _
    rw [show (phF F).madd (.fin x) (.fin 0) b = Fl.add F (Fl.mul F (.fin x) (.fin 0)) b from rfl, Fl.mul_zero_r, Fl.add_zero_l hn]
    exact ⟨hn, hs⟩
  madd_r := by
    rintro a b _ _ ⟨x, hx, rfl⟩ ⟨y, hy, rfl⟩ ⟨z, e, hn, hs⟩ rfl
    have e1 : x * y = z := by
      have : Fl.fin ((x * y : Int) : ℚ) = Fl.fin z := by rw [← e]; exact (Fl.mul_sym hx hy).symm
      exact_mod_cast Fl.fin.inj this
    subst e1
    obtain ⟨h1, h2⟩ := Fl.mul_sgn hx hn hs
    rw [← mul_assoc, hx.sq, one_mul] at h2
    refine ⟨y, rfl, ?_⟩
    rw [show (phF F).madd (.fin x) a (.fin 0) = Fl.add F (Fl.mul F (.fin x) a) (.fin 0) from rfl, Fl.add_zero_r h1]
    exact ⟨h1, h2⟩
  madd_e := by
    rintro a b _ ⟨x, hx, rfl⟩ rfl rfl
    show Fl.add F (Fl.mul F _ _) _ = _
    rw [Fl.mul_zero_r, Fl.add_zero_l Fl.num_zero]
  signum_e := by rintro s rfl; exact Fl.signum_zero
  z_l := by
    rintro a b rfl hb
    obtain ⟨q, rfl⟩ : ∃ q, b = .fin q := by rcases hb with rfl | ⟨x, -, rfl⟩ <;> exact ⟨_, rfl⟩
    exact Fl.mul_zero_l q
  z_r := by
    rintro a b rfl hb
    obtain ⟨q, rfl⟩ : ∃ q, a = .fin q := by rcases hb with rfl | ⟨x, -, rfl⟩ <;> exact ⟨_, rfl⟩
    exact Fl.mul_zero_r q
  z_not := by
    rintro a rfl ⟨x, hx, e⟩
    have := Fl.fin.inj e
    rcases hx with rfl | rfl <;> norm_num at this

/-! ### The decoder -/

theorem scDecode_erase {H : PH τ} {Hard : τ → Prop} {Sg : τ → τ → Prop} {Er Z : τ → Prop} (L : ELaws H Hard Sg Er Z) {MAX_M : Nat}
    {soft hard message codeword out : List τ} {frozen : List Nat} {level : Nat} (h5 : 5 ≤ level)
    (h20 : level ≤ 20) (hM : level ≤ MAX_M) (hsl : soft.length = 2 * 2 ^ MAX_M) (hhl : hard.length = 2 ^ MAX_M) (hc : 2 ^ level ≤ codeword.length)
    (hf : 2 ^ level ≤ 32 * frozen.length) (hw : ∀ w ∈ frozen, w < 2 ^ 32) (hm : rank (fbit frozen) (2 ^ level) ≤ message.length)
    (hh : ∀ x ∈ message, Hard x) (ho : rank (fbit frozen) (2 ^ level) ≤ out.length) (e : Nat → Bool)
    (hs : ∀ j, j < 2 ^ level → RelE Sg Er (e j) (codeword.getD j H.one) (P H.qmul level (complete H.one (fbit frozen) message) j)) :
    ∃ l, l.length = rank (fbit frozen) (2 ^ level) ∧
      scDecode H MAX_M soft hard out codeword frozen level = some (l ++ out.drop (rank (fbit frozen) (2 ^ level))) ∧
      (badL (fbits frozen 0 (2 ^ level)) (lostL level ((List.range (2 ^ level)).map e)) = false → l = message.take (rank (fbit frozen) (2 ^ level))) ∧
      (badL (fbits frozen 0 (2 ^ level)) (lostL level ((List.range (2 ^ level)).map e)) = true → ∃ z ∈ l, Z z) := by
  set u := (List.range (2 ^ level)).map (complete H.one (fbit frozen) message) with hu
  have hul : u.length = 2 ^ level := by simp [hu]
  have hinfo : info (fbits frozen 0 (2 ^ level)) u = message.take (rank (fbit frozen) (2 ^ level)) := by
    rw [fbits_zero, hu, info_range, filter_range_map _ _ _ _ hm]
  have hil : (info (fbits frozen 0 (2 ^ level)) u).length = rank (fbit frozen) (2 ^ level) := by rw [hinfo]; simp [hm]
  obtain ⟨k, rfl⟩ : ∃ k, level = k + 1 := ⟨level - 1, by omega⟩
  have hhu : ∀ z ∈ u, Hard z := by
    intro z hz
    obtain ⟨i, _, rfl⟩ := List.mem_map.1 hz
    unfold complete
    split
    · exact L.one
    · by_cases hi : rank (fbit frozen) i < message.length
      · rw [← getElem_eq_getD hi]; exact hh _ (List.getElem_mem _)
      · rw [List.getD_eq_default _ _ (by omega)]; exact L.one
  have hT := T_length H.qmul (k + 1) u hul
  have hnode := erase_node L k (erase_child L k) (fbits frozen 0 (2 ^ (k + 1))) ⟨out, 0⟩ (codeword.take (2 ^ (k + 1))) u
    ((List.range (2 ^ (k + 1))).map e) (by simp [fbits])
    ⟨by simp [fbits, hul], fun i hi => ?_⟩ hhu (by simp) (by simp [hc]) (fun j hj => ?_) (by dsimp only; omega)
  · obtain ⟨r, hr, -, -, l, hl, hput, hbad, hgood⟩ := hnode
    refine ⟨l, by omega, ?_, ?_, hbad⟩
    · rw [scDecode_tree H.one h5 h20 hM hsl hhl hc hf hw hr, hput]
      simp only [put, List.take_zero, List.nil_append, zero_add]
      rw [hl, hil]
    · rw [← hinfo]
      exact fun hb => (hgood hb).1
  · by_cases hi' : i < 2 ^ (k + 1)
    · rw [fbits_zero, getD_range_map _ _ hi'] at hi
      rw [hu, getD_range_map _ _ hi']
      unfold complete
      rw [if_pos hi]
    · rw [List.getD_eq_default _ _ (by omega)]
  · rw [getD_take_lt hj, T_getD _ H.one _ _ hul j hj, getD_range_map _ _ hj]
    have := hs j hj
    rwa [P_congr' (v := complete H.one (fbit frozen) message) (fun i hi => ?_) hj]
    rw [hu, getD_range_map _ _ hi]

theorem badL_iff (frozen : List Nat) (n : Nat) (g : List Bool) (hg : g.length = n) :
    badL (fbits frozen 0 n) g = false ↔ ∀ i, i < n → ¬ Frozen frozen i → g.getD i false = false := by
  unfold badL
  rw [List.any_eq_false, fbits_zero]
  constructor
  · intro h i hi hf
    have := h _ (List.getElem_mem (n := i) (by simp [hg, hi]))
    rw [List.getElem_zipWith, List.getElem_map, List.getElem_range, getElem_eq_getD _ false] at this
    have hf' : fbit frozen i = false := by
      cases hq : fbit frozen i with
      | false => rfl
      | true => exact absurd hq hf
    rw [hf'] at this
    simpa using this
  · intro h x hx
    obtain ⟨i, hi, rfl⟩ := List.mem_iff_getElem.1 hx
    have hi' : i < n := by simp [hg] at hi; exact hi
    rw [List.getElem_zipWith, List.getElem_map, List.getElem_range, getElem_eq_getD _ false]
    by_cases hf : Frozen frozen i
    · have : fbit frozen i = true := hf
      simp [this]
    · rw [h i hi' hf]; simp

/-! ### What is lost -/

/-- An input that looks like all ones below `i` and on the symbols that are left, but is not. -/
def Amb (M : Nat) (e : List Bool) (i : Nat) : Prop :=
  ∃ w : Nat → Int, (∀ k, Sym (w k)) ∧ (∀ k, k < i → w k = 1) ∧ w i = -1 ∧ ∀ j, j < 2 ^ M → e.getD j false = false → P (· * ·) M w j = 1

theorem P_ones (M : Nat) {w : Nat → Int} (h : ∀ k, k < 2 ^ M → w k = 1) {j : Nat} (hj : j < 2 ^ M) : P (· * ·) M w j = 1 := by
  rw [P_prod M w j hj]
  refine Finset.prod_eq_one fun i hi => h i ?_
  simp at hi; exact hi.1

theorem lost_iff : ∀ (M : Nat) (e : List Bool) (i : Nat), e.length = 2 ^ M → i < 2 ^ M → ((lostL M e).getD i false = true ↔ Amb M e i) := by
  intro M
  induction M with
  | zero =>
    intro e i he hi
    obtain rfl : i = 0 := by simpa using hi
    constructor
    · intro h
      refine ⟨fun k => if k = 0 then -1 else 1, fun k => ?_, by simp, by simp, fun j hj hf => ?_⟩
      · unfold Sym; dsimp only; split <;> simp
      · obtain rfl : j = 0 := by simpa using hj
        rw [show lostL 0 e = e from rfl] at h
        rw [h] at hf; exact absurd hf (by simp)
    · rintro ⟨w, -, -, h1, h2⟩
      by_contra hc
      have : (w 0 : Int) = 1 := h2 0 (by simp) (by simpa [lostL] using hc)
      omega
  | succ M ih =>
    intro e i he hi
    have e' := two_pow_succ' M
    have a1 : (e.take (2 ^ M)).length = 2 ^ M := by simp [he, e']
    have a2 : (e.drop (2 ^ M)).length = 2 ^ M := by simp [he, e']
    have o1 : (List.zipWith (· || ·) (e.take (2 ^ M)) (e.drop (2 ^ M))).length = 2 ^ M := by simp [a1, a2]
    have o2 : (List.zipWith (· && ·) (e.take (2 ^ M)) (e.drop (2 ^ M))).length = 2 ^ M := by simp [a1, a2]
    have g1 : ∀ j, j < 2 ^ M → (List.zipWith (· || ·) (e.take (2 ^ M)) (e.drop (2 ^ M))).getD j false = (e.getD j false || e.getD (2 ^ M + j) false) := by
      intro j hj
      rw [getD_zipWith' (da := false) (db := false) (by omega) (by omega), getD_take_lt hj, getD_drop']
    have g2 : ∀ j, j < 2 ^ M → (List.zipWith (· && ·) (e.take (2 ^ M)) (e.drop (2 ^ M))).getD j false = (e.getD j false && e.getD (2 ^ M + j) false) := by
      intro j hj
      rw [getD_zipWith' (da := false) (db := false) (by omega) (by omega), getD_take_lt hj, getD_drop']
    rw [lostL]
    by_cases hlow : i < 2 ^ M
    · rw [List.getD_append _ _ _ _ (by rw [lostL_length M _ o1]; exact hlow), ih _ i o1 hlow]
      constructor
      · rintro ⟨w, h1, h2, h3, h4⟩
        set c : Nat → Int := fun j => if e.getD (2 ^ M + j) false then P (· * ·) M w j else 1 with hc
        have hcs : ∀ j, Sym (c j) := by
          intro j
          rw [hc]; dsimp only; split
          · exact P_sym M w h1 j
          · exact Or.inl rfl
        set v := P (· * ·) M c with hv
        have hvs : ∀ j, Sym (v j) := P_sym M c hcs
        refine ⟨fun k => if k < 2 ^ M then w k else v (k - 2 ^ M), fun k => ?_, fun k hk => ?_, ?_, fun j hj hf => ?_⟩
        · dsimp only; split
          · exact h1 k
          · exact hvs _
        · dsimp only; rw [if_pos (by omega)]; exact h2 k hk
        · dsimp only; rw [if_pos hlow]; exact h3
        · have hR : ∀ j, j < 2 ^ M → P (· * ·) M (fun t => (fun k => if k < 2 ^ M then w k else v (k - 2 ^ M)) (2 ^ M + t)) j = c j := by
            intro j hj
            rw [P_congr' (v := v) (fun t ht => ?_) hj, hv, P_invol M c (fun t => (hcs t).sq) j hj]
            dsimp only; rw [if_neg (by omega), Nat.add_sub_cancel_left]
          have hLw : ∀ j, j < 2 ^ M → P (· * ·) M (fun k => if k < 2 ^ M then w k else v (k - 2 ^ M)) j = P (· * ·) M w j :=
            fun j hj => P_congr' (fun t ht => by rw [if_pos ht]) hj
          by_cases hj' : j < 2 ^ M
          · rw [P_low _ hj', hR j hj', hLw j hj', hc]
            dsimp only
            split
            · exact (P_sym M w h1 j).sq
            · rename_i h
              rw [mul_one]
              exact h4 j hj' (by rw [g1 j hj', hf]; simpa using h)
          · obtain ⟨t, rfl⟩ : ∃ t, j = 2 ^ M + t := ⟨j - 2 ^ M, by omega⟩
            rw [P_high _ (by omega), hR t (by omega), hc]
            dsimp only
            rw [hf]; rfl
      · rintro ⟨w, h1, h2, h3, h4⟩
        refine ⟨w, h1, h2, h3, fun j hj hf => ?_⟩
        rw [g1 j hj, Bool.or_eq_false_iff] at hf
        have q1 := h4 j (by omega) hf.1
        have q2 := h4 (2 ^ M + j) (by omega) hf.2
        rw [P_high _ hj] at q2
        rw [P_low _ hj, q2, mul_one] at q1
        exact q1
    · obtain ⟨t, rfl⟩ : ∃ t, i = 2 ^ M + t := ⟨i - 2 ^ M, by omega⟩
      have ht : t < 2 ^ M := by omega
      rw [List.getD_append_right _ _ _ _ (by rw [lostL_length M _ o1]; omega), lostL_length M _ o1, Nat.add_sub_cancel_left, ih _ t o2 ht]
      constructor
      · rintro ⟨w, h1, h2, h3, h4⟩
        refine ⟨fun k => if k < 2 ^ M then 1 else w (k - 2 ^ M), fun k => ?_, fun k hk => ?_, ?_, fun j hj hf => ?_⟩
        · dsimp only; split
          · exact Or.inl rfl
          · exact h1 _
        · dsimp only; split
          · rfl
          · exact h2 _ (by omega)
        · dsimp only; rw [if_neg (by omega), Nat.add_sub_cancel_left]; exact h3
        · have hR : ∀ j, j < 2 ^ M → P (· * ·) M (fun t => (fun k => if k < 2 ^ M then (1 : Int) else w (k - 2 ^ M)) (2 ^ M + t)) j = P (· * ·) M w j := by
            intro j hj
            refine P_congr' (fun t ht => ?_) hj
            dsimp only; rw [if_neg (by omega), Nat.add_sub_cancel_left]
          by_cases hj' : j < 2 ^ M
          · rw [P_low _ hj', hR j hj', P_ones M (fun k hk => by rw [if_pos hk]) hj', one_mul]
            exact h4 j hj' (by rw [g2 j hj', hf]; rfl)
          · obtain ⟨s, rfl⟩ : ∃ s, j = 2 ^ M + s := ⟨j - 2 ^ M, by omega⟩
            rw [P_high _ (by omega), hR s (by omega)]
            exact h4 s (by omega) (by rw [g2 s (by omega), hf, Bool.and_false])
      · rintro ⟨w, h1, h2, h3, h4⟩
        refine ⟨fun k => w (2 ^ M + k), fun k => h1 _, fun k hk => h2 _ (by omega), h3, fun j hj hf => ?_⟩
        rw [g2 j hj, Bool.and_eq_false_iff] at hf
        rcases hf with hf | hf
        · have q1 := h4 j (by omega) hf
          rwa [P_low _ hj, P_ones M (fun k hk => h2 k (by omega)) hj, one_mul] at q1
        · have q2 := h4 (2 ^ M + j) (by omega) hf
          rwa [P_high _ hj] at q2

end Verif.Polar
