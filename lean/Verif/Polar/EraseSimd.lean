import Verif.Polar.EraseProof
/- Registers of codewords: every lane by itself. -/
namespace Verif.Polar
open PolarHelper (t8 I8 sgn vsign vmin vmax vqabs vqadd vsignum prodV maddV qmulV)
open Verif (Ok)
variable {τ σ : Type}

/-- A map between the values of two instances of the decoder that commutes with all their operations. -/
structure PHom (A : PH τ) (B : PH σ) (h : τ → σ) : Prop where
  one : h A.one = B.one
  signum : ∀ a, h (A.signum a) = B.signum (h a)
  qmul : ∀ a b, h (A.qmul a b) = B.qmul (h a) (h b)
  prod : ∀ a b, h (A.prod a b) = B.prod (h a) (h b)
  madd : ∀ a b c, h (A.madd a b c) = B.madd (h a) (h b) (h c)

section
variable {A : PH τ} {B : PH σ} {h : τ → σ}

theorem zipWith_hom {f : τ → τ → τ} {g : σ → σ → σ} (hf : ∀ a b, h (f a b) = g (h a) (h b)) (a b : List τ) :
    (List.zipWith f a b).map h = List.zipWith g (a.map h) (b.map h) := by
  rw [List.map_zipWith, List.zipWith_map]
  congr 1
  funext x y
  exact hf x y

theorem T_hom (P : PHom A B h) : ∀ (M : Nat) (l : List τ), (T A.qmul M l).map h = T B.qmul M (l.map h) := by
  intro M
  induction M with
  | zero => intro l; rfl
  | succ M ih =>
    intro l
    rw [T, T, List.map_append, zipWith_hom P.qmul, ih, ih, List.map_take, List.map_drop]

/-- What the result of a node becomes. -/
def mapR (h : τ → σ) (r : Msg τ × List τ × Unit) : Msg σ × List σ × Unit := (⟨r.1.msg.map h, r.1.p⟩, r.2.1.map h, ())

theorem zip3_hom (P : PHom A B h) (a b c : List τ) : (zip3 A.madd a b c).map h = zip3 B.madd (a.map h) (b.map h) (c.map h) := by
  unfold zip3
  rw [List.map_zipWith, List.zip_map, List.zipWith_map]
  congr 1
  funext x y
  exact P.madd _ _ _

theorem put_hom (a : List τ) (o : Nat) (l : List τ) : (put a o l).map h = put (a.map h) o (l.map h) := by
  unfold put
  simp [List.map_take, List.map_drop]

theorem child_hom (P : PHom A B h) (M : Nat)
    (ih : ∀ (f : List Bool) (x : Msg τ) (s : List τ), treeF (scWalk B) (scN B) M f ⟨x.msg.map h, x.p⟩ (s.map h) = (treeF (scWalk A) (scN A) M f x s).map (mapR h))
    (f : List Bool) (x : Msg τ) (s : List τ) :
    childF (scWalk B) (scN B) (fun _ => treeF (scWalk B) (scN B) M) M f ⟨x.msg.map h, x.p⟩ (s.map h) =
      (childF (scWalk A) (scN A) (fun _ => treeF (scWalk A) (scN A) M) M f x s).map (mapR h) := by
  have hsg : (s.map h).map B.signum = (s.map A.signum).map h := by
    rw [List.map_map, List.map_map]
    exact List.map_congr_left fun a _ => (P.signum a).symm
  unfold childF
  by_cases c0 : M ≤ 5 ∧ f.all (fun b => b) = true
  · rw [if_pos c0, if_pos c0]
    simp [scN, mapR, P.one]
  rw [if_neg c0, if_neg c0]
  have sA : (scWalk A).sc1 = true := rfl
  have sB : (scWalk B).sc1 = true := rfl
  rw [sA, sB]
  by_cases c1 : (M = 0 ∨ M ≤ 5 ∧ true = true) ∧ f.all (fun b => !b) = true
  · rw [if_pos c1, if_pos c1]
    simp only [scN, List.length_map]
    by_cases c2 : x.p + 2 ^ M ≤ x.msg.length
    · rw [if_pos c2, if_pos c2, hsg, ← T_hom P, ← put_hom]
      rfl
    · rw [if_neg c2, if_neg c2]; rfl
  · rw [if_neg c1, if_neg c1]
    exact ih f x s

theorem tree_hom (P : PHom A B h) : ∀ (M : Nat) (f : List Bool) (x : Msg τ) (s : List τ),
    treeF (scWalk B) (scN B) M f ⟨x.msg.map h, x.p⟩ (s.map h) = (treeF (scWalk A) (scN A) M f x s).map (mapR h) := by
  intro M
  induction M with
  | zero => intro f x s; rfl
  | succ M ih =>
    intro f x s
    have hid : ∀ (γ : Type) (l : List γ), l.map (fun v => v) = l := fun γ l => List.map_id l
    rw [treeF, treeF]
    simp only [scWalk, hid]
    have e1 : List.zipWith B.prod ((s.map h).take (2 ^ M)) ((s.map h).drop (2 ^ M)) = (List.zipWith A.prod (s.take (2 ^ M)) (s.drop (2 ^ M))).map h := by
      rw [zipWith_hom P.prod, List.map_take, List.map_drop]
    rw [e1]
    have c1 := child_hom P M ih (f.take (2 ^ M)) x (List.zipWith A.prod (s.take (2 ^ M)) (s.drop (2 ^ M)))
    simp only [scWalk] at c1
    rw [c1]
    rcases childF _ (scN A) _ M (f.take (2 ^ M)) x (List.zipWith A.prod (s.take (2 ^ M)) (s.drop (2 ^ M))) with _ | ⟨l1, l2, ⟨⟩⟩
    · rfl
    · simp only [Option.map_some, Option.bind_eq_bind, Option.bind_some, mapR]
      have e2 : zip3 B.madd (l2.map h) ((s.map h).take (2 ^ M)) ((s.map h).drop (2 ^ M)) = (zip3 A.madd l2 (s.take (2 ^ M)) (s.drop (2 ^ M))).map h := by
        rw [zip3_hom P, List.map_take, List.map_drop]
      rw [e2]
      have c2 := child_hom P M ih (f.drop (2 ^ M)) l1 (zip3 A.madd l2 (s.take (2 ^ M)) (s.drop (2 ^ M)))
      simp only [scWalk] at c2
      rw [c2]
      rcases childF _ (scN A) _ M (f.drop (2 ^ M)) l1 (zip3 A.madd l2 (s.take (2 ^ M)) (s.drop (2 ^ M))) with _ | ⟨r1, r2, ⟨⟩⟩
      · rfl
      · simp only [Option.map_some, Option.bind_some, mapR]
        show some _ = Option.map _ (some _)
        rw [Option.map_some]
        simp only [mapR, List.map_append, zipWith_hom P.qmul]

/-- The decoder commutes with the map. -/
theorem scDecode_hom (P : PHom A B h) {MAX_M : Nat} {soft hard message codeword : List τ} {soft' hard' : List σ} {frozen : List Nat} {level : Nat} (h5 : 5 ≤ level)
    (h20 : level ≤ 20) (hM : level ≤ MAX_M) (hsl : soft.length = 2 * 2 ^ MAX_M) (hhl : hard.length = 2 ^ MAX_M) (hsl' : soft'.length = 2 * 2 ^ MAX_M)
    (hhl' : hard'.length = 2 ^ MAX_M) (hc : 2 ^ level ≤ codeword.length) (hf : 2 ^ level ≤ 32 * frozen.length) (hw : ∀ w ∈ frozen, w < 2 ^ 32)
    (hm : rank (fbit frozen) (2 ^ level) ≤ message.length) :
    scDecode B MAX_M soft' hard' (message.map h) (codeword.map h) frozen level = (scDecode A MAX_M soft hard message codeword frozen level).map (List.map h) := by
  obtain ⟨k, rfl⟩ : ∃ k, level = k + 1 := ⟨level - 1, by omega⟩
  obtain ⟨r, hr, -⟩ := sc_total_node A k (sc_total A k) (fbits frozen 0 (2 ^ (k + 1))) ⟨message, 0⟩ (codeword.take (2 ^ (k + 1)))
    (by simp [fbits]) (by simp [hc]) (by rw [filter_count]; simpa using hm)
  have hr' := tree_hom P (k + 1) (fbits frozen 0 (2 ^ (k + 1))) ⟨message, 0⟩ (codeword.take (2 ^ (k + 1)))
  rw [hr, Option.map_some, List.map_take] at hr'
  rw [scDecode_tree A.one h5 h20 hM hsl hhl hc hf hw hr, scDecode_tree B.one h5 h20 hM hsl' hhl' (by simpa using hc) hf hw hr']
  rfl
end

/-! ### One lane of a register of `int8_t` -/

/-- The operations on one lane. -/
def phL : PH Int := ⟨1, vsignum, qmulV, prodV, maddV⟩

theorem lane_hom {W : Nat} (k : Fin W) : PHom (phV W) phL (fun x => x k) := ⟨rfl, fun _ => rfl, fun _ _ => rfl, fun _ _ => rfl, fun _ _ _ => rfl⟩

theorem lawsL : Laws phL Sym SignOf where
  one := Or.inl rfl
  q_hard x y hx hy := by
    show Sym (qmulV x y)
    rw [qmulV_sym hx hy]; exact hx.mul hy
  signum s x h := laws8.signum s x h
  prod a b x y hx hy ha hb := by
    show SignOf (prodV a b) x
    rw [PolarHelper.prodV_eq ha.1 hb.1]
    exact prod_sign hx hy (by rw [← qmulV_sym hx hy]; exact ha) hb
  madd a b x y hx hy ha hb := maddV_sign hx hy (by rw [← qmulV_sym hx hy]; exact ha) hb
  medial x y z w hx hy hz hw := by
    show qmulV (qmulV x y) (qmulV z w) = qmulV (qmulV x z) (qmulV y w)
    rw [qmulV_sym hx hy, qmulV_sym hz hw, qmulV_sym hx hz, qmulV_sym hy hw, qmulV_sym (hx.mul hy) (hz.mul hw), qmulV_sym (hx.mul hz) (hy.mul hw)]
    ring
  cancel x y hx hy := by
    show qmulV (qmulV x y) y = x
    rw [qmulV_sym hx hy, qmulV_sym (hx.mul hy) hy, mul_assoc, hy.sq, mul_one]
  one_one := by decide

theorem elawsL : ELaws phL Sym SignOf (· = 0) (· = 0) where
  toLaws := lawsL
  prod_l := by
    rintro a b y rfl hb
    have ib : I8 b := by rcases hb with rfl | hb; exacts [by unfold I8; omega, hb.1]
    show prodV 0 b = 0
    rw [PolarHelper.prodV_eq (by unfold I8; omega) ib]
    exact elaws8.prod_l 0 b y rfl hb
  prod_r := by
    rintro a b y rfl hb
    have ib : I8 a := by rcases hb with rfl | hb; exacts [by unfold I8; omega, hb.1]
    show prodV a 0 = 0
    rw [PolarHelper.prodV_eq ib (by unfold I8; omega)]
    exact elaws8.prod_r a 0 y rfl hb
  madd_l := by
    rintro a b x y hx hy rfl ⟨ib, hb⟩
    show SignOf (maddV x 0 b) y
    unfold maddV vmax vsign
    rw [show max (0 : Int) (-127) = 0 from rfl, mul_zero, show t8 0 = 0 from by decide]
    unfold vqadd
    rw [PolarHelper.t8_id (by omega) (by omega)]
    unfold SignOf I8 at *
    rcases hy with rfl | rfl <;> omega
  madd_r := by
    rintro a b x y hx hy ha rfl
    obtain ⟨ia, ha⟩ : SignOf a (x * y) := by rw [← qmulV_sym hx hy]; exact ha
    show SignOf (maddV x a 0) y
    have e : vsign (max a (-127)) x = x * max a (-127) := by
      unfold vsign
      unfold I8 at ia
      rcases hx with rfl | rfl
      · rw [show sgn 1 = 1 from rfl, PolarHelper.t8_id (by omega) (by omega)]
      · rw [show sgn (-1) = -1 from rfl, PolarHelper.t8_id (by omega) (by omega)]
    unfold maddV vmax
    rw [e]
    unfold vqadd
    rw [PolarHelper.t8_id (by omega) (by omega)]
    unfold SignOf I8 at *
    rcases hx with rfl | rfl <;> rcases hy with rfl | rfl <;> omega
  madd_e := by
    rintro a b x hx rfl rfl
    show maddV x 0 0 = 0
    rcases hx with rfl | rfl <;> decide
  signum_e := by rintro s rfl; show vsignum 0 = 0; decide
  z_l := by
    rintro a b rfl _
    show t8 (sgn b * 0) = 0
    rw [mul_zero]; decide
  z_r := by
    rintro a b rfl _
    show t8 (sgn 0 * a) = 0
    rw [show sgn 0 = 0 from rfl, zero_mul]; decide
  z_not := by rintro a rfl h; unfold Sym at h; omega

end Verif.Polar
