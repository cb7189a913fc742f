import Verif.LDPC.Mk
import Verif.Rotate.Props
/- `bad` decides exactly whether some check of the code is violated. -/
namespace Verif.LDPC
open Verif.RS (sb)
open Verif.PolarHelper (t8 sgn vsign)
open Verif.Rotate (rotate)

/-- The data bits held in the registers. -/
def dOf (C : Cfg) (msg : List Reg) (x : Nat) : Int :=
  (msg.getD (C.W * (x / C.T.M) + x % C.T.M % C.W) []).getD (x % C.T.M / C.W) 0

/-- The parity bits held in the registers. -/
def pOf (C : Cfg) (pty : List Reg) (c : Nat) : Int :=
  (pty.getD (C.W * (c % C.T.q) + c / C.T.q % C.W) []).getD (c / C.T.q / C.W) 0

/-- Registers of the right sizes. -/
structure Shape (C : Cfg) (msg pty : List Reg) : Prop where
  hm : msg.length = C.MSG
  hp : pty.length = C.PTY
  hmr : ∀ r ∈ msg, r.length = C.S
  hpr : ∀ r ∈ pty, r.length = C.S

theorem divmod_mul {W a b : Nat} (hb : b < W) : (W * a + b) / W = a ∧ (W * a + b) % W = b :=
  ⟨by rw [Nat.mul_add_div (by omega), Nat.div_eq_of_lt hb, Nat.add_zero], by rw [Nat.mul_add_mod, Nat.mod_eq_of_lt hb]⟩

theorem dOf_at {C : Cfg} (h : C.WF) (msg : List Reg) (r n b : Nat) (hn : n < C.D) (hb : b < C.W) :
    dOf C msg (C.T.M * r + (C.W * n + b)) = (msg.getD (C.W * r + b) []).getD n 0 := by
  have h1 : C.W * n + b < C.T.M := by
    have : C.W * n + C.W ≤ C.W * C.D := by rw [← Nat.mul_succ]; exact Nat.mul_le_mul_left _ hn
    rw [h.hDM]; omega
  obtain ⟨e1, e2⟩ := divmod_mul (a := r) h1
  obtain ⟨e3, e4⟩ := divmod_mul (a := n) hb
  unfold dOf
  rw [e1, e2, e3, e4]

theorem pOf_at {C : Cfg} (pty : List Reg) (i n b : Nat) (hi : i < C.T.q) (hb : b < C.W) :
    pOf C pty (C.T.q * (C.W * n + b) + i) = (pty.getD (C.W * i + b) []).getD n 0 := by
  obtain ⟨e1, e2⟩ := divmod_mul (a := C.W * n + b) hi
  obtain ⟨e3, e4⟩ := divmod_mul (a := n) hb
  unfold pOf
  rw [e1, e2, e3, e4]

theorem rotate_neg (D : Nat) (ret0 a : Reg) (s : Nat) (hs : s < D) (hr : D ≤ ret0.length) (ha : D ≤ a.length) :
    Ok (rotate D ret0 a (-(s : Int))) fun r => r.length = ret0.length ∧ ∀ n < D, r.getD n 0 = a.getD ((n + s) % D) 0 := by
  by_cases h0 : s = 0
  · subst h0
    obtain ⟨r, h1, h2, h3, _⟩ := Rotate.rotate_ok D ret0 a 0 (by omega) hr ha
    refine ⟨r, by simpa using h1, h2, fun n hn => ?_⟩
    have := (Rotate.isRotation_iff (by omega)).1 h3 n hn
    rw [List.getD_eq_getElem?_getD, this, List.getD_eq_getElem?_getD]
    simp
  · obtain ⟨r, h1, h2, h3, _⟩ := Rotate.rotate_ok D ret0 a (D - s) (by omega) hr ha
    have hn : rotate D ret0 a (-(s : Int)) = rotate D ret0 a ((D - s : Nat) : Int) := by
      rw [Rotate.rotate_norm _ _ _ _ (by omega)]
      unfold Rotate.norm
      rw [if_pos (by omega)]
      congr 1
      omega
    refine ⟨r, by rw [hn]; exact h1, h2, fun n hn => ?_⟩
    have := (Rotate.isRotation_iff (by omega)).1 h3 n hn
    rw [List.getD_eq_getElem?_getD, this, List.getD_eq_getElem?_getD, show n + D - (D - s) = n + s by omega]

theorem rotate_pos (D : Nat) (ret0 a : Reg) (s : Nat) (hs : s ≤ D) (hr : D ≤ ret0.length) (ha : D ≤ a.length) :
    Ok (rotate D ret0 a (s : Int)) fun r => r.length = ret0.length ∧ ∀ n < D, r.getD ((n + s) % D) 0 = a.getD n 0 := by
  obtain ⟨r, h1, h2, h3, _⟩ := Rotate.rotate_ok D ret0 a s hs hr ha
  refine ⟨r, h1, h2, fun n hn => ?_⟩
  have := h3 n hn
  rw [← Nat.cast_add, ← Int.natCast_mod, Int.toNat_natCast] at this
  rw [List.getD_eq_getElem?_getD, this, List.getD_eq_getElem?_getD]

/-- The variable on link `k` of check `q t + i`: the data bits of the entries `E`, then the parity bit, then the previous parity
bit, which is the constant 127 for check 0. -/
def linkVal (T : Table) (d p : Nat → Int) (E : List (Nat × Nat)) (i t k : Nat) : Int :=
  if k < E.length then d (bitAt T t (E.getD k (0, 0)))
  else if k = E.length then p (T.q * t + i)
  else if T.q * t + i = 0 then 127 else p (T.q * t + i - 1)

theorem getD_mem_len {l : List Reg} {S k : Nat} (h : ∀ r ∈ l, r.length = S) (hk : k < l.length) : (l.getD k []).length = S := by
  rw [← getElem_eq_getD hk]; exact h _ (List.getElem_mem _)

theorem bitAt_split {C : Cfg} (h : C.WF) (e : Nat × Nat) (n j : Nat) :
    bitAt C.T (C.W * n + j) e = C.T.M * e.1 + (C.W * ((n + (sh C.T e + j) % C.T.M / C.W) % C.D) + (sh C.T e + j) % C.T.M % C.W) := by
  unfold bitAt
  congr 1
  have hW := h.hW
  set s := (sh C.T e + j) % C.T.M with hs
  have e1 : (sh C.T e + (C.W * n + j)) % C.T.M = (C.W * n + s) % C.T.M := by
    rw [hs, Nat.add_mod_mod]
    congr 1
    ring
  rw [e1]
  have e2 : C.W * n + s = C.W * (n + s / C.W) + s % C.W := by
    have := Nat.div_add_mod s C.W
    rw [Nat.mul_add]; omega
  rw [e2, h.hDM, Nat.mod_mul, Nat.mul_add_mod, Nat.mod_mod, Nat.mul_add_div hW, Nat.div_eq_of_lt (Nat.mod_lt _ hW), Nat.add_zero]
  omega

theorem slice_get {C : Cfg} {loc : List Loc} {i j : Nat} {E : List (Nat × Nat)} (hs : Slice C loc i j E) (k : Nat) (hk : k < E.length)
    (hl : lo0 C i j + (C.T.ent i).length ≤ loc.length) : rd loc (lo0 C i j + k) = some (locOf C j E[k]) := by
  have h1 := congrArg (fun l => l[k]?) hs.2.1
  have hlen : E.length = (C.T.ent i).length := hs.1.length_eq
  rw [List.getElem?_take_of_lt (by omega), List.getElem?_drop, List.getElem?_map, List.getElem?_eq_getElem hk] at h1
  exact h1

theorem link_ok {C : Cfg} (h : C.WF) {X : Dec} (hX : DecOK C X) {msg pty : List Reg} (hsh : Shape C msg pty) {i j : Nat}
    (hi : i < C.T.q) (hj : j < C.W) {E : List (Nat × Nat)} (hE : Slice C X.loc i j E) (k : Nat) (hk : k < E.length + 2) :
    Ok (link C X msg pty (lo0 C i j) E.length i j k) fun v => v.length = C.S ∧ ∀ n < C.D,
      v.getD n 0 = linkVal C.T (dOf C msg) (pOf C pty) E i (C.W * n + j) k := by
  have hW := h.hW
  have hD := h.hD
  have hDS := h.hDS
  have hix : ∀ a b, a < C.T.q → b < C.W → C.W * a + b < C.PTY := by
    intro a b ha hb
    rw [h.pty_eq]
    have : C.W * a + C.W ≤ C.W * C.T.q := by rw [← Nat.mul_succ]; exact Nat.mul_le_mul_left _ ha
    omega
  have hreg : ∀ a b, a < C.T.q → b < C.W → Ok (rd pty (C.W * a + b)) fun v => v.length = C.S ∧
      ∀ n, v.getD n 0 = pOf C pty (C.T.q * (C.W * n + b) + a) := by
    intro a b ha hb
    have h1 := hix a b ha hb
    have h2 : C.W * a + b < pty.length := by rw [hsh.hp]; exact h1
    refine Ok.rdD [] h2 ⟨getD_mem_len hsh.hpr h2, fun n => ?_⟩
    rw [pOf_at pty a n b ha hb]
  unfold link
  by_cases h1 : k < E.length
  · rw [if_pos h1]
    have hlo := lo0_le h hi hj
    rw [slice_get hE k h1 (by rw [hX.hl]; exact hlo), sb]
    have hmem : E[k] ∈ C.T.entries := (ent_mem (n := i) (hE.1.subset (List.getElem_mem h1))).1
    obtain ⟨hb1, hb2⟩ := locOf_bound h hmem j
    have hb1' : (locOf C j E[k]).off < msg.length := by rw [hsh.hm]; exact hb1
    rw [rd_of_lt hb1', sb, getElem_eq_getD _ []]
    have hreglen := getD_mem_len hsh.hmr hb1'
    refine Ok.mono (rotate_neg C.D C.junk _ _ hb2 (by rw [h.hjunk]; exact hDS) (by rw [hreglen]; exact hDS)) ?_
    rintro v ⟨g1, g2⟩
    refine ⟨g1.trans h.hjunk, fun n hn => ?_⟩
    rw [g2 n hn]
    unfold linkVal
    rw [if_pos h1, ← getElem_eq_getD h1, bitAt_split h, dOf_at h _ _ _ _ (Nat.mod_lt _ (by omega)) (Nat.mod_lt _ hW)]
    rfl
  · rw [if_neg h1]
    by_cases h2 : k = E.length
    · rw [if_pos h2]
      refine Ok.mono (hreg i j hi hj) fun v hv => ⟨hv.1, fun n hn => ?_⟩
      unfold linkVal
      rw [if_neg h1, if_pos h2, hv.2]
    · rw [if_neg h2]
      by_cases h3 : i ≠ 0
      · rw [if_pos h3]
        refine Ok.mono (hreg (i - 1) j (by omega) hj) fun v hv => ⟨hv.1, fun n hn => ?_⟩
        unfold linkVal
        rw [if_neg h1, if_neg h2, hv.2, if_neg (by omega)]
        congr 1
        omega
      · rw [if_neg h3]
        have hi0 : i = 0 := by omega
        subst hi0
        by_cases h4 : j ≠ 0
        · rw [if_pos h4, show C.W * (C.T.q - 1) + j - 1 = C.W * (C.T.q - 1) + (j - 1) by omega]
          refine Ok.mono (hreg (C.T.q - 1) (j - 1) (by omega) (by omega)) fun v hv => ⟨hv.1, fun n hn => ?_⟩
          unfold linkVal
          have hjj : C.W * n + j = (C.W * n + (j - 1)) + 1 := by omega
          have hne : C.T.q * (C.W * n + j) = C.T.q * (C.W * n + (j - 1)) + C.T.q := by rw [hjj, Nat.mul_succ]
          rw [if_neg h1, if_neg h2, hv.2, if_neg (by omega)]
          congr 1
          omega
        · rw [if_neg h4]
          have hj0 : j = 0 := by omega
          subst hj0
          have hpty := h.pty_eq
          have hlast : C.W * (C.T.q - 1) + (C.W - 1) = C.PTY - 1 := by
            rw [hpty]
            have : C.T.q = C.T.q - 1 + 1 := by omega
            rw [this, Nat.mul_succ]; simp only [Nat.add_sub_cancel]; omega
          have hpos : 0 < C.PTY := by rw [hpty]; exact Nat.mul_pos hW h.hT.hq
          have hrdz : rdZ pty ((C.PTY : Int) - 1) = rd pty (C.W * (C.T.q - 1) + (C.W - 1)) := by
            unfold rdZ rd
            rw [if_neg (by omega), hlast]
            congr 1
            omega
          rw [hrdz]
          refine Ok.bind' (hreg (C.T.q - 1) (C.W - 1) (by omega) (by omega)) fun v hv => ?_
          refine Ok.bind' (rotate_pos C.D C.junk v 1 (by omega) (by rw [h.hjunk]; exact hDS) (by rw [hv.1]; exact hDS)) fun r hr => ?_
          have hrl : r.length = C.S := hr.1.trans h.hjunk
          refine Ok.wr (by omega) ⟨by simpa using hrl, fun n hn => ?_⟩
          rw [getD_set]
          unfold linkVal
          rw [if_neg h1, if_neg h2]
          by_cases hn0 : n = 0
          · subst hn0
            rw [if_pos ⟨rfl, by omega⟩, if_pos (by simp)]
          · rw [if_neg (by omega)]
            have := hr.2 (n - 1) (by omega)
            rw [show n - 1 + 1 = n by omega, Nat.mod_eq_of_lt hn] at this
            have hWn : C.W * n = C.W * (n - 1) + (C.W - 1) + 1 := by
              have : C.W * n = C.W * (n - 1 + 1) := by rw [show n - 1 + 1 = n by omega]
              rw [this, Nat.mul_succ]; omega
            rw [this, hv.2, Nat.add_zero, Nat.add_zero, hWn, Nat.mul_succ, if_neg (by have := h.hT.hq; omega)]
            congr 1
            have := h.hT.hq
            omega

theorem sgn_eq (x : Int) : sgn x = x.sign := by
  unfold sgn
  rcases lt_trichotomy x 0 with h | h | h
  · rw [if_neg (by omega), if_pos h, Int.sign_eq_neg_one_of_neg h]; rfl
  · subst h; rfl
  · rw [if_pos h, if_neg (by omega), Int.sign_eq_one_of_pos h]; rfl

/-- `x` is `1`, `0` or `-1`. -/
def Tri (x : Int) : Prop := x = 1 ∨ x = 0 ∨ x = -1

theorem Tri.sign (x : Int) : Tri x.sign := by
  rcases lt_trichotomy x 0 with h | h | h
  · exact Or.inr (Or.inr (Int.sign_eq_neg_one_of_neg h))
  · subst h; exact Or.inr (Or.inl rfl)
  · exact Or.inl (Int.sign_eq_one_of_pos h)

theorem Tri.vsign {a b : Int} (ha : Tri a) : vsign a b = a * b.sign ∧ Tri (vsign a b) := by
  unfold PolarHelper.vsign
  rw [sgn_eq]
  rcases ha with rfl | rfl | rfl <;> rcases Tri.sign b with h | h | h <;> rw [h] <;> simp [t8, Tri]

theorem getD_zipWith {α β γ : Type} (f : α → β → γ) (a : List α) (b : List β) (n : Nat) (da : α) (db : β) (dc : γ) (ha : n < a.length)
    (hb : n < b.length) : (List.zipWith f a b).getD n dc = f (a.getD n da) (b.getD n db) := by
  rw [← getElem_eq_getD (by simp; omega), List.getElem_zipWith, getElem_eq_getD ha da, getElem_eq_getD hb db]

theorem take_sum_succ (f : Nat → Int) (k : Nat) : ((List.range (k + 1)).map f).prod = ((List.range k).map f).prod * f k := by
  rw [List.range_succ, List.map_append, List.prod_append]; simp

theorem cnvOf_ok {C : Cfg} (h : C.WF) {X : Dec} (hX : DecOK C X) {msg pty : List Reg} (hsh : Shape C msg pty) {i j : Nat}
    (hi : i < C.T.q) (hj : j < C.W) {E : List (Nat × Nat)} (hE : Slice C X.loc i j E) :
    Ok (cnvOf C X msg pty (lo0 C i j) E.length i j) fun v => v.length = C.S ∧ ∀ n < C.D, Tri (v.getD n 0) ∧
      v.getD n 0 = ((List.range (E.length + 2)).map fun k =>
        (linkVal C.T (dOf C msg) (pOf C pty) E i (C.W * n + j) k).sign).prod := by
  unfold cnvOf
  refine forUp_inv (fun k (v : Reg) => v.length = C.S ∧ ∀ n < C.D, Tri (v.getD n 0) ∧ v.getD n 0 = ((List.range k).map fun k =>
    (linkVal C.T (dOf C msg) (pOf C pty) E i (C.W * n + j) k).sign).prod) (Nat.zero_le _) ?_ ?_
  · refine ⟨by simp, fun n hn => ?_⟩
    have hn' : n < C.S := lt_of_lt_of_le hn h.hDS
    have : (List.replicate C.S (1 : Int)).getD n 0 = 1 := by
      rw [← getElem_eq_getD (by simpa using hn')]; simp
    rw [this]
    exact ⟨Or.inl rfl, rfl⟩
  · rintro k v _ hk ⟨h1, h2⟩
    refine Ok.bind' (link_ok h hX hsh hi hj hE k hk) fun u hu => ?_
    refine Ok.some ⟨by simp [h1, hu.1], fun n hn => ?_⟩
    have hn' : n < C.S := lt_of_lt_of_le hn h.hDS
    rw [getD_zipWith _ _ _ _ 0 0 0 (by omega) (by omega)]
    have hv := Tri.vsign (b := u.getD n 0) (h2 n hn).1
    refine ⟨hv.2, ?_⟩
    rw [hv.1, (h2 n hn).2, hu.2 n hn, take_sum_succ]

theorem prod_links (T : Table) (d p : Nat → Int) (E : List (Nat × Nat)) (i t : Nat) :
    ((List.range (E.length + 2)).map fun k => (linkVal T d p E i t k).sign).prod =
      (((E.map (bitAt T t)).map fun x => (d x).sign).prod * (p (T.q * t + i)).sign) *
        (if T.q * t + i = 0 then 1 else (p (T.q * t + i - 1)).sign) := by
  rw [take_sum_succ, take_sum_succ]
  congr 1
  · congr 1
    · congr 1
      apply List.ext_getElem
      · simp
      · intro k h1 h2
        simp only [List.length_map, List.length_range] at h1
        simp only [List.getElem_map, List.getElem_range]
        unfold linkVal
        rw [if_pos h1, ← getElem_eq_getD h1]
    · unfold linkVal
      rw [if_neg (by omega), if_pos rfl]
  · unfold linkVal
    rw [if_neg (by omega), if_neg (by omega)]
    split
    · rfl
    · rfl

theorem links_check {C : Cfg} (h : C.WF) {X : Dec} (d p : Nat → Int) {i j n : Nat}
    (hi : i < C.T.q) (hj : j < C.W) (hn : n < C.D) {E : List (Nat × Nat)} (hE : Slice C X.loc i j E) :
    ((List.range (E.length + 2)).map fun k => (linkVal C.T d p E i (C.W * n + j) k).sign).prod = 1 ↔
      C.T.checkOk d p (C.T.q * (C.W * n + j) + i) := by
  have ht : C.W * n + j < C.T.M := by
    have : C.W * n + C.W ≤ C.W * C.D := by rw [← Nat.mul_succ]; exact Nat.mul_le_mul_left _ hn
    rw [h.hDM]; omega
  unfold Table.checkOk
  rw [prod_links, feeds_eq h.hT ht hi, ((hE.1.map (bitAt C.T (C.W * n + j))).map fun x => (d x).sign).prod_eq]

theorem vclez_ne {x : Int} (hx : Tri x) : vclez x ≠ 0#8 ↔ x ≠ 1 := by
  rcases hx with rfl | rfl | rfl <;> simp [vclez, msk]

theorem or_ne (a b : BitVec 8) : a ||| b ≠ 0#8 ↔ a ≠ 0#8 ∨ b ≠ 0#8 := by
  rw [ne_eq, BitVec.or_eq_zero_iff]
  tauto

theorem anyBad_ok (C : Cfg) (res : List (BitVec 8)) (hl : C.D ≤ res.length) :
    Ok (anyBad C res) fun b => b = true ↔ ∃ n < C.D, res.getD n 0#8 ≠ 0#8 := by
  unfold anyBad
  refine forUp_inv (fun m b => b = true ↔ ∃ n < m, res.getD n 0#8 ≠ 0#8) (Nat.zero_le _) (by simp) ?_
  rintro n b _ hn hb
  by_cases hbt : b = true
  · subst hbt
    rw [if_pos rfl]
    refine Ok.some ⟨fun _ => ?_, fun _ => rfl⟩
    obtain ⟨m, hm, hm2⟩ := hb.1 rfl
    exact ⟨m, by omega, hm2⟩
  · rw [if_neg hbt, rd_of_lt (by omega), sb, getElem_eq_getD _ 0#8]
    refine Ok.some ?_
    rw [bne_iff_ne]
    constructor
    · intro h1; exact ⟨n, by omega, h1⟩
    · rintro ⟨m, hm, hm2⟩
      by_cases hmn : m = n
      · subst hmn; exact hm2
      · exact absurd (hb.2 ⟨m, by omega, hm2⟩) hbt

theorem bad_ok {C : Cfg} (h : C.WF) {X : Dec} (hX : DecOK C X) {msg pty : List Reg} (hsh : Shape C msg pty) :
    Ok (bad C X msg pty) fun b => b = true ↔ ∃ c < C.T.R, ¬ C.T.checkOk (dOf C msg) (pOf C pty) c := by
  have hDS := h.hDS
  set d := dOf C msg with hd
  set p := pOf C pty with hp
  unfold bad
  refine Ok.bind' (P := fun s => s.2 = true ↔ ∃ c < C.T.R, ¬ C.T.checkOk d p c) ?_ (fun s hs => Ok.some hs)
  refine Ok.mono (forUp_inv (fun i (s : Nat × Bool) => (s.2 = false → s.1 = lo0 C i 0) ∧
    (s.2 = true ↔ ∃ i' < i, ∃ j < C.W, ∃ n < C.D, ¬ C.T.checkOk d p (C.T.q * (C.W * n + j) + i'))) (Nat.zero_le _) ?_ ?_) ?_
  · exact ⟨fun _ => by simp [lo0, pre], by simp⟩
  · rintro i ⟨lo, b⟩ _ hi ⟨h1, h2⟩
    dsimp only at h1 h2 ⊢
    cases b with
    | true =>
      rw [if_pos rfl]
      refine Ok.some ⟨fun hh => (by simp at hh), fun _ => ?_, fun _ => rfl⟩
      obtain ⟨i', hi', hrest⟩ := h2.1 rfl
      exact ⟨i', by omega, hrest⟩
    | false =>
      rw [if_neg (by simp), h1 rfl]
      rw [rd_of_lt (by rw [hX.hl2]; exact hi), sb, getElem_eq_getD _ 0, hX.hc i hi]
      have hloop : Ok (forUp 0 C.W (lo0 C i 0, List.replicate C.S 0#8) fun j (r : Nat × List (BitVec 8)) => do
          let cnv ← cnvOf C X msg pty r.1 (C.T.ent i).length i j
          return (r.1 + (C.T.ent i).length, List.zipWith (· ||| ·) r.2 (cnv.map vclez)))
          fun r => r.1 = lo0 C (i + 1) 0 ∧ r.2.length = C.S ∧ ∀ n < C.D, r.2.getD n 0#8 ≠ 0#8 ↔
            ∃ j < C.W, ¬ C.T.checkOk d p (C.T.q * (C.W * n + j) + i) := by
        refine Ok.mono (forUp_inv (fun j (r : Nat × List (BitVec 8)) => r.1 = lo0 C i j ∧ r.2.length = C.S ∧
          ∀ n < C.D, r.2.getD n 0#8 ≠ 0#8 ↔ ∃ j' < j, ¬ C.T.checkOk d p (C.T.q * (C.W * n + j') + i)) (Nat.zero_le _) ?_ ?_) ?_
        · refine ⟨rfl, by simp, fun n hn => ?_⟩
          dsimp only
          have : (List.replicate C.S 0#8).getD n 0#8 = 0#8 := by
            rw [← getElem_eq_getD (by rw [List.length_replicate]; omega)]; simp
          rw [this]; simp
        · rintro j ⟨lo', res⟩ _ hj ⟨g1, g2, g3⟩
          dsimp only at g1 g2 g3 ⊢
          obtain ⟨E, hE⟩ := hX.hs i hi j hj
          have hlen : (C.T.ent i).length = E.length := hE.1.length_eq.symm
          rw [g1, hlen]
          refine Ok.bind' (cnvOf_ok h hX hsh hi hj hE) fun v hv => ?_
          refine Ok.some ⟨?_, by simp [g2, hv.1], fun n hn => ?_⟩
          · dsimp only
            unfold lo0
            rw [← hlen, Nat.add_mul, Nat.one_mul, Nat.add_assoc]
          · dsimp only
            have hn' : n < C.S := by omega
            rw [getD_zipWith _ _ _ _ 0#8 0#8 0#8 (by omega) (by rw [List.length_map]; omega), or_ne, g3 n hn]
            have e1 : (v.map vclez).getD n 0#8 = vclez (v.getD n 0) := by
              rw [← getElem_eq_getD (by rw [List.length_map]; omega), List.getElem_map, getElem_eq_getD _ 0]
            rw [e1, vclez_ne (hv.2 n hn).1, (hv.2 n hn).2, ne_eq, links_check h (X := X) _ _ hi hj hn hE]
            constructor
            · rintro (⟨j', hj', hh⟩ | hh)
              · exact ⟨j', by omega, hh⟩
              · exact ⟨j, by omega, hh⟩
            · rintro ⟨j', hj', hh⟩
              by_cases hjj : j' = j
              · subst hjj; exact Or.inr hh
              · exact Or.inl ⟨j', by omega, hh⟩
        · rintro ⟨lo', res⟩ ⟨g1, g2, g3⟩
          refine ⟨?_, g2, g3⟩
          rw [g1]; simp only [lo0, pre]
          rw [Nat.mul_add, Nat.zero_mul, Nat.add_zero]
      refine Ok.bind' hloop fun r hr => ?_
      refine Ok.bind' (anyBad_ok C r.2 (by rw [hr.2.1]; exact hDS)) fun b hb => ?_
      refine Ok.some ⟨fun _ => hr.1, ?_⟩
      dsimp only
      rw [hb]
      constructor
      · rintro ⟨n, hn, hh⟩
        obtain ⟨j, hj, h3⟩ := (hr.2.2 n hn).1 hh
        exact ⟨i, by omega, j, hj, n, hn, h3⟩
      · rintro ⟨i', hi', j, hj, n, hn, h3⟩
        by_cases hii : i' = i
        · subst hii
          exact ⟨n, hn, (hr.2.2 n hn).2 ⟨j, hj, h3⟩⟩
        · exact absurd (h2.2 ⟨i', by omega, j, hj, n, hn, h3⟩) (by simp)
  · rintro ⟨lo, b⟩ ⟨_, h2⟩
    dsimp only at h2 ⊢
    rw [h2]
    have hW := h.hW
    have hq := h.hT.hq
    constructor
    · rintro ⟨i, hi, j, hj, n, hn, h3⟩
      refine ⟨_, ?_, h3⟩
      have ht : C.W * n + j < C.T.M := by
        have : C.W * n + C.W ≤ C.W * C.D := by rw [← Nat.mul_succ]; exact Nat.mul_le_mul_left _ hn
        rw [h.hDM]; omega
      have : C.T.q * (C.W * n + j) + C.T.q ≤ C.T.q * C.T.M := by rw [← Nat.mul_succ]; exact Nat.mul_le_mul_left _ ht
      rw [h.hT.hR]; omega
    · rintro ⟨c, hc, h3⟩
      have ht : c / C.T.q < C.W * C.D := by
        rw [Nat.div_lt_iff_lt_mul hq, ← h.hDM, Nat.mul_comm, ← h.hT.hR]; exact hc
      refine ⟨c % C.T.q, Nat.mod_lt _ hq, c / C.T.q % C.W, Nat.mod_lt _ hW, c / C.T.q / C.W, ?_, ?_⟩
      · rw [Nat.div_lt_iff_lt_mul hW, Nat.mul_comm]; exact ht
      · rw [Nat.div_add_mod, Nat.div_add_mod]; exact h3

end Verif.LDPC
