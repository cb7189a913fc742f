import Verif.LDPC.Walk
import Mathlib.Algebra.BigOperators.Group.List.Lemmas
/- The encoder. -/
namespace Verif.LDPC
open Verif.RS (sb)
open Verif.PolarHelper (t8)

/-- The shift of an entry in group 0 of the checks. -/
def sh (T : Table) (e : Nat × Nat) : Nat := (T.M - e.2 / T.q) % T.M

/-- The data bit of entry `e` in check `q j + n`. -/
def bitAt (T : Table) (j : Nat) (e : Nat × Nat) : Nat := T.M * e.1 + (sh T e + j) % T.M

theorem val_eq (T : Table) (e : Nat × Nat) : val T e = T.M * e.1 + sh T e := rfl

theorem sh_lt {T : Table} (hM : 0 < T.M) (e : Nat × Nat) : sh T e < T.M := Nat.mod_lt _ hM

theorem offShift_ok {T : Table} (hM : 0 < T.M) (pos : List Nat) (i : Nat) (E : List (Nat × Nat)) (hE : 0 < E.length)
    (hl : T.CNC * i + E.length ≤ pos.length) (hv : ∀ c, c < E.length → pos.getD (T.CNC * i + c) 0 = val T (E.getD c (0, 0))) :
    offShift T pos i E.length = some (E.map fun e => T.M * e.1, E.map (sh T)) := by
  unfold offShift
  rw [show assertUB (0 < E.length) = some () from if_pos hE, sb]
  have := forUp_inv (lo := 0) (hi := E.length) (s := (List.replicate E.length 0, List.replicate E.length 0))
    (f := fun c s => do
      let p ← rd pos (T.CNC * i + c)
      let shift ← wr s.2 c (p % T.M)
      let offset ← wr s.1 c (p - p % T.M)
      return (offset, shift))
    (fun c s => s.1.length = E.length ∧ s.2.length = E.length ∧ ∀ c', c' < c →
      s.1.getD c' 0 = T.M * (E.getD c' (0, 0)).1 ∧ s.2.getD c' 0 = sh T (E.getD c' (0, 0)))
    (Nat.zero_le _) ⟨by simp, by simp, fun c' h => by omega⟩ (by
      rintro c ⟨a, b⟩ _ hc ⟨h1, h2, h3⟩
      dsimp only at h1 h2 h3 ⊢
      rw [rd_of_lt (by omega), sb, wr_of_lt (by omega), sb, wr_of_lt (by omega), sb, getElem_eq_getD _ 0, hv c hc, val_eq,
        Nat.mul_add_mod, Nat.mod_eq_of_lt (sh_lt hM _), Nat.add_sub_cancel]
      refine Ok.some ⟨by simpa using h1, by simpa using h2, fun c' hc' => ?_⟩
      dsimp only
      rw [getD_set, getD_set]
      by_cases h : c = c'
      · subst h; rw [if_pos ⟨rfl, by omega⟩, if_pos ⟨rfl, by omega⟩]; exact ⟨rfl, rfl⟩
      · rw [if_neg (fun h' => h h'.1), if_neg (fun h' => h h'.1)]
        exact h3 c' (by omega))
  obtain ⟨⟨a, b⟩, h0, h1, h2, h3⟩ := this
  rw [h0]
  dsimp only at h1 h2 h3
  have hg : ∀ (f : Nat × Nat → Nat) c, c < E.length → (E.map f).getD c 0 = f (E.getD c (0, 0)) := by
    intro f c hc
    rw [← getElem_eq_getD (by simpa using hc), ← getElem_eq_getD hc]; simp
  congr 2
  · exact ext_getD 0 (by simpa using h1) fun c hc => by
      rw [hg _ _ (by omega), (h3 c (by omega)).1]
  · exact ext_getD 0 (by simpa using h2) fun c hc => by
      rw [hg _ _ (by omega), (h3 c (by omega)).2]

theorem getD_map0 (E : List (Nat × Nat)) (f : Nat × Nat → Nat) (c : Nat) (hc : c < E.length) :
    (E.map f).getD c 0 = f (E.getD c (0, 0)) := by
  rw [← getElem_eq_getD (by simpa using hc), ← getElem_eq_getD hc]; simp

theorem encFill_ok {T : Table} (hM : 0 < T.M) (i j : Nat) (E : List (Nat × Nat)) (pos shift : List Nat) (hc : E.length ≤ T.CNC)
    (hl : T.CNC * (T.q * j + i) + E.length ≤ pos.length) (hs : shift.length = E.length)
    (hsv : ∀ c, c < E.length → (shift.getD c 0 + 1) % T.M = (sh T (E.getD c (0, 0)) + j) % T.M)
    (hb : ∀ e ∈ E, bitAt T j e < 65536) :
    Ok (encFill T i j E.length (E.map fun e => T.M * e.1) (pos, shift)) fun s => s.1.length = pos.length ∧
      s.2.length = E.length ∧ (∀ c, c < E.length → s.2.getD c 0 = (sh T (E.getD c (0, 0)) + j) % T.M) ∧
      (∀ c, c < E.length → s.1.getD (T.CNC * (T.q * j + i) + c) 0 = bitAt T j (E.getD c (0, 0))) ∧
      ∀ n c, n ≠ T.q * j + i → c < T.CNC → s.1.getD (T.CNC * n + c) 0 = pos.getD (T.CNC * n + c) 0 := by
  unfold encFill
  refine Ok.mono (forUp_inv (fun c s => s.1.length = pos.length ∧
      s.2.length = E.length ∧ (∀ c', c' < c → s.2.getD c' 0 = (sh T (E.getD c' (0, 0)) + j) % T.M) ∧
      (∀ c', c ≤ c' → s.2.getD c' 0 = shift.getD c' 0) ∧
      (∀ c', c' < c → s.1.getD (T.CNC * (T.q * j + i) + c') 0 = bitAt T j (E.getD c' (0, 0))) ∧
      ∀ n c, n ≠ T.q * j + i → c < T.CNC → s.1.getD (T.CNC * n + c) 0 = pos.getD (T.CNC * n + c) 0)
    (Nat.zero_le _) ⟨rfl, hs, fun c' h => by omega, fun _ _ => rfl, fun c' h => by omega, fun _ _ _ _ => rfl⟩ ?_)
    (fun s h => ⟨h.1, h.2.1, h.2.2.1, h.2.2.2.2.1, h.2.2.2.2.2⟩)
  rintro c ⟨p, t⟩ _ hcE ⟨h1, h2, h3, h4, h5, h6⟩
  dsimp only at h1 h2 h3 h4 h5 h6 ⊢
  have hcE' : c < (E.map fun e => T.M * e.1).length := by simpa using hcE
  rw [rd_of_lt (by omega), sb, wr_of_lt (by omega), sb, rd_of_lt hcE', sb, rd_of_lt (by simpa using by omega), sb,
    wr_of_lt (by omega), sb]
  have e1 : t[c]'(by omega) = shift.getD c 0 := by rw [getElem_eq_getD _ 0, h4 c le_rfl]
  have e2 : (E.map fun e => T.M * e.1)[c] = T.M * (E.getD c (0, 0)).1 := by rw [getElem_eq_getD _ 0, getD_map0 _ _ _ hcE]
  have e3 := hsv c hcE
  have hb' := hb (E.getD c (0, 0)) (by rw [← getElem_eq_getD hcE]; exact List.getElem_mem _)
  simp only [List.getElem_set_self, e1, e2, e3]
  rw [show T.M * (E.getD c (0, 0)).1 + (sh T (E.getD c (0, 0)) + j) % T.M = bitAt T j (E.getD c (0, 0)) from rfl,
    Nat.mod_eq_of_lt hb']
  refine Ok.some ⟨by simpa using h1, by simpa using h2, fun c' hc' => ?_, fun c' hc' => ?_, fun c' hc' => ?_, fun n c' hn hc' => ?_⟩
  · dsimp only
    rw [getD_set]
    by_cases h : c = c'
    · subst h; rw [if_pos ⟨rfl, by omega⟩]
    · rw [if_neg (fun h' => h h'.1)]; exact h3 c' (by omega)
  · dsimp only
    rw [getD_set, if_neg (by omega)]; exact h4 c' (by omega)
  · dsimp only
    rw [getD_set]
    by_cases h : c = c'
    · subst h; rw [if_pos ⟨rfl, by omega⟩]
    · rw [if_neg (by omega)]; exact h5 c' (by omega)
  · dsimp only
    rw [getD_set, if_neg (by
      rintro ⟨h, _⟩
      exact hn (idx_inj (by omega) hc' h).1.symm)]
    exact h6 n c' hn hc'

theorem bitAt_lt {T : Table} (h : T.WF) {e : Nat × Nat} (he : e ∈ T.entries) (j : Nat) : bitAt T j e < T.K := by
  have h1 := (entry_bounds h he).1
  have h4 := Nat.mod_lt (sh T e + j) h.hM
  have h5 : T.M * e.1 + T.M ≤ T.M * (T.K / T.M) := by rw [← Nat.mul_succ]; exact Nat.mul_le_mul_left _ h1
  rw [← h.hK] at h5
  unfold bitAt
  omega

/-- The entries in residue class `n` of the whole table. -/
abbrev Table.ent (T : Table) (n : Nat) : List (Nat × Nat) := cls T n T.entries

theorem ent_len {T : Table} (h : T.WF) {n : Nat} (hn : n < T.q) : 0 < (T.ent n).length ∧ (T.ent n).length ≤ T.CNC := by
  unfold Table.ent
  rw [cls_length]; exact h.hcnt n hn

theorem ent_mem {T : Table} {n : Nat} {e : Nat × Nat} (he : e ∈ T.ent n) : e ∈ T.entries ∧ e.2 % T.q = n := by
  unfold Table.ent cls at he
  rw [List.mem_filter] at he
  exact ⟨he.1, by simpa using he.2⟩

/-- The complete table of positions. -/
structure EncOK (T : Table) (e : Enc) : Prop where
  hl : e.pos.length = T.R * T.CNC
  hl2 : e.cnc.length = T.q
  hc : ∀ n < T.q, e.cnc.getD n 0 = (T.ent n).length
  hv : ∀ j < T.M, ∀ n < T.q, ∀ c, c < (T.ent n).length →
    e.pos.getD (T.CNC * (T.q * j + n) + c) 0 = bitAt T j ((T.ent n).getD c (0, 0))

theorem idx_bound {T : Table} (h : T.WF) {j n c : Nat} (hj : j < T.M) (hn : n < T.q) (hc : c ≤ T.CNC) :
    T.CNC * (T.q * j + n) + c ≤ T.R * T.CNC := by
  have h1 : T.q * j + n + 1 ≤ T.R := by
    have : T.q * j + T.q ≤ T.q * T.M := by rw [← Nat.mul_succ]; exact Nat.mul_le_mul_left _ hj
    rw [h.hR]; omega
  have h2 : T.CNC * (T.q * j + n + 1) ≤ T.CNC * T.R := Nat.mul_le_mul_left _ h1
  rw [Nat.mul_add, Nat.mul_one, Nat.mul_comm T.CNC T.R] at h2
  omega

theorem row_inj {q j n j' n' : Nat} (hn : n < q) (hn' : n' < q) (h : q * j + n = q * j' + n') : j = j' ∧ n = n' := idx_inj hn hn' h

theorem mkEnc_ok {T : Table} (h : T.WF) (pos0 cnc0 : List Nat) (hp : pos0.length = T.R * T.CNC) (hc : cnc0.length = T.q) :
    Ok (mkEnc T pos0 cnc0) (EncOK T) := by
  unfold mkEnc
  have hcq : T.CNC * T.q ≤ pos0.length := by
    rw [hp, h.hR, Nat.mul_comm T.CNC, Nat.mul_right_comm]
    exact Nat.le_mul_of_pos_right _ h.hM
  refine Ok.bind' (walk_ok h pos0 cnc0 hcq hc) fun w hw => ?_
  obtain ⟨hl1, hl2, hcn, hv⟩ := hw
  dsimp only at hl1 hl2 hcn hv
  unfold encExpand
  refine Ok.bind' (P := fun pos => pos.length = T.R * T.CNC ∧ ∀ j < T.M, ∀ n < T.q, ∀ c, c < (T.ent n).length →
      pos.getD (T.CNC * (T.q * j + n) + c) 0 = bitAt T j ((T.ent n).getD c (0, 0))) ?_ (fun pos hpos => by
    exact Ok.some ⟨hpos.1, hl2, hcn, hpos.2⟩)
  refine Ok.mono (forUp_inv (fun i pos => pos.length = T.R * T.CNC ∧ ∀ j < T.M, ∀ n < T.q, n < i ∨ j = 0 → ∀ c, c < (T.ent n).length →
      pos.getD (T.CNC * (T.q * j + n) + c) 0 = bitAt T j ((T.ent n).getD c (0, 0))) (Nat.zero_le _) ?_ ?_)
    (fun pos hpos => ⟨hpos.1, fun j hj n hn => hpos.2 j hj n hn (Or.inl hn)⟩)
  · refine ⟨hl1.trans hp, fun j hj n hn h0 c hc => ?_⟩
    rcases h0 with h0 | h0
    · omega
    · subst h0
      rw [Nat.mul_zero, Nat.zero_add, hv n hn c hc, val_eq]
      unfold bitAt
      rw [Nat.add_zero, Nat.mod_eq_of_lt (sh_lt h.hM _)]
  · rintro i pos _ hi ⟨hpl, hpv⟩
    have hE := ent_len h hi
    rw [rd_of_lt (by omega), sb, getElem_eq_getD _ 0, hcn i hi]
    have hi0 := idx_bound h (j := 0) (c := (T.ent i).length) h.hM hi hE.2
    rw [Nat.mul_zero, Nat.zero_add] at hi0
    have h00 := hpv 0 h.hM i hi (Or.inr rfl)
    rw [Nat.mul_zero, Nat.zero_add] at h00
    rw [show (cls T i T.entries) = T.ent i from rfl, offShift_ok h.hM pos i (T.ent i) hE.1 (by omega) (fun c hc => by
      rw [h00 c hc, val_eq]
      unfold bitAt
      rw [Nat.add_zero, Nat.mod_eq_of_lt (sh_lt h.hM _)]), sb]
    dsimp only
    refine Ok.bind' (P := fun (s : List Nat × List Nat) => s.1.length = T.R * T.CNC ∧
        ∀ j < T.M, ∀ n < T.q, n < i + 1 ∨ j = 0 → ∀ c, c < (T.ent n).length →
        s.1.getD (T.CNC * (T.q * j + n) + c) 0 = bitAt T j ((T.ent n).getD c (0, 0))) ?_ (fun s hs => Ok.some hs)
    refine Ok.mono (forUp_inv (fun j (s : List Nat × List Nat) => s.1.length = T.R * T.CNC ∧ s.2.length = (T.ent i).length ∧
        (∀ c, c < (T.ent i).length → s.2.getD c 0 = (sh T ((T.ent i).getD c (0, 0)) + (j - 1)) % T.M) ∧
        ∀ j' < T.M, ∀ n < T.q, n < i ∨ j' = 0 ∨ (n = i ∧ j' < j) → ∀ c, c < (T.ent n).length →
        s.1.getD (T.CNC * (T.q * j' + n) + c) 0 = bitAt T j' ((T.ent n).getD c (0, 0))) (by have := h.hM; omega) ?_ ?_) ?_
    · refine ⟨hpl, by simp, fun c hc => ?_, fun j' hj' n hn h0 => hpv j' hj' n hn (by omega)⟩
      rw [getD_map0 _ _ _ hc, Nat.sub_self, Nat.add_zero, Nat.mod_eq_of_lt (sh_lt h.hM _)]
    · rintro j ⟨p, t⟩ hj1 hjM ⟨h1, h2, h3, h4⟩
      dsimp only at h1 h2 h3 h4 ⊢
      refine Ok.mono (encFill_ok h.hM i j (T.ent i) p t hE.2 (by rw [h1]; exact idx_bound h hjM hi hE.2) h2 (fun c hc => by
        rw [h3 c hc, Nat.mod_add_mod, show sh T ((T.ent i).getD c (0, 0)) + (j - 1) + 1 = sh T ((T.ent i).getD c (0, 0)) + j by omega])
        (fun e he => lt_of_lt_of_le (bitAt_lt h (ent_mem he).1 j) h.hK16)) ?_
      rintro ⟨p', t'⟩ ⟨g1, g2, g3, g4, g5⟩
      dsimp only at g1 g2 g3 g4 g5 ⊢
      refine ⟨by omega, g2, fun c hc => by rw [g3 c hc]; simp, fun j' hj' n hn h0 c hc => ?_⟩
      by_cases he : n = i ∧ j' = j
      · obtain ⟨rfl, rfl⟩ := he
        exact g4 c hc
      · have hEn := ent_len h hn
        rw [g5 _ c (fun hh => he (And.symm (row_inj hn hi hh))) (by omega)]
        exact h4 j' hj' n hn (by omega) c hc
    · rintro ⟨p, t⟩ ⟨h1, _, _, h4⟩
      exact ⟨h1, fun j hj n hn h0 c hc => h4 j hj n hn (by omega) c hc⟩

/-! The code's checks in terms of the table of positions. -/

theorem filter_range_single (M : Nat) (p : Nat → Bool) (s0 : Nat) (h0 : s0 < M) (h : ∀ s < M, p s = true ↔ s = s0) :
    (List.range M).filter p = [s0] := by
  have h1 : (List.range M).filter p = (List.range M).filter (fun s => s == s0) := by
    apply List.filter_congr
    intro s hs
    have := h s (List.mem_range.1 hs)
    by_cases hh : s = s0
    · rw [this.2 hh, hh]; simp
    · have h2 : p s = false := by
        cases hp : p s with
        | false => rfl
        | true => exact absurd (this.1 hp) hh
      simp [h2, hh]
  rw [h1, List.filter_beq]
  have : List.count s0 (List.range M) = 1 := List.count_eq_one_of_mem List.nodup_range (List.mem_range.2 h0)
  rw [this]; rfl

theorem feeds_eq {T : Table} (h : T.WF) {j n : Nat} (hj : j < T.M) (hn : n < T.q) :
    T.feeds (T.q * j + n) = (T.ent n).map (bitAt T j) := by
  unfold Table.feeds Table.ent cls
  have key : ∀ es : List (Nat × Nat), (∀ e ∈ es, e.2 < T.R) →
      (es.flatMap fun e => ((List.range T.M).filter fun s => (e.2 + T.q * s) % T.R == T.q * j + n).map fun s => T.M * e.1 + s) =
      (es.filter fun e => e.2 % T.q == n).map (bitAt T j) := by
    intro es
    induction es with
    | nil => intro _; rfl
    | cons e es ih =>
      intro he
      rw [List.flatMap_cons, ih (fun e' he' => he e' (List.mem_cons_of_mem _ he'))]
      have hx := he e List.mem_cons_self
      set m := e.2 / T.q with hm
      set k := e.2 % T.q with hk
      have hkq : k < T.q := Nat.mod_lt _ h.hq
      have hxe : e.2 = T.q * m + k := (Nat.div_add_mod _ _).symm
      have hmM : m < T.M := by
        rw [hm, Nat.div_lt_iff_lt_mul h.hq, Nat.mul_comm, ← h.hR]; exact hx
      have hmod : ∀ s, (e.2 + T.q * s) % T.R = T.q * ((m + s) % T.M) + k := by
        intro s
        rw [h.hR, hxe, show T.q * m + k + T.q * s = k + T.q * (m + s) by ring, Nat.add_mod, Nat.mul_mod_mul_left,
          Nat.mod_eq_of_lt (show k < T.q * T.M from lt_of_lt_of_le hkq (Nat.le_mul_of_pos_right _ h.hM)), Nat.add_comm,
          Nat.mod_eq_of_lt]
        have : T.q * ((m + s) % T.M) + T.q ≤ T.q * T.M := by
          rw [← Nat.mul_succ]; exact Nat.mul_le_mul_left _ (Nat.mod_lt _ h.hM)
        omega
      by_cases hkn : k = n
      · have hf : (List.range T.M).filter (fun s => (e.2 + T.q * s) % T.R == T.q * j + n) = [(sh T e + j) % T.M] := by
          apply filter_range_single _ _ _ (Nat.mod_lt _ h.hM)
          intro s hs
          rw [hmod, beq_iff_eq]
          have hsh : sh T e = (T.M - m) % T.M := rfl
          constructor
          · intro hh
            have := (row_inj hkq hn hh).1
            rw [hsh, Nat.mod_add_mod]
            by_cases h2 : m + s < T.M
            · rw [Nat.mod_eq_of_lt h2] at this
              rw [show T.M - m + j = s + T.M by omega, Nat.add_mod_right, Nat.mod_eq_of_lt hs]
            · rw [Nat.mod_eq_sub_mod (by omega), Nat.mod_eq_of_lt (by omega)] at this
              rw [show T.M - m + j = s by omega, Nat.mod_eq_of_lt hs]
          · intro hh
            rw [hh, hsh, Nat.mod_add_mod, Nat.add_mod_mod, show m + (T.M - m + j) = j + T.M by omega, Nat.add_mod_right,
              Nat.mod_eq_of_lt hj, hkn]
        rw [hf, List.filter_cons_of_pos (by simpa using hkn)]
        rfl
      · have hf : (List.range T.M).filter (fun s => (e.2 + T.q * s) % T.R == T.q * j + n) = [] := by
          rw [List.filter_eq_nil_iff]
          intro s _
          rw [hmod, beq_iff_eq]
          intro hh
          exact hkn (row_inj hkq hn hh).2
        rw [hf, List.filter_cons_of_neg (by simpa using hkn)]
        rfl
  exact key T.entries fun e he => (entry_bounds h he).2.1

/-! Encoding. -/

/-- `x` is `1` or `-1`. -/
def PM (x : Int) : Prop := x = 1 ∨ x = -1

theorem PM.mul {x y : Int} (hx : PM x) (hy : PM y) : PM (x * y) := by
  rcases hx with rfl | rfl <;> rcases hy with rfl | rfl <;> simp [PM]

theorem PM.t8 {x : Int} (hx : PM x) : t8 x = x := by
  rcases hx with rfl | rfl <;> rfl

theorem PM.prod {l : List Int} (h : ∀ x ∈ l, PM x) : PM l.prod := by
  induction l with
  | nil => exact Or.inl rfl
  | cons a l ih =>
    rw [List.prod_cons]
    exact (h a List.mem_cons_self).mul (ih fun x hx => h x (List.mem_cons_of_mem _ hx))

theorem encode_ok {T : Table} (h : T.WF) (e : Enc) (he : EncOK T e) (data parity : List Int) (hd : data.length = T.K)
    (hpm : ∀ x ∈ data, PM x) (hp : parity.length = T.R) :
    Ok (encode T e data parity) fun par => par.length = T.R ∧ ∀ c < T.R, PM (par.getD c 0) ∧
      par.getD c 0 = ((T.feeds c).map fun i => data.getD i 0).prod * (if c = 0 then 1 else par.getD (c - 1) 0) := by
  have hdat : ∀ i, i < T.K → PM (data.getD i 0) := fun i hi => by
    rw [← getElem_eq_getD (by omega)]; exact hpm _ (List.getElem_mem _)
  unfold encode
  -- state before check `k`
  let Inv : Nat → Int × List Int → Prop := fun k s => s.2.length = T.R ∧ PM s.1 ∧
    s.1 = (if k = 0 then 1 else s.2.getD (k - 1) 0) ∧ ∀ c < k, PM (s.2.getD c 0) ∧
      s.2.getD c 0 = ((T.feeds c).map fun i => data.getD i 0).prod * (if c = 0 then 1 else s.2.getD (c - 1) 0)
  refine Ok.bind' (P := Inv T.R) ?_ (fun s hs => Ok.some ⟨hs.1, hs.2.2.2⟩)
  have h0 : Inv 0 (1, parity) := ⟨hp, Or.inl rfl, rfl, fun c hc => by omega⟩
  have := forUp_inv (f := fun j s => forUp 0 T.q s fun i s => do
    let cnt ← rd e.cnc i
    let tmp ← forUp 0 cnt s.1 fun c tmp => do
      let p ← rd e.pos (T.CNC * (T.q * j + i) + c)
      let x ← rd data p
      return t8 (tmp * x)
    let parity ← wr s.2 (T.q * j + i) tmp
    return (tmp, parity)) (lo := 0) (hi := T.M) (s := ((1 : Int), parity)) (fun j s => Inv (T.q * j) s)
    (Nat.zero_le _) (by simpa using h0) ?_
  · rw [h.hR]; exact this
  intro j s _ hj hs
  have := forUp_inv (f := fun i s => do
    let cnt ← rd e.cnc i
    let tmp ← forUp 0 cnt s.1 fun c tmp => do
      let p ← rd e.pos (T.CNC * (T.q * j + i) + c)
      let x ← rd data p
      return t8 (tmp * x)
    let parity ← wr s.2 (T.q * j + i) tmp
    return (tmp, parity)) (lo := 0) (hi := T.q) (s := s) (fun i s => Inv (T.q * j + i) s)
    (Nat.zero_le _) (by simpa using hs) ?_
  · rw [Nat.mul_succ]; exact this
  rintro i ⟨tmp, par⟩ _ hi ⟨h1, h2, h3, h4⟩
  dsimp only at h1 h2 h3 h4 ⊢
  have hE := ent_len h hi
  rw [rd_of_lt (by rw [he.hl2]; exact hi), sb, getElem_eq_getD _ 0, he.hc i hi]
  have hk : T.q * j + i < T.R := by
    have : T.q * j + T.q ≤ T.q * T.M := by rw [← Nat.mul_succ]; exact Nat.mul_le_mul_left _ hj
    rw [h.hR]; omega
  refine Ok.bind' (P := fun t => t = tmp * (((T.ent i).map (bitAt T j)).map fun i => data.getD i 0).prod) ?_ ?_
  · have := forUp_inv (f := fun c tmp => do
        let p ← rd e.pos (T.CNC * (T.q * j + i) + c)
        let x ← rd data p
        return t8 (tmp * x)) (lo := 0) (hi := (T.ent i).length) (s := tmp)
      (fun c t => PM t ∧ t = tmp * ((((T.ent i).take c).map (bitAt T j)).map fun i => data.getD i 0).prod)
      (Nat.zero_le _) ⟨h2, by simp⟩ ?_
    · refine Ok.mono this fun t ht => ?_
      rw [ht.2, List.take_length]
    · rintro c t _ hc ⟨g1, g2⟩
      have hib := idx_bound h hj hi (show c + 1 ≤ T.CNC by omega)
      rw [rd_of_lt (by rw [he.hl]; omega), sb, getElem_eq_getD _ 0, he.hv j hj i hi c hc]
      have hmem : (T.ent i).getD c (0, 0) ∈ T.ent i := by rw [← getElem_eq_getD hc]; exact List.getElem_mem _
      have hbl := bitAt_lt h (ent_mem hmem).1 j
      rw [rd_of_lt (by omega), sb, getElem_eq_getD _ 0]
      have hpm' := g1.mul (hdat _ hbl)
      rw [hpm'.t8]
      refine Ok.some ⟨hpm', ?_⟩
      rw [g2, List.take_add_one, List.getElem?_eq_getElem hc, Option.toList_some, List.map_append, List.map_append,
        List.prod_append, mul_assoc]
      simp [getElem_eq_getD hc (0, 0)]
  · rintro t rfl
    rw [wr_of_lt (by omega), sb, ← feeds_eq h hj hi]
    set P := ((T.feeds (T.q * j + i)).map fun i => data.getD i 0).prod with hP
    have hPpm : PM P := by
      apply PM.prod
      rw [feeds_eq h hj hi]
      intro x hx
      obtain ⟨a, ha, rfl⟩ := List.mem_map.1 hx
      obtain ⟨b, hb, rfl⟩ := List.mem_map.1 ha
      exact hdat _ (bitAt_lt h (ent_mem hb).1 j)
    have hnew := h2.mul hPpm
    refine Ok.some ⟨by simpa using h1, hnew, ?_, fun c hc => ?_⟩
    · dsimp only
      rw [if_neg (by omega), getD_set, if_pos ⟨by omega, by omega⟩]
    · dsimp only
      simp only [getD_set]
      by_cases hcc : T.q * j + i = c
      · subst hcc
        rw [if_pos ⟨rfl, by omega⟩]
        refine ⟨hnew, ?_⟩
        rw [h3, mul_comm]
        congr 1
        by_cases hz : T.q * j + i = 0
        · rw [if_pos hz, if_pos hz]
        · rw [if_neg hz, if_neg hz, if_neg (by omega)]
      · rw [if_neg (fun hh => hcc hh.1)]
        have := h4 c (by omega)
        refine ⟨this.1, this.2.trans ?_⟩
        congr 1
        by_cases hz : c = 0
        · rw [if_pos hz, if_pos hz]
        · rw [if_neg hz, if_neg hz, if_neg (by omega)]

end Verif.LDPC
