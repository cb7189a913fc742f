import Verif.Rotate.Model
import Mathlib.Data.List.GetD
import Mathlib.Data.Int.ModEq
import Mathlib.Tactic.NormNum
import Mathlib.Data.Nat.Bitwise
/- C48 (rotate.hh). -/
namespace Verif.Rotate
variable {α : Type}

/-- Lane `n` moves to lane `(n + s) mod WIDTH`, for every lane below `WIDTH`. -/
def IsRotation (WIDTH : Nat) (s : Int) (a r : List α) : Prop :=
  ∀ n : Nat, n < WIDTH → r[((n + s) % WIDTH).toNat]? = a[n]?

/-! ### Lemmas -/

/-- The shift normalised to `0..WIDTH-1`. -/
def norm (WIDTH : Nat) (s : Int) : Int := if s < 0 then s + WIDTH else s

theorem norm_mod {W : Nat} {s : Int} (n : Nat) : ((n : Int) + s) % W = (n + norm W s) % W := by
  unfold norm
  split
  · rw [← add_assoc, Int.add_emod_right]
  · rfl

theorem isRotation_norm {W : Nat} {s : Int} {a r : List α} :
    IsRotation W s a r ↔ IsRotation W (norm W s) a r := by
  unfold IsRotation
  simp only [norm_mod (s := s)]

/-- Destination form of the rotation: lane `j` holds lane `(j + W - s) mod W`. -/
theorem isRotation_iff {W s : Nat} (hs : s ≤ W) {a r : List α} :
    IsRotation W s a r ↔ ∀ j, j < W → r[j]? = a[(j + W - s) % W]? := by
  unfold IsRotation
  have hc : ∀ n : Nat, (((n : Int) + (s : Int)) % (W : Int)).toNat = (n + s) % W := by
    intro n
    rw [← Nat.cast_add, ← Int.natCast_mod, Int.toNat_natCast]
  simp only [hc]
  constructor
  · intro h j hj
    have h1 : (j + W - s) % W < W := Nat.mod_lt _ (by omega)
    rw [← h _ h1, Nat.mod_add_mod, show j + W - s + s = j + W by omega, Nat.add_mod_right, Nat.mod_eq_of_lt hj]
  · intro h n hn
    rw [h _ (Nat.mod_lt _ (by omega))]
    congr 1
    by_cases h2 : n + s < W
    · rw [Nat.mod_eq_of_lt h2, show n + s + W - s = n + W by omega, Nat.add_mod_right, Nat.mod_eq_of_lt hn]
    · by_cases h3 : n + s < 2 * W
      · have e : (n + s) % W = n + s - W := by
          rw [Nat.mod_eq_sub_mod (by omega), Nat.mod_eq_of_lt (by omega)]
        rw [e, show n + s - W + W - s = n by omega, Nat.mod_eq_of_lt hn]
      · omega

theorem posOf_eq (W i j : Nat) : posOf W i j = (j + W - i) % W := rfl

theorem rotate_ok (W : Nat) (ret0 a : List α) (s : Nat) (hs : s ≤ W) (hr : W ≤ ret0.length)
    (ha : W ≤ a.length) :
    ∃ r, rotate W ret0 a s = some r ∧ r.length = ret0.length ∧ IsRotation W s a r ∧
      ∀ j, W ≤ j → r[j]? = ret0[j]? := by
  by_cases hW : W = 0
  · subst hW
    have : s = 0 := by omega
    subst this
    exact ⟨ret0, rfl, rfl, fun n hn => by omega, fun j _ => rfl⟩
  obtain ⟨d, _⟩ : ∃ d, d ∈ a := List.exists_mem_of_length_pos (by omega)
  unfold rotate
  have e1 : (if (s : Int) < 0 then (s : Int) + (W : Int) else (s : Int)) = s := if_neg (by omega)
  have e2 : ((W : Int) - (s : Int)).toNat = W - s := by omega
  simp only [e1, e2, Int.toNat_natCast]
  have l1 := forUp_inv (lo := 0) (hi := s) (s := ret0)
    (f := fun n ret => do
      let x ← rdZ a ((n : Int) + ((W : Int) - (s : Int)))
      wr ret n x)
    (fun n r => r.length = ret0.length ∧ ∀ j, r.getD j d = if j < n then a.getD (j + (W - s)) d else ret0.getD j d)
    (Nat.zero_le _) ⟨rfl, fun j => by simp⟩ (by
      rintro n r _ hn ⟨hl, hv⟩
      have hx : rdZ a ((n : Int) + ((W : Int) - (s : Int))) = some (a.getD (n + (W - s)) d) := by
        unfold rdZ
        rw [if_neg (by omega), show ((n : Int) + ((W : Int) - (s : Int))).toNat = n + (W - s) by omega,
          List.getElem?_eq_getElem (by omega), getElem_eq_getD _ d]
      simp only [hx, Option.bind_eq_bind, Option.bind_some]
      refine Ok.wr (by omega) ⟨by simp [hl], fun j => ?_⟩
      rw [getD_set, hv]
      by_cases hj : n = j
      · subst hj; rw [if_pos ⟨rfl, by omega⟩, if_pos (by omega)]
      · rw [if_neg (by rintro ⟨h, _⟩; exact hj h)]
        by_cases h2 : j < n
        · rw [if_pos h2, if_pos (by omega)]
        · rw [if_neg h2, if_neg (by omega)])
  obtain ⟨r1, h1, hl1, hv1⟩ := l1
  simp only [Option.bind_eq_bind] at h1
  simp only [Option.bind_eq_bind]
  rw [h1]
  simp only [Option.bind_some]
  have l2 := forUp_inv (lo := 0) (hi := W - s) (s := r1)
    (f := fun n ret => (rd a n).bind fun x => wrZ ret ((n : Int) + (s : Int)) x)
    (fun n r => r.length = ret0.length ∧
      ∀ j, r.getD j d = if s ≤ j ∧ j < s + n then a.getD (j - s) d else r1.getD j d)
    (Nat.zero_le _) ⟨hl1, fun j => by rw [if_neg (by omega)]⟩ (by
      rintro n r _ hn ⟨hl, hv⟩
      rw [rd_of_lt (by omega), Option.bind_some]
      unfold wrZ
      rw [if_neg (by omega), show ((n : Int) + (s : Int)).toNat = n + s by omega]
      refine Ok.wr (by omega) ⟨by simp [hl], fun j => ?_⟩
      rw [getD_set, hv]
      by_cases hj : n + s = j
      · rw [if_pos ⟨hj, by omega⟩, if_pos (by omega), getElem_eq_getD _ d, show j - s = n by omega]
      · rw [if_neg (by rintro ⟨h, _⟩; exact hj h)]
        by_cases h2 : s ≤ j ∧ j < s + n
        · rw [if_pos h2, if_pos (by omega)]
        · rw [if_neg h2, if_neg (by omega)])
  obtain ⟨r2, h2, hl2, hv2⟩ := l2
  refine ⟨r2, h2, hl2, ?_, ?_⟩
  · rw [isRotation_iff hs]
    intro j hj
    have hm : (j + W - s) % W < W := Nat.mod_lt _ (by omega)
    rw [List.getElem?_eq_getElem (by omega), List.getElem?_eq_getElem (by omega), getElem_eq_getD _ d,
      getElem_eq_getD _ d, hv2, hv1]
    congr 1
    by_cases h : j < s
    · rw [if_neg (by omega), if_pos h, Nat.mod_eq_of_lt (by omega), show j + (W - s) = j + W - s by omega]
    · rw [if_pos (by omega), show j + W - s = (j - s) + W by omega, Nat.add_mod_right, Nat.mod_eq_of_lt (by omega)]
  · intro j hj
    by_cases hjl : j < ret0.length
    · rw [List.getElem?_eq_getElem (by omega), List.getElem?_eq_getElem hjl, getElem_eq_getD _ d,
        getElem_eq_getD _ d, hv2, hv1, if_neg (by omega), if_neg (by omega)]
    · rw [List.getElem?_eq_none (by omega), List.getElem?_eq_none (by omega)]

theorem rotate_norm (W : Nat) (ret0 a : List α) (s : Int) (h1 : -(W : Int) ≤ s) :
    rotate W ret0 a s = rotate W ret0 a (norm W s).toNat := by
  have h : 0 ≤ norm W s := by unfold norm; split <;> omega
  have h2 : ((norm W s).toNat : Int) = norm W s := Int.toNat_of_nonneg h
  rw [h2]
  have h3 : (if norm W s < 0 then norm W s + (W : Int) else norm W s) = norm W s := if_neg (by omega)
  unfold rotate
  rw [h3]; rfl

/-! ### Tables -/

theorem table_rows {β : Type} (W : Nat) (d : β) (row : Nat → Option β) (g : Nat → β)
    (h : ∀ i, i < W → row i = some (g i)) :
    (forUp 0 W (List.replicate W d) fun i rot => do
      let r ← row i
      wr rot i r) = some ((List.range W).map g) := by
  rw [forUp_fill (g := g) (by simp)]
  · simp
  · intro j l hj hl
    rw [h j hj, Option.bind_eq_bind, Option.bind_some, wr_of_lt (by rw [hl, List.length_replicate]; exact hj)]

theorem rot16Row_ok (W i : Nat) (hW : W ≤ 16) :
    rot16Row W i = some ((List.range W).map (posOf W i) ++ (List.replicate 16 0x80).drop W) := by
  unfold rot16Row
  rw [forUp_fill (g := posOf W i) (by simpa using hW)]
  intro j l hj hl
  rw [wr_of_lt (by rw [hl, List.length_replicate]; omega)]

theorem posOf_lt (W i j : Nat) (h : 0 < W) : posOf W i j < W := Nat.mod_lt _ h

theorem rotate16_ok (W : Nat) (hW : W ≤ 16) (a : List (BitVec 8)) (ha : a.length = 16) (s : Nat) (hs : s < W) :
    ∃ r, rotate16 W a s = some r ∧ r.length = 16 ∧ IsRotation W s a r := by
  have htab : rot16 W = some ((List.range W).map fun i =>
      (List.range W).map (posOf W i) ++ (List.replicate 16 0x80).drop W) :=
    table_rows W [] (rot16Row W) _ (fun i _ => rot16Row_ok W i hW)
  unfold rotate16
  rw [htab]
  have e1 : (if (s : Int) < 0 then (s : Int) + (W : Int) else (s : Int)) = s := if_neg (by omega)
  have e2 : rdZ ((List.range W).map fun i =>
      (List.range W).map (posOf W i) ++ (List.replicate 16 0x80).drop W) (s : Int) =
      some ((List.range W).map (posOf W s) ++ (List.replicate 16 0x80).drop W) := by
    unfold rdZ
    rw [if_neg (by omega), Int.toNat_natCast]
    simp [hs]
  simp only [Option.bind_eq_bind, Option.bind_some, e1, e2]
  refine ⟨_, rfl, by simp [shuffle16], ?_⟩
  rw [isRotation_iff (by omega)]
  intro j hj
  have hp := posOf_lt W s j (by omega)
  have hg : ((List.range W).map (posOf W s) ++ (List.replicate 16 0x80).drop W).getD j 0 = posOf W s j := by
    rw [List.getD_append _ _ _ _ (by simpa using hj), ← getElem_eq_getD (by simpa using hj)]; simp
  have hb : (posOf W s j).testBit 7 = false := Nat.testBit_eq_false_of_lt (by omega)
  unfold shuffle16
  rw [List.getElem?_map, List.getElem?_range (by omega), Option.map_some]
  simp only [hg, hb, Bool.false_eq_true, if_false]
  rw [Nat.mod_eq_of_lt (show posOf W s j < 16 by omega), ← getElem_eq_getD (by omega),
    ← List.getElem?_eq_getElem]
  rfl

/-- Contents of the AVX2 rows. -/
def g0 (W i j : Nat) : Nat :=
  if j < W ∧ (j < 16 ↔ posOf W i j < 16) then posOf W i j % 16 else 0x80
def g1 (W i k : Nat) : Nat :=
  let j := if k < 16 then k + 16 else k - 16
  if j < W ∧ ¬ (j < 16 ↔ posOf W i j < 16) then posOf W i j % 16 else 0x80

theorem rot32Row_ok (W i : Nat) (hW : W ≤ 32) : ∃ r0 r1, rot32Row W i = some (r0, r1) ∧
    (∀ k, k < 32 → r0.getD k 0 = g0 W i k) ∧ (∀ k, k < 32 → r1.getD k 0 = g1 W i k) := by
  have hrep : ∀ k, k < 32 → (List.replicate 32 0x80).getD k 0 = 0x80 := by
    intro k hk; rw [← getElem_eq_getD (by rw [List.length_replicate]; exact hk), List.getElem_replicate]
  have main := forUp_inv (lo := 0) (hi := W) (s := (List.replicate 32 0x80, List.replicate 32 0x80))
    (f := fun j (r0, r1) =>
      let pos := posOf W i j
      if j < 16 then
        if pos < 16 then do
          let r0 ← wr r0 j pos
          return (r0, r1)
        else do
          let r1 ← wr r1 (j + 16) (pos - 16)
          return (r0, r1)
      else
        if pos < 16 then do
          let r1 ← wr r1 (j - 16) pos
          return (r0, r1)
        else do
          let r0 ← wr r0 j (pos - 16)
          return (r0, r1))
    (fun n s => s.1.length = 32 ∧ s.2.length = 32 ∧
      (∀ k, k < 32 → s.1.getD k 0 = if k < n then g0 W i k else 0x80) ∧
      (∀ k, k < 32 → s.2.getD k 0 = if (if k < 16 then k + 16 else k - 16) < n then g1 W i k else 0x80))
    (Nat.zero_le _) ⟨by simp, by simp, fun k hk => by simpa using hrep k hk, fun k hk => by simpa using hrep k hk⟩ (by
      rintro n ⟨r0, r1⟩ _ hn ⟨hl0, hl1, hv0, hv1⟩
      have hp := posOf_lt W i n (by omega)
      dsimp only at hl0 hl1 hv0 hv1 ⊢
      by_cases hsame : n < 16 ↔ posOf W i n < 16
      · -- written to rot0
        have hstep : (if n < 16 then
              if posOf W i n < 16 then (do
                let r0 ← wr r0 n (posOf W i n)
                return (r0, r1))
              else do
                let r1 ← wr r1 (n + 16) (posOf W i n - 16)
                return (r0, r1)
            else
              if posOf W i n < 16 then (do
                let r1 ← wr r1 (n - 16) (posOf W i n)
                return (r0, r1))
              else do
                let r0 ← wr r0 n (posOf W i n - 16)
                return (r0, r1) : Option (List Nat × List Nat)) = some (r0.set n (posOf W i n % 16), r1) := by
          by_cases h : n < 16
          · rw [if_pos h, if_pos (hsame.1 h), wr_of_lt (by omega), Nat.mod_eq_of_lt (hsame.1 h)]; rfl
          · have h2 : ¬ posOf W i n < 16 := fun h' => h (hsame.2 h')
            rw [if_neg h, if_neg h2, wr_of_lt (by omega),
              show posOf W i n % 16 = posOf W i n - 16 by omega]; rfl
        rw [hstep]
        refine Ok.some ⟨by simp [hl0], hl1, fun k hk => ?_, fun k hk => ?_⟩
        · dsimp only
          rw [getD_set]
          by_cases hkn : n = k
          · subst hkn
            rw [if_pos ⟨rfl, by omega⟩, if_pos (by omega), g0, if_pos ⟨hn, hsame⟩]
          · rw [if_neg (by rintro ⟨h, _⟩; exact hkn h), hv0 k hk]
            by_cases h2 : k < n
            · rw [if_pos h2, if_pos (by omega)]
            · rw [if_neg h2, if_neg (by omega)]
        · dsimp only
          rw [hv1 k hk]
          by_cases h2 : (if k < 16 then k + 16 else k - 16) < n
          · rw [if_pos h2, if_pos (by omega)]
          · rw [if_neg h2]
            by_cases h3 : (if k < 16 then k + 16 else k - 16) < n + 1
            · have he : (if k < 16 then k + 16 else k - 16) = n := by omega
              rw [if_pos h3, g1]
              rw [he, if_neg (by rintro ⟨_, h⟩; exact h hsame)]
            · rw [if_neg h3]
      · have hstep : (if n < 16 then
              if posOf W i n < 16 then (do
                let r0 ← wr r0 n (posOf W i n)
                return (r0, r1))
              else do
                let r1 ← wr r1 (n + 16) (posOf W i n - 16)
                return (r0, r1)
            else
              if posOf W i n < 16 then (do
                let r1 ← wr r1 (n - 16) (posOf W i n)
                return (r0, r1))
              else do
                let r0 ← wr r0 n (posOf W i n - 16)
                return (r0, r1) : Option (List Nat × List Nat)) =
            some (r0, r1.set (if n < 16 then n + 16 else n - 16) (posOf W i n % 16)) := by
          by_cases h : n < 16
          · have h2 : ¬ posOf W i n < 16 := fun h' => hsame ⟨fun _ => h', fun _ => h⟩
            rw [if_pos h, if_neg h2, wr_of_lt (by omega), if_pos h,
              show posOf W i n % 16 = posOf W i n - 16 by omega]; rfl
          · have h2 : posOf W i n < 16 := by
              by_contra h'; exact hsame ⟨fun hh => absurd hh h, fun hh => absurd hh h'⟩
            rw [if_neg h, if_pos h2, wr_of_lt (by omega), if_neg h, Nat.mod_eq_of_lt h2]; rfl
        rw [hstep]
        refine Ok.some ⟨hl0, by simp [hl1], fun k hk => ?_, fun k hk => ?_⟩
        · dsimp only
          rw [hv0 k hk]
          by_cases h2 : k < n
          · rw [if_pos h2, if_pos (by omega)]
          · rw [if_neg h2]
            by_cases h3 : k < n + 1
            · have he : k = n := by omega
              subst he
              rw [if_pos h3, g0, if_neg (by rintro ⟨_, h⟩; exact hsame h)]
            · rw [if_neg h3]
        · dsimp only
          rw [getD_set]
          by_cases hkn : (if n < 16 then n + 16 else n - 16) = k
          · have he : (if k < 16 then k + 16 else k - 16) = n := by
              subst hkn; split <;> split <;> omega
            rw [if_pos ⟨hkn, by omega⟩, if_pos (by omega), g1]
            rw [he, if_pos ⟨hn, hsame⟩]
          · rw [if_neg (by rintro ⟨h, _⟩; exact hkn h), hv1 k hk]
            have he : (if k < 16 then k + 16 else k - 16) ≠ n := by
              intro h; apply hkn; subst h; split <;> split <;> omega
            by_cases h2 : (if k < 16 then k + 16 else k - 16) < n
            · rw [if_pos h2, if_pos (by omega)]
            · rw [if_neg h2, if_neg (by omega)])
  obtain ⟨⟨r0, r1⟩, h1, hl0, hl1, hv0, hv1⟩ := main
  refine ⟨r0, r1, h1, fun k hk => ?_, fun k hk => ?_⟩
  · have := hv0 k hk
    dsimp only at this
    rw [this]
    by_cases h : k < W
    · rw [if_pos h]
    · rw [if_neg h, g0, if_neg (by omega)]
  · have := hv1 k hk
    dsimp only at this
    rw [this]
    by_cases h : (if k < 16 then k + 16 else k - 16) < W
    · rw [if_pos h]
    · rw [if_neg h, g1]; rw [if_neg (by omega)]

theorem rotate32_ok (W : Nat) (hW : W ≤ 32) (a : List (BitVec 8)) (ha : a.length = 32) (s : Nat) (hs : s < W) :
    ∃ r, rotate32 W a s = some r ∧ r.length = 32 ∧ IsRotation W s a r := by
  have hrow : ∀ i, ∃ p : List Nat × List Nat, rot32Row W i = some p ∧
      (∀ k, k < 32 → p.1.getD k 0 = g0 W i k) ∧ (∀ k, k < 32 → p.2.getD k 0 = g1 W i k) := by
    intro i
    obtain ⟨r0, r1, h⟩ := rot32Row_ok W i hW
    exact ⟨(r0, r1), h⟩
  choose g hg using hrow
  have htab : rot32 W = some ((List.range W).map g) :=
    table_rows W ([], []) (rot32Row W) g (fun i _ => (hg i).1)
  unfold rotate32
  rw [htab]
  have e1 : (if (s : Int) < 0 then (s : Int) + (W : Int) else (s : Int)) = s := if_neg (by omega)
  have e2 : rdZ ((List.range W).map g) (s : Int) = some (g s) := by
    unfold rdZ
    rw [if_neg (by omega), Int.toNat_natCast]
    simp [hs]
  simp only [Option.bind_eq_bind, Option.bind_some, e1, e2]
  refine ⟨_, rfl, by simp [or32], ?_⟩
  rw [isRotation_iff (by omega)]
  intro j hj
  have hp := posOf_lt W s j (by omega)
  have hmap : ∀ (f : Nat → BitVec 8) k, k < 32 → ((List.range 32).map f).getD k 0#8 = f k := by
    intro f k hk
    rw [← getElem_eq_getD (by simpa using hk)]; simp
  obtain ⟨_, hg0, hg1⟩ := hg s
  have hpos7 : (posOf W s j % 16).testBit 7 = false := Nat.testBit_eq_false_of_lt (by omega)
  have h80 : Nat.testBit 0x80 7 = true := by decide
  unfold or32
  rw [List.getElem?_map, List.getElem?_range (by omega), Option.map_some]
  unfold shuffle32 swapHalves
  rw [hmap _ j (by omega), hmap _ j (by omega), hmap _ _ (by split <;> omega)]
  simp only [hg0 j (by omega), hg1 (if j < 16 then j + 16 else j - 16) (by split <;> omega)]
  have hback : (if (if j < 16 then j + 16 else j - 16) < 16 then (if j < 16 then j + 16 else j - 16) + 16
      else (if j < 16 then j + 16 else j - 16) - 16) = j := by
    split <;> split <;> omega
  unfold g0 g1
  dsimp only
  rw [hback]
  have hfinal : a[(j + W - s) % W]? = some (a.getD (posOf W s j) 0#8) := by
    rw [← posOf_eq, List.getElem?_eq_getElem (by omega), getElem_eq_getD]
  rw [hfinal]
  congr 1
  by_cases hsame : j < 16 ↔ posOf W s j < 16
  · have h2 : ¬ (j < W ∧ ¬ (j < 16 ↔ posOf W s j < 16)) := by rintro ⟨_, h⟩; exact h hsame
    have q1 : (if j < W ∧ (j < 16 ↔ posOf W s j < 16) then posOf W s j % 16 else 0x80) = posOf W s j % 16 :=
      if_pos ⟨hj, hsame⟩
    have q2 : (if j < W ∧ ¬ (j < 16 ↔ posOf W s j < 16) then posOf W s j % 16 else 0x80) = 0x80 := if_neg h2
    simp only [q1, q2, hpos7, h80, if_true, Bool.false_eq_true, if_false, BitVec.or_zero]
    congr 1
    by_cases h : j < 16
    · have := hsame.1 h; omega
    · have : ¬ posOf W s j < 16 := fun h' => h (hsame.2 h')
      omega
  · have h2 : ¬ (j < W ∧ (j < 16 ↔ posOf W s j < 16)) := by rintro ⟨_, h⟩; exact hsame h
    have q1 : (if j < W ∧ (j < 16 ↔ posOf W s j < 16) then posOf W s j % 16 else 0x80) = 0x80 := if_neg h2
    have q2 : (if j < W ∧ ¬ (j < 16 ↔ posOf W s j < 16) then posOf W s j % 16 else 0x80) = posOf W s j % 16 :=
      if_pos ⟨hj, hsame⟩
    simp only [q1, q2, hpos7, h80, if_true, Bool.false_eq_true, if_false, BitVec.zero_or]
    congr 1
    by_cases h : j < 16
    · have : ¬ posOf W s j < 16 := fun h' => hsame ⟨fun _ => h', fun _ => h⟩
      rw [if_pos h]; omega
    · have : posOf W s j < 16 := by
        by_contra h'; exact hsame ⟨fun hh => absurd hh h, fun hh => absurd hh h'⟩
      rw [if_neg h]; omega

theorem rotate16_norm (W : Nat) (a : List (BitVec 8)) (s : Int) (h1 : -(W : Int) ≤ s) :
    rotate16 W a s = rotate16 W a (norm W s).toNat := by
  have h : 0 ≤ norm W s := by unfold norm; split <;> omega
  have h2 : ((norm W s).toNat : Int) = norm W s := Int.toNat_of_nonneg h
  rw [h2]
  have h3 : (if norm W s < 0 then norm W s + (W : Int) else norm W s) = norm W s := if_neg (by omega)
  unfold rotate16
  rw [h3]; rfl

theorem rotate32_norm (W : Nat) (a : List (BitVec 8)) (s : Int) (h1 : -(W : Int) ≤ s) :
    rotate32 W a s = rotate32 W a (norm W s).toNat := by
  have h : 0 ≤ norm W s := by unfold norm; split <;> omega
  have h2 : ((norm W s).toNat : Int) = norm W s := Int.toNat_of_nonneg h
  rw [h2]
  have h3 : (if norm W s < 0 then norm W s + (W : Int) else norm W s) = norm W s := if_neg (by omega)
  unfold rotate32
  rw [h3]; rfl

theorem norm_bounds {W : Nat} {s : Int} (h1 : -(W : Int) ≤ s) (h2 : s < W) :
    0 ≤ norm W s ∧ norm W s < W := by unfold norm; split <;> omega

/-! ### C48 -/

/-- The portable version, for every `-WIDTH ≤ s ≤ WIDTH` and whatever the result register
contained: all accesses are in bounds, lanes below `WIDTH` are rotated, the others keep the
(indeterminate) initial contents. -/
theorem C48_generic (W : Nat) (ret0 a : List α) (s : Int) (h1 : -(W : Int) ≤ s) (h2 : s ≤ W)
    (hr : W ≤ ret0.length) (ha : W ≤ a.length) :
    ∃ r, rotate W ret0 a s = some r ∧ r.length = ret0.length ∧ IsRotation W s a r := by
  have hn : 0 ≤ norm W s ∧ norm W s ≤ W := by unfold norm; split <;> omega
  obtain ⟨r, h3, h4, h5, _⟩ := rotate_ok W ret0 a (norm W s).toNat (by omega) hr ha
  refine ⟨r, by rw [rotate_norm W ret0 a s h1, h3], h4, ?_⟩
  rw [isRotation_norm]
  rwa [Int.toNat_of_nonneg hn.1] at h5

/-- The SSE4.1/NEON version (16 lanes). -/
theorem C48_shuffle16 (W : Nat) (hW : W ≤ 16) (a : List (BitVec 8)) (ha : a.length = 16) (s : Int)
    (h1 : -(W : Int) ≤ s) (h2 : s < W) :
    ∃ r, rotate16 W a s = some r ∧ r.length = 16 ∧ IsRotation W s a r := by
  obtain ⟨n1, n2⟩ := norm_bounds h1 h2
  obtain ⟨r, h3, h4, h5⟩ := rotate16_ok W hW a ha (norm W s).toNat (by omega)
  refine ⟨r, by rw [rotate16_norm W a s h1, h3], h4, ?_⟩
  rw [isRotation_norm]
  rwa [Int.toNat_of_nonneg n1] at h5

/-- The AVX2 version (32 lanes, two shuffles and a half swap). -/
theorem C48_shuffle32 (W : Nat) (hW : W ≤ 32) (a : List (BitVec 8)) (ha : a.length = 32) (s : Int)
    (h1 : -(W : Int) ≤ s) (h2 : s < W) :
    ∃ r, rotate32 W a s = some r ∧ r.length = 32 ∧ IsRotation W s a r := by
  obtain ⟨n1, n2⟩ := norm_bounds h1 h2
  obtain ⟨r, h3, h4, h5⟩ := rotate32_ok W hW a ha (norm W s).toNat (by omega)
  refine ⟨r, by rw [rotate32_norm W a s h1, h3], h4, ?_⟩
  rw [isRotation_norm]
  rwa [Int.toNat_of_nonneg n1] at h5

/-- A rotation is determined on the lanes below `WIDTH`, so all versions agree there. -/
theorem C48_agree (W : Nat) (s : Int) (a r r' : List α)
    (h : IsRotation W s a r) (h' : IsRotation W s a r') (j : Nat) (hj : j < W) : r[j]? = r'[j]? := by
  let n : Nat := (((j : Int) - s) % W).toNat
  have hW : (0 : Int) < W := by omega
  have h0 : 0 ≤ ((j : Int) - s) % W := Int.emod_nonneg _ (by omega)
  have h1 : ((j : Int) - s) % W < W := Int.emod_lt_of_pos _ hW
  have hn : n < W := by omega
  have hc : (n : Int) = ((j : Int) - s) % W := Int.toNat_of_nonneg h0
  have e : (((n : Int) + s) % W).toNat = j := by
    rw [hc, Int.emod_add_emod, sub_add_cancel, Int.emod_eq_of_lt (by omega) (by omega), Int.toNat_natCast]
  have ha := h n hn
  have hb := h' n hn
  rw [e] at ha hb
  rw [ha, hb]

/-- Rotating by `s` and then by `-s` restores the lanes below `WIDTH`. -/
theorem C48_inverse (W : Nat) (s : Int) (a r r' : List α)
    (h : IsRotation W s a r) (h' : IsRotation W (-s) r r') (j : Nat) (hj : j < W) : r'[j]? = a[j]? := by
  have hW : (0 : Int) < W := by omega
  rw [← h j hj]
  let n : Nat := (((j : Int) + s) % W).toNat
  have h0 : 0 ≤ ((j : Int) + s) % W := Int.emod_nonneg _ (by omega)
  have h1 : ((j : Int) + s) % W < W := Int.emod_lt_of_pos _ hW
  have hn : n < W := by omega
  have hc : (n : Int) = ((j : Int) + s) % W := Int.toNat_of_nonneg h0
  have hb := h' n hn
  have e : (((n : Int) + -s) % W).toNat = j := by
    rw [hc, Int.emod_add_emod, add_neg_cancel_right, Int.emod_eq_of_lt (by omega) (by omega), Int.toNat_natCast]
  rw [e] at hb
  exact hb

/-- Concrete rotations: portable, by 3 in width 5. -/
example : rotate 5 [9, 9, 9, 9, 9, 9] [0, 1, 2, 3, 4, 5] 3 = some [2, 3, 4, 0, 1, 9] ∧
    rotate 5 [9, 9, 9, 9, 9, 9] [0, 1, 2, 3, 4, 5] (-2) = some [2, 3, 4, 0, 1, 9] := by decide

end Verif.Rotate
