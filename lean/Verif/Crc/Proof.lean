import Verif.Crc.Model
import Mathlib.Data.List.GetD
import Mathlib.Tactic.ByContra
namespace Verif.Crc
variable {w : Nat}

/-- Feeding a list of bits, one `operator()(bool)` call each. -/
def feed (poly : BitVec w) (s : BitVec w) (bits : List Bool) : BitVec w :=
  bits.foldl (update poly) s

/-- n zero updates -/
def shift0 (poly : BitVec w) : Nat → BitVec w → BitVec w
  | 0, s => s
  | n+1, s => shift0 poly n (update poly s false)

/-- little-endian packing of a bit list into a register -/
def pack (w : Nat) : List Bool → BitVec w
  | [] => 0#w
  | b :: bs => (if b then 1#w else 0#w) ^^^ (pack w bs <<< 1)

theorem mul_and_one (x p : BitVec w) : (x &&& 1#w) * p = if x.getLsbD 0 then p else 0#w := by
  have : x &&& 1#w = if x.getLsbD 0 then 1#w else 0#w := by
    apply BitVec.eq_of_getLsbD_eq
    intro i hi
    by_cases h : x.getLsbD 0 <;> by_cases h0 : i = 0 <;> simp_all
  rw [this]; split <;> simp

theorem getLsbD_boolBit (b : Bool) (i : Nat) (hi : i < w) :
    (if b then 1#w else 0#w).getLsbD i = (b && decide (i = 0)) := by
  cases b
  · simp
  · simp [BitVec.getLsbD_one]; omega

theorem getLsbD_update (p s : BitVec w) (d : Bool) (i : Nat) (hi : i < w) :
    (update p s d).getLsbD i =
      ((s.getLsbD (i + 1)) ^^ ((s.getLsbD 0 ^^ d) && p.getLsbD i)) := by
  unfold update
  simp only [mul_and_one, BitVec.getLsbD_xor, BitVec.getLsbD_ushiftRight,
    getLsbD_boolBit d 0 (by omega : 0 < w)]
  rw [Nat.add_comm 1 i]
  cases h : s.getLsbD 0 <;> cases d <;> simp

theorem update_xor (p s t : BitVec w) (a b : Bool) :
    update p (s ^^^ t) (a ^^ b) = update p s a ^^^ update p t b := by
  apply BitVec.eq_of_getLsbD_eq
  intro i hi
  simp only [getLsbD_update _ _ _ _ hi, BitVec.getLsbD_xor]
  cases s.getLsbD (i+1) <;> cases t.getLsbD (i+1) <;> cases s.getLsbD 0 <;>
    cases t.getLsbD 0 <;> cases a <;> cases b <;> cases p.getLsbD i <;> rfl

theorem update_zero (p : BitVec w) : update p 0#w false = 0#w := by
  apply BitVec.eq_of_getLsbD_eq
  intro i hi
  simp [getLsbD_update _ _ _ _ hi]

theorem feed_xor (p : BitVec w) : ∀ (a b : List Bool) (s t : BitVec w), a.length = b.length →
    feed p (s ^^^ t) (List.zipWith xor a b) = feed p s a ^^^ feed p t b
  | [], [], _, _, _ => rfl
  | [], _ :: _, _, _, h => by simp at h
  | _ :: _, [], _, _, h => by simp at h
  | x :: a, y :: b, s, t, h => by
    simp only [feed, List.zipWith_cons_cons, List.foldl_cons, update_xor]
    exact feed_xor p a b _ _ (by simpa using h)

theorem shift0_xor (p : BitVec w) (n : Nat) (s t : BitVec w) :
    shift0 p n (s ^^^ t) = shift0 p n s ^^^ shift0 p n t := by
  induction n generalizing s t with
  | zero => rfl
  | succ n ih =>
    have := update_xor p s t false false
    simp only [Bool.xor_false] at this
    simp only [shift0, this, ih]

theorem shift0_zero (p : BitVec w) (n : Nat) : shift0 p n 0#w = 0#w := by
  induction n with
  | zero => rfl
  | succ n ih => simp [shift0, update_zero, ih]

theorem shift0_add (p : BitVec w) (m n : Nat) (s : BitVec w) :
    shift0 p (m + n) s = shift0 p n (shift0 p m s) := by
  induction m generalizing s with
  | zero => simp [shift0]
  | succ m ih => rw [Nat.succ_add]; simp [shift0, ih]

theorem getLsbD_pack : ∀ (l : List Bool) (i : Nat), i < w →
    (pack w l).getLsbD i = l.getD i false
  | [], i, hi => by simp [pack]
  | b :: bs, i, hi => by
    simp only [pack, BitVec.getLsbD_xor, getLsbD_boolBit b i hi, BitVec.getLsbD_shiftLeft]
    cases i with
    | zero => simp
    | succ i =>
      have := getLsbD_pack bs i (by omega)
      simp [hi, this]

theorem getLsbD_eq_false_of_ge (x : BitVec w) {i : Nat} (h : w ≤ i) : x.getLsbD i = false :=
  BitVec.getLsbD_of_ge x i h

theorem update_pack (p s : BitVec w) (b : Bool) (bs : List Bool) (h : bs.length < w) :
    update p (s ^^^ pack w (b :: bs)) false = update p s b ^^^ pack w bs := by
  apply BitVec.eq_of_getLsbD_eq
  intro i hi
  simp only [getLsbD_update _ _ _ _ hi, BitVec.getLsbD_xor,
    getLsbD_pack _ 0 (by omega : 0 < w), getLsbD_pack _ i hi]
  have : (pack w (b :: bs)).getLsbD (i + 1) = bs.getD i false := by
    by_cases h1 : i + 1 < w
    · rw [getLsbD_pack _ _ h1]; simp
    · rw [getLsbD_eq_false_of_ge _ (by omega)]
      rw [List.getD_eq_default _ _ (by omega)]
  rw [this]
  simp only [List.getD_cons_zero]
  cases s.getLsbD (i+1) <;> cases s.getLsbD 0 <;> cases b <;> cases p.getLsbD i <;>
    cases bs.getD i false <;> rfl

/-- Feeding at most `w` bits = xoring them into the register, then shifting. -/
theorem feed_eq_shift0 (p : BitVec w) : ∀ (bs : List Bool) (s : BitVec w), bs.length ≤ w →
    feed p s bs = shift0 p bs.length (s ^^^ pack w bs)
  | [], s, _ => by simp [feed, shift0, pack]
  | b :: bs, s, h => by
    have h' : bs.length < w := by simp at h; omega
    rw [feed, List.foldl_cons, List.length_cons, shift0, update_pack p s b bs h']
    exact feed_eq_shift0 p bs _ (by omega)

theorem update_inj_zero (p s : BitVec w) (hw : 0 < w) (hp : p.msb = true)
    (h : update p s false = 0#w) : s = 0#w := by
  have hp' : p.getLsbD (w - 1) = true := by
    rw [← BitVec.msb_eq_getLsbD_last]; exact hp
  have key : ∀ i, i < w → ((s.getLsbD (i + 1)) ^^ ((s.getLsbD 0) && p.getLsbD i)) = false := by
    intro i hi
    have := congrArg (fun x => x.getLsbD i) h
    simpa [getLsbD_update _ _ _ _ hi] using this
  have h0 : s.getLsbD 0 = false := by
    have := key (w - 1) (by omega)
    rw [getLsbD_eq_false_of_ge s (by omega : w ≤ w - 1 + 1), hp'] at this
    simpa using this
  apply BitVec.eq_of_getLsbD_eq
  intro i hi
  cases i with
  | zero => simp [h0]
  | succ i =>
    have := key i (by omega)
    rw [h0] at this
    simpa using this

theorem shift0_inj_zero (p : BitVec w) (hw : 0 < w) (hp : p.msb = true) :
    ∀ (n : Nat) (s : BitVec w), shift0 p n s = 0#w → s = 0#w
  | 0, s, h => h
  | n+1, _, h => update_inj_zero p _ hw hp (shift0_inj_zero p hw hp n _ h)

theorem feed_append (p s : BitVec w) (a b : List Bool) :
    feed p s (a ++ b) = feed p (feed p s a) b := by simp [feed]

theorem feed_replicate (p s : BitVec w) (n : Nat) :
    feed p s (List.replicate n false) = shift0 p n s := by
  induction n generalizing s with
  | zero => rfl
  | succ n ih => simp only [List.replicate_succ, feed, List.foldl_cons, shift0]; exact ih _

theorem pack_ne_zero (l : List Bool) (hl : l.length ≤ w) (i : Nat) (h : l.getD i false = true) :
    pack w l ≠ 0#w := by
  intro h0
  have hi : i < l.length := by
    by_contra hc
    rw [List.getD_eq_default _ _ (by omega)] at h; simp at h
  have := getLsbD_pack (w := w) l i (by omega)
  rw [h0, h] at this; simp at this

theorem all_false_eq_replicate : ∀ (l : List Bool), (∀ i, l.getD i false = false) →
    l = List.replicate l.length false
  | [], _ => rfl
  | b :: bs, h => by
    have h0 := h 0
    simp only [List.getD_cons_zero] at h0
    have := all_false_eq_replicate bs (fun i => by simpa using h (i+1))
    rw [h0, List.length_cons, List.replicate_succ, ← this]

/-- Core of burst detection: a difference string supported in a window of `w` bits gives a
non-zero register difference. -/
theorem feed_burst_ne_zero (p : BitVec w) (hp : p.msb = true) (e : List Bool) (k j : Nat)
    (hwin : ∀ i, e.getD i false = true → k ≤ i ∧ i < k + w) (hj : e.getD j false = true) :
    feed p 0#w e ≠ 0#w := by
  have hw : 0 < w := by have := hwin j hj; omega
  have hjl : j < e.length := by
    by_contra hc
    rw [List.getD_eq_default _ _ (by omega)] at hj; simp at hj
  -- split e = e.take k ++ (e.drop k).take w ++ (e.drop k).drop w
  have hsplit : e = e.take k ++ ((e.drop k).take w ++ (e.drop k).drop w) := by
    rw [List.take_append_drop, List.take_append_drop]
  have h1 : e.take k = List.replicate (e.take k).length false := by
    apply all_false_eq_replicate
    intro i
    by_contra hc
    have ht : (e.take k).getD i false = true := by simpa using hc
    have hil : i < (e.take k).length := by
      by_contra hc
      rw [List.getD_eq_default _ _ (by omega)] at ht; simp at ht
    have : e.getD i false = true := by
      rw [List.getD_eq_getElem?_getD] at ht ⊢
      rw [List.getElem?_take] at ht
      split at ht
      · exact ht
      · simp at ht
    have := hwin i this
    simp at hil; omega
  have h3 : (e.drop k).drop w = List.replicate ((e.drop k).drop w).length false := by
    apply all_false_eq_replicate
    intro i
    by_contra hc
    have ht : ((e.drop k).drop w).getD i false = true := by simpa using hc
    rw [List.getD_eq_getElem?_getD, List.drop_drop, List.getElem?_drop] at ht
    have := hwin (k + w + i) (by rw [List.getD_eq_getElem?_getD]; exact ht)
    omega
  have hlen : ((e.drop k).take w).length ≤ w := by rw [List.length_take]; omega
  rw [hsplit, feed_append, feed_append]
  rw [h1, feed_replicate, shift0_zero, h3, feed_replicate]
  intro h
  have h := shift0_inj_zero p hw hp _ _ h
  rw [feed_eq_shift0 p _ _ hlen] at h
  have h := shift0_inj_zero p hw hp _ _ h
  rw [BitVec.zero_xor] at h
  refine pack_ne_zero (w := w) _ hlen (j - k) ?_ h
  have hjk := hwin j hj
  rw [List.getD_eq_getElem?_getD, List.getElem?_take, if_pos (by omega), List.getElem?_drop,
    show k + (j - k) = j by omega, ← List.getD_eq_getElem?_getD, hj]

end Verif.Crc
