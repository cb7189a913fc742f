import Verif.OSD.Words
import Verif.BCH.EncPacked
/- The decoder that keeps the best word. -/
namespace Verif.OSD
open Finset
open Verif.RS (sb)
open Verif.BCH (beBit setBe_bit b2)
open Verif.Bits (setBe)

variable {K N : Nat} {g : Nat → Nat → ZMod 2} {soft : List (BitVec 8)} {M : Mem} {q : Nat → Nat} {v : Nat → Nat → ZMod 2}

theorem Prep.qsur (P : Prep N K g soft M q v) {p : Nat} (hp : p < N) : ∃ i, i < N ∧ q i = p := by
  have hinj : Set.InjOn q (range N) := by
    intro i hi j hj h
    rw [Finset.mem_coe, mem_range] at hi hj
    exact P.qinj i j hi hj h
  have : (range N).image q = range N := by
    refine Finset.eq_of_subset_of_card_le ?_ (by rw [Finset.card_image_of_injOn hinj])
    intro p hp
    obtain ⟨i, hi, rfl⟩ := Finset.mem_image.1 hp
    rw [mem_range] at hi ⊢
    exact P.qlt i hi
  have h := mem_range.2 hp
  rw [← this, mem_image] at h
  obtain ⟨i, hi, e⟩ := h
  exact ⟨i, mem_range.1 hi, e⟩

theorem out_ok (P : Prep N K g soft M q v) {off : Nat} {hard : List (BitVec 8)} {c : Nat → ZMod 2}
    {f : Nat → List (BitVec 8) → Option (List (BitVec 8))} (h : off + N ≤ 8 * hard.length)
    (hf : ∀ i l, i < N → f i l = setBe l ((off + q i : Nat) : Int) (bv (c (q i)) != 0#8)) :
    Ok (forUp 0 N hard f) (fun out => out.length = hard.length ∧ (∀ p, p < N → bitsZ out (off + p) = c p) ∧
      ∀ x, x < 8 * hard.length → (x < off ∨ off + N ≤ x) → beBit out x = beBit hard x) := by
  refine Ok.mono (forUp_inv (fun t (out : List (BitVec 8)) => out.length = hard.length ∧
    (∀ i, i < t → bitsZ out (off + q i) = c (q i)) ∧
    ∀ x, x < 8 * hard.length → (x < off ∨ off + N ≤ x) → beBit out x = beBit hard x) (Nat.zero_le _)
    ⟨rfl, fun i h => by omega, fun x _ _ => rfl⟩ ?_) ?_
  · rintro t out _ ht ⟨l1, h1, h2⟩
    have hq := P.qlt t ht
    rw [hf t out ht]
    obtain ⟨o', e1, e2, e3⟩ := setBe_bit (buf := out) (i := off + q t) (bv (c (q t)) != 0#8) (by rw [l1]; omega)
    rw [e1]
    rw [l1] at e3
    refine Ok.some ⟨e2.trans l1, ?_, ?_⟩
    · intro i hi
      have hqi := P.qlt i (by omega)
      unfold bitsZ
      rw [e3 _ (by omega)]
      by_cases hit : i = t
      · subst hit
        rw [if_pos rfl]
        rcases z01 (c (q i)) with h | h <;> rw [h] <;> decide
      · rw [if_neg]
        · exact h1 i (by omega)
        · intro h
          exact hit (P.qinj i t (by omega) ht (by omega))
    · intro x hx hx2
      rw [e3 x hx, if_neg (by omega), h2 x hx hx2]
  · rintro out ⟨l1, h1, h2⟩
    refine ⟨l1, ?_, h2⟩
    intro p hp
    obtain ⟨i, hi, rfl⟩ := P.qsur hp
    exact h1 i hi

/-- Best word so far, its correlation, and the runner-up. -/
abbrev Trk := (Nat → ZMod 2) × Int × Int

def step (met : (Nat → ZMod 2) → Int) (c : Nat → ZMod 2) (x : Trk) : Trk :=
  if met c > x.2.1 then (c, met c, x.2.1) else if met c > x.2.2 then (x.1, x.2.1, met c) else x

/-- What is known after the words `l`. -/
def TrkInv (met : (Nat → ZMod 2) → Int) (l : List (Nat → ZMod 2)) (x : Trk) : Prop :=
  x.2.1 = met x.1 ∧ (∀ w ∈ l, met w ≤ x.2.1) ∧ ∃ l1 l2, l = l1 ++ x.1 :: l2 ∧ (∀ w ∈ l1 ++ l2, met w ≤ x.2.2) ∧
    ((l1 = [] ∧ x.2.2 = -1) ∨ ∃ w ∈ l1 ++ l2, met w = x.2.2) ∧ (∀ w ∈ l1, met w < x.2.1) ∧ (l1 = [] → -1 ≤ x.2.2)

theorem trk_step {met : (Nat → ZMod 2) → Int} {l : List (Nat → ZMod 2)} {x : Trk} (h : TrkInv met l x) (c : Nat → ZMod 2) :
    TrkInv met (l ++ [c]) (step met c x) := by
  obtain ⟨b, best, next⟩ := x
  obtain ⟨h1, h2, l1, l2, h3, h4, h5, h6, h7⟩ := h
  dsimp only at h1 h2 h3 h4 h5 h6 h7
  unfold step
  dsimp only
  by_cases hb : met c > best
  · rw [if_pos hb]
    refine ⟨rfl, ?_, l, [], by simp, ?_, ?_, ?_, ?_⟩
    · intro w hw
      rw [List.mem_append, List.mem_singleton] at hw
      dsimp only
      rcases hw with hw | rfl
      · have := h2 w hw; omega
      · exact le_refl _
    · rw [List.append_nil]; exact h2
    · right
      refine ⟨b, ?_, h1.symm⟩
      rw [List.append_nil, h3]; simp
    · intro w hw
      have := h2 w hw
      dsimp only; omega
    · intro h
      rw [h] at h3
      simp at h3
  · rw [if_neg hb]
    have hall : ∀ w ∈ l ++ [c], met w ≤ best := by
      intro w hw
      rw [List.mem_append, List.mem_singleton] at hw
      rcases hw with hw | rfl
      · exact h2 w hw
      · omega
    have hmem : ∀ w, w ∈ l1 ++ (l2 ++ [c]) ↔ w ∈ l1 ++ l2 ∨ w = c := by
      intro w
      rw [← List.append_assoc, List.mem_append, List.mem_singleton]
    by_cases hn : met c > next
    · rw [if_pos hn]
      refine ⟨h1, hall, l1, l2 ++ [c], by rw [h3]; simp, ?_, ?_, h6, fun h => by have := h7 h; dsimp only; omega⟩
      · intro w hw
        rcases (hmem w).1 hw with hw | rfl
        · have := h4 w hw; dsimp only; omega
        · exact le_refl _
      · exact Or.inr ⟨c, (hmem c).2 (Or.inr rfl), rfl⟩
    · rw [if_neg hn]
      refine ⟨h1, hall, l1, l2 ++ [c], by rw [h3]; simp, ?_, ?_, h6, h7⟩
      · intro w hw
        rcases (hmem w).1 hw with hw | rfl
        · exact h4 w hw
        · dsimp only; omega
      · rcases h5 with h5 | ⟨w, hw, e⟩
        · exact Or.inl h5
        · exact Or.inr ⟨w, (hmem w).2 (Or.inl hw), e⟩

theorem trk_fold {met : (Nat → ZMod 2) → Int} (ws l : List (Nat → ZMod 2)) (x : Trk) (h : TrkInv met l x) :
    TrkInv met (l ++ ws) (ws.foldl (fun x c => step met c x) x) := by
  induction ws generalizing l x with
  | nil => rw [List.append_nil]; exact h
  | cons c ws ih =>
    have := ih (l ++ [c]) _ (trk_step h c)
    rw [List.append_assoc] at this
    exact this

/-- Relation between the members and the tracked values. -/
def RBest (N : Nat) (q : Nat → Nat) (lc : Nat) (c : Nat → ZMod 2) (x : Trk) (s : Best) : Prop :=
  s.codeword.length = W N ∧ Holds N q s.codeword c ∧ s.candidate.length = lc ∧ Holds N q s.candidate x.1 ∧
    s.best = x.2.1 ∧ s.next = x.2.2

theorem copy_ok {cand cw : List (BitVec 8)} (h1 : N ≤ cand.length) (h2 : N ≤ cw.length) :
    Ok (forUp 0 N cand fun i cand => do
      let x ← rd cw i
      wr cand i x) (fun c => c.length = cand.length ∧ ∀ i, i < N → c.getD i 0 = cw.getD i 0) := by
  rw [forUp_fill (g := fun i => cw.getD i 0) h1 (fun j l hj hl => by
    rw [rd_of_lt (show j < cw.length by omega), getElem_eq_getD (show j < cw.length by omega) 0]
    dsimp only [Option.bind_eq_bind, Option.bind_some]
    rw [wr_of_lt (by omega)])]
  refine Ok.some ⟨?_, fun i hi => getD_map_append _ _ _ _ _ hi⟩
  rw [List.length_append, List.length_map, List.length_range, List.length_drop]; omega

theorem update_ok (P : Prep N K g soft M q v) {lc : Nat} (hlc : N ≤ lc) {c : Nat → ZMod 2} {x : Trk} {s : Best}
    (R : RBest N q lc c x s) : Ok (update N M.softperm s) (RBest N q lc c (step (corr N soft) c x)) := by
  obtain ⟨r1, r2, r3, r4, r5, r6⟩ := R
  have hW := N_le_W N
  unfold update
  rw [metric_ok P r1 r2, sb]
  unfold step
  rw [r5, r6]
  by_cases h1 : corr N soft c > x.2.1
  · rw [if_pos h1, if_pos h1]
    refine Ok.bind' (copy_ok (by omega) (show N ≤ s.codeword.length by omega)) ?_
    rintro cand ⟨l, h⟩
    exact Ok.some ⟨r1, r2, l.trans r3, fun i hi => by rw [h i hi, r2 i hi], rfl, rfl⟩
  · rw [if_neg h1, if_neg h1]
    by_cases h2 : corr N soft c > x.2.2
    · rw [if_pos h2, if_pos h2]
      exact Ok.some ⟨r1, r2, r3, r4, rfl, rfl⟩
    · rw [if_neg h2, if_neg h2]
      exact Ok.some ⟨r1, r2, r3, r4, r5, r6⟩

/-- The best word, its metric and the next best metric after all flips, in the order of the loops. -/
def run (K N O : Nat) (soft : List (BitVec 8)) (q : Nat → Nat) (v : Nat → Nat → ZMod 2) : Trk :=
  (vis K (min O 6) 0).foldl (fun x A => step (corr N soft) (base K soft q v + sumV v A) x) (base K soft q v, corr N soft (base K soft q v), -1)

theorem decode_fold {O : Nat} {M : Mem} {cand hard soft genmat : List (BitVec 8)} (hM : Valid N K M) (hcl : cand.length = W N) (hK : 1 ≤ K)
    (h01 : ∀ x ∈ genmat, x = 0#8 ∨ x = 1#8) (hg : N * K ≤ genmat.length) (hs : N ≤ soft.length) (hh : N ≤ 8 * hard.length)
    (hr : FullRank K N (entry N genmat)) :
    ∃ r out M' cand', decode N K O M cand hard soft genmat = some (r, out, M', cand') ∧ Valid N K M' ∧ cand'.length = W N ∧
      out.length = hard.length ∧ (∀ x, N ≤ x → x < 8 * hard.length → beBit out x = beBit hard x) ∧
      ∃ M1 q v, Prep N K (entry N genmat) soft M1 q v ∧
        Agree N (bitsZ out) (run K N O soft q v).1 ∧ r = decide ((run K N O soft q v).2.1 ≠ (run K N O soft q v).2.2) := by
  have hW := N_le_W N
  unfold decode
  obtain ⟨M1, e1, q, v, P⟩ := prepare_ok hM hK h01 hg hs hr
  rw [e1, sb]
  have hcw := P.valid.codeword
  obtain ⟨c1, e2, l2, h2⟩ := copy_ok (N := N) (cand := cand) (cw := M1.codeword) (by omega) (by omega)
  rw [e2, sb, metric_ok P hcw P.cw, sb]
  have hfl : ∀ (c : Nat → ZMod 2) (x : Trk) (s : Best) (a : Nat), a < K → RBest N q (W N) c x s →
      Ok (do
        let cw ← flip N M1.G a s.codeword
        return { s with codeword := cw }) (RBest N q (W N) (c + v a) x) := by
    rintro c x s a ha ⟨r1, r2, r3, r4, r5, r6⟩
    refine Ok.bind' (flip_ok P r1 r2 ha) ?_
    rintro cw ⟨l, h⟩
    exact Ok.some ⟨l, h, r3, r4, r5, r6⟩
  obtain ⟨s, e3, h3⟩ := nest_ok (O := O) (RBest N q (W N)) (step (corr N soft)) hfl
    (fun c x s R => update_ok P hW R) 6 1 0 (base K soft q v) (base K soft q v, corr N soft (base K soft q v), -1)
    ⟨M1.codeword, c1, corr N soft (base K soft q v), -1⟩ (Nat.zero_le _)
    ⟨hcw, P.cw, l2.trans hcl, fun i hi => by rw [h2 i hi, P.cw i hi], rfl, rfl⟩
  rw [Nat.add_sub_cancel, Nat.min_comm] at h3
  change RBest N q (W N) _ (run K N O soft q v) _ at h3
  set x := run K N O soft q v with hx
  obtain ⟨r1, r2, r3, r4, r5, r6⟩ := h3
  rw [e3, sb]
  obtain ⟨out, e4, l4, h4, h4'⟩ := out_ok P (off := 0) (hard := hard) (c := x.1) (f := fun i hard => do
    let p ← rd M1.perm i
    let x ← rd s.candidate i
    setBe hard p (x != 0#8)) (by omega) (fun i l hi => by
      have hp := P.valid.perm
      rw [rd_of_lt (show i < M1.perm.length by omega), getElem_eq_getD (show i < M1.perm.length by omega) 0, P.perm i hi, sb,
        rd_of_lt (show i < s.candidate.length by omega), getElem_eq_getD (show i < s.candidate.length by omega) 0, r4 i hi, sb, Nat.zero_add])
  rw [e4, sb]
  refine ⟨_, out, _, s.candidate, rfl, ?_, r3, l4, ?_, M1, q, v, P, ?_, ?_⟩
  · exact ⟨P.valid.int16, P.valid.G, r1, P.valid.softperm, P.valid.perm, P.valid.tmp⟩
  · intro y h5 h6
    exact h4' y h6 (Or.inr (by omega))
  · intro p hp
    have := h4 p hp
    rwa [Nat.zero_add] at this
  · rw [r5, r6]

theorem run_inv (K N O : Nat) (soft : List (BitVec 8)) (q : Nat → Nat) (v : Nat → Nat → ZMod 2) :
    TrkInv (corr N soft) (words K (min O 6) soft q v) (run K N O soft q v) := by
  have := trk_fold (met := corr N soft) ((vis K (min O 6) 0).map fun A => base K soft q v + sumV v A) [base K soft q v]
    (base K soft q v, corr N soft (base K soft q v), -1) ⟨rfl, fun w hw => by rw [List.mem_singleton.1 hw], [], [], rfl,
        fun w hw => absurd hw List.not_mem_nil, Or.inl ⟨rfl, rfl⟩, fun w hw => absurd hw List.not_mem_nil, fun _ => le_refl _⟩
  rw [List.foldl_map] at this
  exact this

theorem decode_ok {O : Nat} {M : Mem} {cand hard soft genmat : List (BitVec 8)} (hM : Valid N K M) (hcl : cand.length = W N) (hK : 1 ≤ K)
    (h01 : ∀ x ∈ genmat, x = 0#8 ∨ x = 1#8) (hg : N * K ≤ genmat.length) (hs : N ≤ soft.length) (hh : N ≤ 8 * hard.length)
    (hr : FullRank K N (entry N genmat)) :
    ∃ r out M' cand', decode N K O M cand hard soft genmat = some (r, out, M', cand') ∧ Valid N K M' ∧ cand'.length = W N ∧
      out.length = hard.length ∧ (∀ x, N ≤ x → x < 8 * hard.length → beBit out x = beBit hard x) ∧
      ∃ M1 q v x, Prep N K (entry N genmat) soft M1 q v ∧
        TrkInv (corr N soft) (words K (min O 6) soft q v) x ∧ Agree N (bitsZ out) x.1 ∧ r = decide (x.2.1 ≠ x.2.2) := by
  obtain ⟨r, out, M', cand', h1, h2, h3, h4, h5, M1, q, v, P, h6, h7⟩ := decode_fold (O := O) hM hcl hK h01 hg hs hh hr
  exact ⟨r, out, M', cand', h1, h2, h3, h4, h5, M1, q, v, _, P, run_inv K N O soft q v, h6, h7⟩

end Verif.OSD
