import Verif.LDPC.Exact
/- The decoder's registers represent the state of message passing. -/
namespace Verif.LDPC
open Verif.RS (sb)

/-- The registers of `s` hold the values and messages of `f`; `Es i j` are the links of layer `(i, j)`.  Check 0 has a link to
nowhere, whose message is only bounded. -/
structure Rel (C : Cfg) (Es : Nat → Nat → List (Nat × Nat)) (s : St) (f : Soft) : Prop where
  hd : ∀ x < C.T.K, dOf C s.msg x = f.val (.data x)
  hp : ∀ c < C.T.R, pOf C s.pty c = f.val (.par c)
  hm : ∀ i < C.T.q, ∀ j < C.W, ∀ n < C.D, ∀ k v, (lvars C.T (Es i j) (C.W * n + j) (chk C i j n))[k]? = some v →
    lane s.bnl (bl0 C i j + k) n = f.msg (chk C i j n) v
  h0 : -31 ≤ lane s.bnl (bl0 C 0 0 + ((Es 0 0).length + 1)) 0 ∧ lane s.bnl (bl0 C 0 0 + ((Es 0 0).length + 1)) 0 ≤ 31

/-- The links of all layers. -/
def Links (C : Cfg) (X : Dec) (Es : Nat → Nat → List (Nat × Nat)) : Prop := ∀ i < C.T.q, ∀ j < C.W, Slice C X.loc i j (Es i j)

theorem inL_eq {C : Cfg} (h : C.WF) {X : Dec} {Es : Nat → Nat → List (Nat × Nat)} (hL : Links C X Es) {s : St} {f : Soft} (hR : Rel C Es s f)
    {i j n : Nat} (hi : i < C.T.q) (hj : j < C.W) (hn : n < C.D) :
    ∃ x, 96 ≤ x ∧ inL C s (Es i j) i j n ((Es i j).length + 2) =
      (lvars C.T (Es i j) (C.W * n + j) (chk C i j n)).map (hear f (chk C i j n)) ++ if chk C i j n = 0 then [x] else [] := by
  refine ⟨sat (127 - lane s.bnl (bl0 C 0 0 + ((Es 0 0).length + 1)) 0), ?_, ?_⟩
  · have := hR.h0
    unfold sat; omega
  set E := Es i j with hE
  set c := chk C i j n with hc
  have hEp : E.Perm (C.T.ent i) := (hL i hi j hj).1
  have hkey : ∀ k v, (lvars C.T E (C.W * n + j) c)[k]? = some v →
      linkVal C.T (dOf C s.msg) (pOf C s.pty) E i (C.W * n + j) k = f.val v := by
    intro k v hv
    rw [lvars_get] at hv
    unfold linkVal
    by_cases h1 : k < E.length
    · rw [dif_pos h1] at hv
      injection hv with hv
      rw [if_pos h1, ← getElem_eq_getD h1, ← hv]
      exact hR.hd _ (bitAt_lt h.hT (ent_mem (hEp.subset (List.getElem_mem h1))).1 _)
    · rw [dif_neg h1] at hv
      rw [if_neg h1]
      by_cases h2 : k = E.length
      · rw [if_pos h2] at hv ⊢
        injection hv with hv
        rw [← hv]
        exact hR.hp _ (chk_lt h hi hj hn)
      · rw [if_neg h2] at hv ⊢
        by_cases h3 : k = E.length + 1 ∧ c ≠ 0
        · rw [if_pos h3] at hv
          injection hv with hv
          rw [← hv, if_neg (show ¬ (C.T.q * (C.W * n + j) + i = 0) from h3.2)]
          exact hR.hp _ (by have := chk_lt h hi hj hn; show c - 1 < _; omega)
        · rw [if_neg h3] at hv; cases hv
  apply List.ext_getElem?
  intro k
  by_cases hk : k < (lvars C.T E (C.W * n + j) c).length
  · have hlen := lvars_length C.T E (C.W * n + j) c
    have hk2 : k < E.length + 2 := by split at hlen <;> omega
    rw [List.getElem?_append_left (by simpa using hk), List.getElem?_map, List.getElem?_eq_getElem hk, Option.map_some]
    have hv := List.getElem?_eq_getElem hk
    unfold inL
    rw [List.getElem?_map, List.getElem?_range hk2, Option.map_some, hkey k _ hv, hR.hm i hi j hj n hn k _ hv]
    rfl
  · have hlen := lvars_length C.T E (C.W * n + j) c
    rw [List.getElem?_append_right (by simpa using hk), List.length_map]
    by_cases hc0 : c = 0
    · rw [if_pos hc0] at hlen ⊢
      obtain ⟨rfl, rfl, rfl⟩ := (chk_pos_iff h).1 hc0
      by_cases hk1 : k = E.length + 1
      · rw [hlen, hk1, Nat.sub_self]
        unfold inL
        rw [List.getElem?_map, List.getElem?_range (by omega), Option.map_some]
        unfold linkVal
        rw [if_neg (by omega), if_neg (by omega), if_pos (by simp)]
        rfl
      · rw [List.getElem?_eq_none (by rw [inL_length]; omega), List.getElem?_eq_none (by rw [List.length_singleton]; omega)]
    · rw [if_neg hc0] at hlen ⊢
      rw [List.getElem?_eq_none (by rw [inL_length]; omega), List.getElem?_nil]

theorem combine_big {β x : Int} (h1 : β ≤ 64) (hx : 96 ≤ x) (l : List Int) : combine β (l ++ [x]) = combine β l := by
  unfold combine
  rw [List.map_append, List.map_append, List.prod_append, List.foldl_append]
  have e1 : neg x = 1 := by unfold neg; rw [if_neg (by omega)]
  have e2 : 31 ≤ mag β x := by
    unfold mag
    rw [abs_of_nonneg (by omega)]
    omega
  simp only [List.map_cons, List.map_nil, List.prod_cons, List.prod_nil, e1, mul_one, List.foldl_cons, List.foldl_nil]
  congr 1
  have := foldl_min_le (l.map (mag β)) 31
  omega

theorem newOut_eq {C : Cfg} (h : C.WF) (h64 : C.BETA ≤ 64) {X : Dec} {Es : Nat → Nat → List (Nat × Nat)} (hL : Links C X Es) {s : St}
    {f : Soft} (hR : Rel C Es s f) {i j n : Nat} (hi : i < C.T.q) (hj : j < C.W) (hn : n < C.D)
    (hnd : (lvars C.T (Es i j) (C.W * n + j) (chk C i j n)).Nodup) {k : Nat} {v : Var} (hk : (lvars C.T (Es i j) (C.W * n + j) (chk C i j n))[k]? = some v) :
    newOut C s (Es i j) i j n k = answer C.T C.BETA f (chk C i j n) v ∧
    newVal C s (Es i j) i j n k = sat (hear f (chk C i j n) v + answer C.T C.BETA f (chk C i j n) v) := by
  obtain ⟨x, hx, hin⟩ := inL_eq h hL hR hi hj hn
  have hp := vars_perm h hi hj hn (hL i hi j hj).1
  set E := Es i j with hE
  set c := chk C i j n with hc
  set L := lvars C.T E (C.W * n + j) c with hLd
  obtain ⟨hkl, hkv⟩ := List.getElem?_eq_some_iff.1 hk
  have hout : newOut C s E i j n k = answer C.T C.BETA f c v := by
    unfold newOut answer
    rw [hR.hm i hi j hj n hn k v hk, hin]
    congr 1
    have e1 : ((L.map (hear f c)) ++ if c = 0 then [x] else []).eraseIdx k = ((L.eraseIdx k).map (hear f c)) ++ if c = 0 then [x] else [] := by
      rw [List.eraseIdx_append_of_lt_length (by simpa using hkl), List.eraseIdx_map]
    rw [e1]
    have e2 : combine C.BETA (((L.eraseIdx k).map (hear f c)) ++ if c = 0 then [x] else []) = combine C.BETA ((L.eraseIdx k).map (hear f c)) := by
      split
      · exact combine_big h64 hx _
      · rw [List.append_nil]
    rw [e2]
    apply combine_perm
    apply List.Perm.map
    have e3 : L.eraseIdx k = L.erase v := by rw [← hkv]; exact (hnd.erase_getElem k hkl).symm
    rw [e3]
    exact hp.erase v
  refine ⟨hout, ?_⟩
  unfold newVal
  rw [hout, hin]
  congr 2
  rw [List.getD_eq_getElem?_getD, List.getElem?_append_left (by simpa using hkl), List.getElem?_map, hk]
  rfl

theorem newOut_bounds {C : Cfg} (h0 : 0 ≤ C.BETA) (s : St) (E : List (Nat × Nat)) (i j n k : Nat) :
    -31 ≤ newOut C s E i j n k ∧ newOut C s E i j n k ≤ 31 := by
  unfold newOut
  exact corr_bounds (by omega) (combine_bounds C.BETA h0 _)

/-- The rows of messages of different layers do not overlap. -/
theorem bl0_disjoint {C : Cfg} {i j i' j' : Nat} (hj : j < C.W) (hj' : j' < C.W) (hne : ¬ (i' = i ∧ j' = j)) {a : Nat}
    (ha : bl0 C i' j' ≤ a ∧ a < bl0 C i' j' + ((C.T.ent i').length + 2)) :
    a < bl0 C i j ∨ bl0 C i j + ((C.T.ent i).length + 2) ≤ a := by
  have key : ∀ i j i' j', j < C.W → i < i' ∨ (i = i' ∧ j < j') → bl0 C i j + ((C.T.ent i).length + 2) ≤ bl0 C i' j' := by
    intro i j i' j' hj hlt
    unfold bl0
    have h3 : ∀ m, j + 1 ≤ m → j * ((C.T.ent i).length + 2) + ((C.T.ent i).length + 2) ≤ m * ((C.T.ent i).length + 2) := by
      intro m hm
      have := Nat.mul_le_mul_right ((C.T.ent i).length + 2) hm
      rw [Nat.add_mul, Nat.one_mul] at this
      exact this
    rcases hlt with hlt | ⟨rfl, hlt⟩
    · have h1 : pre C.T (i + 1) + 2 * (i + 1) ≤ pre C.T i' + 2 * i' := by
        have := pre_mono (T := C.T) (show i + 1 ≤ i' from hlt)
        omega
      have h2 := Nat.mul_le_mul_left C.W h1
      rw [pre, show pre C.T i + (C.T.ent i).length + 2 * (i + 1) = (pre C.T i + 2 * i) + ((C.T.ent i).length + 2) by ring, Nat.mul_add] at h2
      have := h3 C.W hj
      omega
    · have := h3 j' hlt
      omega
  by_cases hlt : i < i' ∨ (i = i' ∧ j < j')
  · have := key i j i' j' hj hlt
    right; omega
  · have := key i' j' i j hj' (by omega)
    left; omega

/-- One layer with all links enabled. -/
theorem rel_scatter {C : Cfg} (h : C.WF) (hP : 2 ≤ C.PTY) (hb0 : 0 ≤ C.BETA) (h64 : C.BETA ≤ 64) {X : Dec}
    {Es : Nat → Nat → List (Nat × Nat)} (hL : Links C X Es) {s s' : St} {f : Soft} (hR : Rel C Es s f) {i j : Nat} (hi : i < C.T.q)
    (hj : j < C.W) (hS : Simple C (Es i j) j) {w : Nat} (hw : ∀ k < (Es i j).length, w.testBit k = false)
    (hs : ScatEx C s (Es i j) i j w ((Es i j).length + 2) s') :
    Rel C Es s' (((List.range C.D).map (chk C i j)).foldl (checkStep C.T C.BETA) f) := by
  have hEp := (hL i hi j hj).1
  obtain ⟨f1, f2, f3⟩ := fold_disjoint C.T C.BETA _ f (layer_disjoint h hP hi hj hEp hS)
  set g := ((List.range C.D).map (chk C i j)).foldl (checkStep C.T C.BETA) f with hg
  have hmem : ∀ n < C.D, chk C i j n ∈ (List.range C.D).map (chk C i j) := fun n hn => List.mem_map.2 ⟨n, List.mem_range.2 hn, rfl⟩
  -- new values and messages of the layer
  have hnew : ∀ n < C.D, ∀ k v, (lvars C.T (Es i j) (C.W * n + j) (chk C i j n))[k]? = some v →
      g.val v = newVal C s (Es i j) i j n k ∧ g.msg (chk C i j n) v = newOut C s (Es i j) i j n k := by
    intro n hn k v hv
    have hvm : v ∈ C.T.vars (chk C i j n) := (vars_perm h hi hj hn hEp).subset (List.mem_of_getElem? hv)
    obtain ⟨e1, e2⟩ := newOut_eq h h64 hL hR hi hj hn (lvars_nodup h hn hS) hv
    obtain ⟨k1, k2⟩ := f1 _ (hmem n hn)
    rw [k1 v hvm, k2 v, e1, e2]
    unfold checkStep
    dsimp only
    rw [if_pos hvm, if_pos ⟨rfl, hvm⟩]
    exact ⟨rfl, rfl⟩
  refine ⟨fun x hx => ?_, fun c hc => ?_, fun i' hi' j' hj' n hn k v hv => ?_, ?_⟩
  · by_cases hex : ∃ n, n < C.D ∧ ∃ k, ∃ hk : k < (Es i j).length, x = bitAt C.T (C.W * n + j) (Es i j)[k]
    · obtain ⟨n, hn, k, hk, rfl⟩ := hex
      have hv : (lvars C.T (Es i j) (C.W * n + j) (chk C i j n))[k]? = some (.data (bitAt C.T (C.W * n + j) (Es i j)[k])) := by
        rw [lvars_get, dif_pos hk]
      rw [(hnew n hn k _ hv).1]
      refine hs.hdnew k hk (by omega) (hw k hk) (fun k' hk' _ hlt _ hoff => ?_) n hn
      have := hS k' k hk' hk hoff
      omega
    · push Not at hex
      rw [hs.hdsame x hx fun k hk _ _ n hn => hex n hn k hk, hR.hd x hx, f2]
      intro c hc
      obtain ⟨n, hn, rfl⟩ := List.mem_map.1 hc
      rw [List.mem_range] at hn
      rw [← (vars_perm h hi hj hn hEp).mem_iff, mem_lvars]
      rintro (⟨k, hk, h1⟩ | h1 | ⟨_, h1⟩)
      · injection h1 with h1
        exact hex n hn k hk h1
      · cases h1
      · cases h1
  · by_cases h1 : ∃ n, n < C.D ∧ c = chk C i j n
    · obtain ⟨n, hn, rfl⟩ := h1
      rw [hs.hp1 (by omega) n hn]
      exact ((hnew n hn (Es i j).length _ (by rw [lvars_get, dif_neg (by omega), if_pos rfl])).1).symm
    · by_cases h2 : ∃ n, n < C.D ∧ c + 1 = chk C i j n
      · obtain ⟨n, hn, h2⟩ := h2
        have hc1 : c = chk C i j n - 1 := by omega
        rw [hc1, hs.hp2 (by omega) n hn (by omega)]
        exact ((hnew n hn ((Es i j).length + 1) _ (by rw [lvars_get, dif_neg (by omega), if_neg (by omega), if_pos ⟨rfl, by omega⟩])).1).symm
      · push Not at h1 h2
        rw [hs.hp0 c hc (fun _ => h1) (fun _ => h2), hR.hp c hc, f2]
        intro c' hc'
        obtain ⟨n, hn, rfl⟩ := List.mem_map.1 hc'
        rw [List.mem_range] at hn
        rw [← (vars_perm h hi hj hn hEp).mem_iff, mem_lvars]
        rintro (⟨k, hk, h3⟩ | h3 | ⟨h0, h3⟩)
        · cases h3
        · injection h3 with h3
          exact h1 n hn h3
        · injection h3 with h3
          exact h2 n hn (by omega)
  · have hlen : (Es i' j').length = (C.T.ent i').length := (hL i' hi' j' hj').1.length_eq
    have hlen2 : (Es i j).length = (C.T.ent i).length := hEp.length_eq
    have hkl : k < (Es i' j').length + 2 := by
      have h1 := (List.getElem?_eq_some_iff.1 hv).1
      have := lvars_length C.T (Es i' j') (C.W * n + j') (chk C i' j' n)
      split at this <;> omega
    by_cases heq : i' = i ∧ j' = j
    · obtain ⟨rfl, rfl⟩ := heq
      rw [(hnew n hn k v hv).2, hs.hbin k hkl n hn, if_pos]
      refine ⟨hkl, fun hh => ?_⟩
      rw [hw k hh.1] at hh
      simp at hh
    · unfold lane
      rw [hs.hbout _ (by rw [hlen2]; exact bl0_disjoint hj hj' heq ⟨by omega, by omega⟩), f3]
      · exact hR.hm i' hi' j' hj' n hn k v hv
      · intro hh
        obtain ⟨n', hn', h1⟩ := List.mem_map.1 hh
        obtain ⟨g1, g2, _⟩ := chk_inj hi hi' hj hj' h1
        exact heq ⟨g1.symm, g2.symm⟩
  · have hD := h.hD
    have hlen : (Es 0 0).length = (C.T.ent 0).length := (hL 0 h.hT.hq 0 h.hW).1.length_eq
    have hlen2 : (Es i j).length = (C.T.ent i).length := hEp.length_eq
    by_cases heq : 0 = i ∧ 0 = j
    · obtain ⟨rfl, rfl⟩ := heq
      rw [hs.hbin _ (by omega) 0 (by omega), if_pos ⟨by omega, by omega⟩]
      exact newOut_bounds hb0 _ _ _ _ _ _
    · unfold lane
      rw [hs.hbout _ (by rw [hlen2]; exact bl0_disjoint hj h.hW heq ⟨by omega, by omega⟩)]
      exact hR.h0

end Verif.LDPC
