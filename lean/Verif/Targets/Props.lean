import Verif.Targets.Top
import Verif.Polar.EncSim
/- C60: the polar coders on `SIMD<int8_t, n>` give the same results on every target. -/
namespace Verif.Targets
open Verif.SIMD Verif.Polar
open Verif.PolarHelper (I8)
variable {R : Type} {T : Target R}

/-! ### Specification

`symbolAt`, `polar` (PropsEnc.lean), `withParity` (Schedule.lean), `decisions` (SpecSc.lean) and `scl` (SpecScl.lean) are the textbook. -/

/-- Lane `k` of an array of registers. -/
def laneOf (T : Target R) (k : Nat) (a : List R) : List Int := a.map fun r => T.O.int r k

/-! ### Proofs -/

theorem phN_qmul (h : T.Ok) {k : Nat} (hk : k < T.n) {a b : R} {x y : Int} (hx : Sym x) (hy : Sym y) (ha : T.O.int a k = x) (hb : T.O.int b k = y) :
    T.O.int (T.ph.qmul a b) k = x * y := by
  unfold Target.ph
  dsimp only
  split
  · rw [Ops.lane_qmulN h.ops a b hk, ha, hb]
    rcases hx with rfl | rfl <;> rcases hy with rfl | rfl <;> rfl
  · rw [Ops.lane_qmulX h.ops a b hk, ha, hb]
    exact qmulV_sym hx hy

theorem homT (h : T.Ok) {k : Nat} (hk : k < T.n) : Hom T.ph (fun a x => T.O.int a k = x) where
  one := congrFun (reg_one h) ⟨k, hk⟩
  qmul := fun _ _ _ _ hx hy ha hb => phN_qmul h hk hx hy ha hb

theorem laneT (h : T.Ok) {k : Nat} (hk : k < T.n) (M : Nat) : Lane T.ph i8Arith M (fun _ => I8) (fun a v => T.O.int a k = v) (fun a x => T.O.int a k = x) where
  one := congrFun (reg_one h) ⟨k, hk⟩
  qmul := fun _ _ _ _ hx hy ha hb => phN_qmul h hk hx hy ha hb
  signum := by
    rintro a _ rfl _
    have := congrFun (reg_signum h a) ⟨k, hk⟩
    refine this.trans ?_
    show PolarHelper.vsignum (T.O.int a k) = (T.O.int a k).sign
    rw [PolarHelper.vsignum_eq, sgn_sign]
  prod := by
    rintro - a b _ _ - ha hb rfl rfl
    exact (congrFun (reg_prod h a b) ⟨k, hk⟩).trans (prodV_softF ha hb)
  madd := by
    rintro - g a b _ _ _ - hg ha hb rfl rfl rfl
    refine Eq.trans ?_ (maddV_softG hg ha)
    unfold Target.ph
    dsimp only
    split
    · rw [Ops.lane_maddN h.ops g a b hk]
      generalize T.O.int g k = x at *
      generalize T.O.int a k = y at *
      generalize T.O.int b k = z at *
      unfold PolarHelper.maddV
      have : PolarHelper.vmul x (PolarHelper.vmax y (-127)) = PolarHelper.vsign (PolarHelper.vmax y (-127)) x := by
        unfold PolarHelper.vmul PolarHelper.vsign
        rcases hg with rfl | rfl <;> simp [PolarHelper.sgn]
      rw [this]
    · rw [Ops.lane_maddX h.ops g a b hk]

theorem forall2_lane (k : Nat) (l : List R) : List.Forall₂ (fun a x => T.O.int a k = x) l (laneOf T k l) := by
  unfold laneOf
  rw [List.forall₂_map_right_iff, List.forall₂_same]
  exact fun _ _ => rfl

theorem laneOf_getD (k : Nat) {l : List R} (d : R) {j : Nat} (hj : j < l.length) : (laneOf T k l).getD j 0 = T.O.int (l.getD j d) k := by
  unfold laneOf
  rw [← getElem_eq_getD (by rw [List.length_map]; exact hj), ← getElem_eq_getD hj, List.getElem_map]

/-! ### C60 -/

/-- The targets: simd.hh alone with any number of lanes (with and without `__ARM_NEON`), SSE4.1 with 16, 32, 48 and 64 lanes, AVX2 with
32 and 64, NEON with 16 (AArch64 and 32 bit), 32, 48 and 64. -/
theorem C60_targets : (∀ n neon, (port n neon).Ok ∧ (port n neon).n = n) ∧
    (sse.Ok ∧ sse.n = 16) ∧ (sse2.Ok ∧ sse2.n = 32) ∧ (sse3.Ok ∧ sse3.n = 48) ∧ (sse4.Ok ∧ sse4.n = 64) ∧ (avx.Ok ∧ avx.n = 32) ∧ (avx2.Ok ∧ avx2.n = 64) ∧
    (neon_a64.Ok ∧ neon_a64.n = 16) ∧ (neon_a32.Ok ∧ neon_a32.n = 16) ∧ (neon2.Ok ∧ neon2.n = 32) ∧ (neon3.Ok ∧ neon3.n = 48) ∧ (neon4.Ok ∧ neon4.n = 64) :=
  ⟨fun n neon => ⟨port_ok n neon, rfl⟩, ⟨sse_ok, rfl⟩, ⟨sse2_ok, rfl⟩, ⟨sse3_ok, rfl⟩, ⟨sse4_ok, rfl⟩, ⟨avx_ok, rfl⟩, ⟨avx2_ok, rfl⟩,
    ⟨neon_a64_ok, rfl⟩, ⟨neon_a32_ok, rfl⟩, ⟨neon2_ok, rfl⟩, ⟨neon3_ok, rfl⟩, ⟨neon4_ok, rfl⟩⟩

/-- `PolarEncoder<SIMD<int8_t, n>>`: every lane with a message of ±1 symbols gets the polar transform of that message, whatever the
other lanes hold; nothing behind the codeword is written. -/
theorem C60_encode (h : T.Ok) (codeword message : List R) (frozen : List Nat) (level : Nat) (hl : 1 ≤ level)
    (hf : 2 ^ level ≤ 32 * frozen.length) (hm : freeBelow frozen (2 ^ level) ≤ message.length) (hc : 2 ^ level ≤ codeword.length) :
    ∃ cw, encode T.ph codeword message frozen level = some cw ∧ cw.length = codeword.length ∧ cw.drop (2 ^ level) = codeword.drop (2 ^ level) ∧
      ∀ k, k < T.n → (∀ x ∈ laneOf T k message, x = 1 ∨ x = -1) →
        ∀ j, j < 2 ^ level → (laneOf T k cw).getD j 0 = polar level (symbolAt frozen (laneOf T k message)) j := by
  obtain ⟨cw, e, h1, h2, h3⟩ := enc_hom T.ph T.ph.one codeword message frozen level hl hf hm hc
  refine ⟨cw, e, h1, h2, fun k hk hs j hj => ?_⟩
  rw [laneOf_getD k T.ph.one (by omega)]
  exact h3 _ _ (homT h hk) hs (forall2_lane k message) j hj

/-- `PolarSysEnc<SIMD<int8_t, n>>`, for an information set that is closed under bit inclusion: in every such lane the message symbols
are found at the positions that are not frozen, and the lane is a codeword. -/
theorem C60_systematic (h : T.Ok) (codeword message : List R) (frozen : List Nat) (level : Nat) (hl : 1 ≤ level)
    (hf : 2 ^ level ≤ 32 * frozen.length) (hm : freeBelow frozen (2 ^ level) ≤ message.length) (hc : 2 ^ level ≤ codeword.length) (hcl : Closed frozen level) :
    ∃ cw, sysEncode T.ph codeword message frozen level = some cw ∧ cw.length = codeword.length ∧ cw.drop (2 ^ level) = codeword.drop (2 ^ level) ∧
      ∀ k, k < T.n → (∀ x ∈ laneOf T k message, x = 1 ∨ x = -1) →
        (∀ i, i < 2 ^ level → ¬ Frozen frozen i → (laneOf T k cw).getD i 0 = (laneOf T k message).getD (freeBelow frozen i) 0) ∧
        ∃ m' : List Int, m'.length = freeBelow frozen (2 ^ level) ∧ (∀ x ∈ m', x = 1 ∨ x = -1) ∧
          ∀ j, j < 2 ^ level → (laneOf T k cw).getD j 0 = polar level (symbolAt frozen m') j := by
  obtain ⟨cw, e, h1, h2, h3⟩ := sys_hom T.ph T.ph.one codeword message frozen level hl hf hm hc hcl
  refine ⟨cw, e, h1, h2, fun k hk hs => ?_⟩
  obtain ⟨q1, m', q2, q3, q4⟩ := h3 _ _ (homT h hk) hs (forall2_lane k message)
  refine ⟨fun i hi hn => ?_, m', q2, q3, fun j hj => ?_⟩
  · rw [laneOf_getD k T.ph.one (by omega)]; exact q1 i hi hn
  · rw [laneOf_getD k T.ph.one (by omega)]; exact q4 j hj

/-- `PolarParityEncoder<SIMD<int8_t, n>>`: every such lane gets the polar transform of its message with the parity symbols inserted. -/
theorem C60_parity_encode (h : T.Ok) (codeword message : List R) (frozen : List Nat) (level stride first : Nat) (hl : 1 ≤ level)
    (hf : 2 ^ level ≤ 32 * frozen.length) (hm : dataBelow first stride (freeBelow frozen (2 ^ level)) ≤ message.length) (hc : 2 ^ level ≤ codeword.length) :
    ∃ cw, parEncode T.ph codeword message frozen level stride first = some cw ∧ cw.length = codeword.length ∧ cw.drop (2 ^ level) = codeword.drop (2 ^ level) ∧
      ∀ k, k < T.n → (∀ x ∈ laneOf T k message, x = 1 ∨ x = -1) →
        ∀ j, j < 2 ^ level → (laneOf T k cw).getD j 0 = polar level (symbolAt frozen (withParity first stride (laneOf T k message) (freeBelow frozen (2 ^ level)))) j := by
  obtain ⟨cw, e, h1, h2, h3⟩ := par_hom T.ph T.ph.one codeword message frozen level stride first hl hf hm hc
  refine ⟨cw, e, h1, h2, fun k hk hs j hj => ?_⟩
  rw [laneOf_getD k T.ph.one (by omega)]
  exact h3 _ _ (homT h hk) hs (forall2_lane k message) j hj

/-- `PolarDecoder<SIMD<int8_t, n>, MAX_M>`: every lane of the received values gets the decisions of the textbook's successive cancellation
decoder, unless one of them is to be made on a soft value of 0; whatever the other lanes hold. -/
theorem C60_sc (h : T.Ok) (MAX_M : Nat) (soft hard codeword out : List R) (frozen : List Nat) (level : Nat) (hcall : Call MAX_M soft hard codeword frozen level)
    (ho : freeBelow frozen (2 ^ level) ≤ out.length) :
    ∃ l, l.length = freeBelow frozen (2 ^ level) ∧
      scDecode T.ph MAX_M soft hard out codeword frozen level = some (l ++ out.drop (freeBelow frozen (2 ^ level))) ∧
      ∀ k, k < T.n → Decided i8Arith level (fun j => (laneOf T k codeword).getD j 0) (Frozen frozen) →
        laneOf T k l = freeSymbols (Frozen frozen) (decisions i8Arith level (fun j => (laneOf T k codeword).getD j 0) (Frozen frozen) (2 ^ level)) := by
  obtain ⟨l, hl, e⟩ := C37_in_bounds (H := T.ph) MAX_M soft hard codeword out frozen level hcall ho
  refine ⟨l, hl, e, fun k hk hd => ?_⟩
  have hc := hcall.codeword_len
  have := forall2_map (g := fun x : R => T.O.int x k) (sct_lane (i8Laws I8 fun x h1 h2 => ⟨by omega, by omega⟩) (laneT h hk level) hcall (fun j => (laneOf T k codeword).getD j 0)
    (fun j hj => by rw [laneOf_getD k T.ph.one (by omega)]; exact int_I8 _ _) (fun j hj => (laneOf_getD k T.ph.one (by omega)).symm) hd ho e)
  rw [← this]
  unfold laneOf
  congr 1
  simp [← hl]

/-- A call of `PolarListDecoder<SIMD<int8_t, n>, MAX_M>` that the decoder accepts, on a target: as `ListCall` in PropsList.lean.  What
`soft`, `hard` and `maps` hold does not matter. -/
def ListCallT (T : Target R) (MAX_M : Nat) (soft hard maps : List R) (metric : List Int) (rank : Option (List Nat)) (message : List R) (codeword : List Int)
    (frozen : List Nat) (level : Nat) : Prop :=
  ListCall T.n MAX_M (soft.map T.reg) (hard.map T.reg) (maps.map T.map) metric rank (message.map T.reg) codeword frozen level

/-- The same for `PolarParityDecoder<SIMD<int8_t, n>, MAX_M>`. -/
def ParCallT (T : Target R) (MAX_M : Nat) (soft hard maps : List R) (metric : List Int) (rank : Option (List Nat)) (message : List R) (codeword : List Int)
    (frozen : List Nat) (level stride first : Nat) : Prop :=
  ParCall T.n MAX_M (soft.map T.reg) (hard.map T.reg) (maps.map T.map) metric rank (message.map T.reg) codeword frozen level stride first

/-- On every target the list decoder computes the textbook's list: the same paths in the same order, with the same metrics and ranks. -/
theorem C60_list (h : T.Ok) (MAX_M : Nat) (soft hard maps : List R) (metric : List Int) (rank : Option (List Nat)) (message : List R) (codeword : List Int)
    (frozen : List Nat) (level : Nat) (hc : ListCallT T MAX_M soft hard maps metric rank message codeword frozen level) :
    ∃ rank' message' metric', T.listDecode MAX_M soft hard maps metric rank message codeword frozen level = some (rank', message', metric') ∧
      SclResult T.n (scl T.n level (codeword.getD · 0) (Frozen frozen) addPenalty) (freeSymbols (Frozen frozen)) (freeBelow frozen (2 ^ level))
        rank (message.map T.reg) rank' (message'.map T.reg) metric' := by
  obtain ⟨rank', msg', metric', e, hr⟩ := C56_list MAX_M _ _ _ metric rank _ codeword frozen level hc
  obtain ⟨message', e', rfl⟩ := list_sim h MAX_M soft hard maps metric rank message codeword frozen level hc e
  exact ⟨rank', message', metric', e', hr⟩

/-- The same for the parity-aided list decoder. -/
theorem C60_parity (h : T.Ok) (MAX_M : Nat) (soft hard maps : List R) (metric : List Int) (rank : Option (List Nat)) (message : List R) (codeword : List Int)
    (frozen : List Nat) (level stride first : Nat) (hc : ParCallT T MAX_M soft hard maps metric rank message codeword frozen level stride first) :
    ∃ rank' message' metric', T.parDecode MAX_M soft hard maps metric rank message codeword frozen level stride first = some (rank', message', metric') ∧
      SclResult T.n (scl T.n level (codeword.getD · 0) (Frozen frozen) (parityCost first stride (Frozen frozen)))
        (fun w => dataSymbols first stride (freeSymbols (Frozen frozen) w)) (dataBelow first stride (freeBelow frozen (2 ^ level)))
        rank (message.map T.reg) rank' (message'.map T.reg) metric' := by
  obtain ⟨rank', msg', metric', e, hr⟩ := C56_parity MAX_M _ _ _ metric rank _ codeword frozen level stride first hc
  obtain ⟨message', e', rfl⟩ := par_sim h MAX_M soft hard maps metric rank message codeword frozen level stride first hc e
  exact ⟨rank', message', metric', e', hr⟩

theorem scl_same {R' : Type} {T' : Target R'} (hn : T.n = T'.n) {ps ps' : List Path} (hp : ps = ps') {f : List Int → List Int} {K : Nat} {rank r r' : Option (List Nat)}
    {m : List (Reg T.n)} {m' : List (Reg T'.n)} {o : List R} {o' : List R'} {c c' : List Int} (hr : SclResult T.n ps f K rank m r (o.map T.reg) c)
    (hr' : SclResult T'.n ps' f K rank m' r' (o'.map T'.reg) c') :
    r = r' ∧ c = c' ∧ ∀ k, k < T.n → (laneOf T k o).take K = (laneOf T' k o').take K := by
  have hm : c = c' := by rw [hr.metrics, hr'.metrics, hp]
  have hln : ∀ {R : Type} (T : Target R) (k : Fin T.n) (o : List R), ln k (o.map T.reg) = laneOf T k o := fun T k o => by
    unfold ln laneOf
    rw [List.map_map]; rfl
  refine ⟨?_, hm, fun k hk => ?_⟩
  · cases rank with
    | none => rw [hr.ranks.1 rfl, hr'.ranks.1 rfl]
    | some q =>
      obtain ⟨a, rfl, a1, a2, a3⟩ := hr.ranks.2 q rfl
      obtain ⟨b, rfl, b1, b2, b3⟩ := hr'.ranks.2 q rfl
      congr 1
      refine ext_getD 0 (by omega) fun i _ => ?_
      by_cases hi : i < T.n
      · rw [a2 i hi, b2 i (by omega), hm]
      · rw [a3 i (by omega), b3 i (by omega)]
  · have a := hr.messages ⟨k, hk⟩
    have b := hr'.messages ⟨k, by omega⟩
    rw [hln] at a b
    dsimp only at a b
    rw [a, b, hp]

/-- Two targets with the same number of lanes: the list decoder gives the same ranks, the same messages in every lane and the same
metrics, for the same received values; whatever is in the memory they work on. -/
theorem C60_same_list {R' : Type} {T' : Target R'} (h : T.Ok) (h' : T'.Ok) (hn : T.n = T'.n) (MAX_M : Nat) (rank : Option (List Nat)) (codeword : List Int) (frozen : List Nat) (level : Nat)
    (soft hard maps message : List R) (soft' hard' maps' message' : List R') (metric metric' : List Int)
    (hc : ListCallT T MAX_M soft hard maps metric rank message codeword frozen level)
    (hc' : ListCallT T' MAX_M soft' hard' maps' metric' rank message' codeword frozen level) :
    ∃ r o o' m, T.listDecode MAX_M soft hard maps metric rank message codeword frozen level = some (r, o, m) ∧
      T'.listDecode MAX_M soft' hard' maps' metric' rank message' codeword frozen level = some (r, o', m) ∧
      ∀ k, k < T.n → (laneOf T k o).take (freeBelow frozen (2 ^ level)) = (laneOf T' k o').take (freeBelow frozen (2 ^ level)) := by
  obtain ⟨r, o, m, e, hr⟩ := C60_list h MAX_M soft hard maps metric rank message codeword frozen level hc
  obtain ⟨r', o', m', e', hr'⟩ := C60_list h' MAX_M soft' hard' maps' metric' rank message' codeword frozen level hc'
  obtain ⟨rfl, rfl, hk⟩ := scl_same hn (by rw [hn]) hr hr'
  exact ⟨r, o, o', m, e, e', hk⟩

/-- The same for the parity-aided list decoder. -/
theorem C60_same_parity {R' : Type} {T' : Target R'} (h : T.Ok) (h' : T'.Ok) (hn : T.n = T'.n) (MAX_M : Nat) (rank : Option (List Nat)) (codeword : List Int) (frozen : List Nat)
    (level stride first : Nat) (soft hard maps message : List R) (soft' hard' maps' message' : List R') (metric metric' : List Int)
    (hc : ParCallT T MAX_M soft hard maps metric rank message codeword frozen level stride first)
    (hc' : ParCallT T' MAX_M soft' hard' maps' metric' rank message' codeword frozen level stride first) :
    ∃ r o o' m, T.parDecode MAX_M soft hard maps metric rank message codeword frozen level stride first = some (r, o, m) ∧
      T'.parDecode MAX_M soft' hard' maps' metric' rank message' codeword frozen level stride first = some (r, o', m) ∧
      ∀ k, k < T.n → (laneOf T k o).take (dataBelow first stride (freeBelow frozen (2 ^ level))) = (laneOf T' k o').take (dataBelow first stride (freeBelow frozen (2 ^ level))) := by
  obtain ⟨r, o, m, e, hr⟩ := C60_parity h MAX_M soft hard maps metric rank message codeword frozen level stride first hc
  obtain ⟨r', o', m', e', hr'⟩ := C60_parity h' MAX_M soft' hard' maps' metric' rank message' codeword frozen level stride first hc'
  obtain ⟨rfl, rfl, hk⟩ := scl_same hn (by rw [hn]) hr hr'
  exact ⟨r, o, o', m, e, e', hk⟩

/-! ### Cases -/

/-- The received values of PropsSct.lean on the 16 lanes of SSE4.1 and NEON: both calls are accepted, so both targets agree on them. -/
example : ListCallT sse 5 (List.replicate 64 0) (List.replicate 32 0) (List.replicate 32 0) (List.replicate 16 7) (some (List.replicate 16 9)) (List.replicate 6 0) received [0x177f7fff] 5 ∧
    ListCallT neon_a64 5 (List.replicate 64 1) (List.replicate 32 2) (List.replicate 32 3) (List.replicate 16 8) (some (List.replicate 16 9)) (List.replicate 6 4) received [0x177f7fff] 5 := by
  have hf : freeBelow [0x177f7fff] (2 ^ 5) = 6 := by decide +kernel
  have hr : ∀ i, i < 2 ^ 5 → I8 (received.getD i 0) := by unfold I8; decide +kernel
  constructor <;>
  exact ⟨by constructor <;> decide, by norm_num, by norm_num, by norm_num, by simp, by simp, by simp, by simp; rfl, (fun r h => by cases h; simp; exact le_rfl), by simp [received], hr, by norm_num, by simp,
    by rw [hf]; norm_num, by rw [hf]; simp⟩

/-- A run of the list decoder with 4 lanes: the best path, in lane 0, is the message of 1s. -/
example : ((port 4 true).listDecode 5 (List.replicate 64 fun _ => 9) (List.replicate 32 fun _ => 8) (List.replicate 32 fun _ => 7) [5, 5, 5, 5] (some [3, 3, 3, 3])
    (List.replicate 6 fun _ => 6) received [0x177f7fff] 5).map (fun r => (r.1, laneOf (port 4 true) 0 r.2.1)) = some (some [0, 1, 1, 1], [1, 1, 1, 1, 1, 1]) := by
  decide +kernel

end Verif.Targets
