import Verif.Targets.FloatSim
import Verif.Polar.PropsFloatEnc
/- C67: the polar coders on `SIMD<float, n>` and `SIMD<double, n>` give the same results on every target. -/
namespace Verif.Targets
open Verif.SIMD Verif.Polar
open Verif.RS (sb)
open FlList (FReg LXF PXF)
variable {w : Nat} {R : Type} {T : FTarget w R} {A : Fpu w}

/-! ### Specification

`symbolAt`, `polar` (PropsEnc.lean), `withParity` (Schedule.lean), `decisions` (SpecSc.lean) and `sclF` (PropsFloatList.lean) are the textbook. -/

/-- The values in lane `k` of an array of registers. -/
def laneF (T : FTarget w R) (k : Nat) (a : List R) : List Fl := a.map fun r => T.X.val (T.v r k)

/-- A call of `PolarListDecoder<SIMD<float, n>, MAX_M>` or `PolarParityDecoder<SIMD<float, n>, MAX_M>` (or `double`) that the decoder accepts, on a
target: as `FListCall` in PropsFloatList.lean.  What `soft`, `hard` and `maps` hold does not matter. -/
def FListCallT (T : FTarget w R) (MAX_M : Nat) (soft hard maps : List R) (metric : List Fl) (rank : Option (List Nat)) (codeword : List (BitVec w))
    (frozen : List Nat) (level : Nat) (s : Nat → ℚ) (B : ℚ) : Prop :=
  FListCall T.X.R (2 ^ w) T.n MAX_M (soft.map T.reg) (hard.map T.reg) (maps.map T.map) metric rank (codeword.map T.X.val) frozen level s B

/-! ### Proofs -/

theorem homFT (h : T.Ok A) (ie : IsIeee T.X A) (hX : T.X.Ok) (k : Fin T.n) : Hom T.ph (fun a x => T.X.val (T.v a k) = flSym x) :=
  homF T.X.R (fun a => T.reg a k) (by rw [regF_one h hX]; rfl) fun a b => regF_mul h ie a b k

theorem laneFT (h : T.Ok A) (ie : IsIeee T.X A) (hX : T.X.Ok) (k : Fin T.n) {B : ℚ} (hB : T.X.R.rep B) {M : Nat} (hh : B * 2 ^ M < T.X.R.huge) :
    Lane T.ph (minSum T.X.R.rnd) M (RF T.X.R B) (fun a v => T.reg a k = .fin v) (fun a x => T.reg a k = flSym x) := by
  have l := Verif.Polar.laneF T.X.R (H := phFV T.X.R T.n) hB hh (fun r : FReg T.n => r k) rfl (fun _ _ => rfl) (fun _ => rfl) (fun _ _ => rfl) (fun _ _ _ => rfl)
  refine ⟨?_, fun a b x y hx hy ha hb => ?_, fun a v ha hv => ?_, fun t a b v w ht hv hw ha hb => ?_, fun t g a b x v w ht hx hv hw hg ha hb => ?_⟩
  · rw [regF_one h hX]; exact l.one
  · have := l.qmul (T.reg a) (T.reg b) x y hx hy ha hb
    show T.reg (T.vmul a b) k = _
    rw [regF_mul h ie]; exact this
  · have := l.signum (T.reg a) v ha hv
    show T.reg (T.vsignum a) k = _
    rw [regF_signum h hX a k (by rw [ha]; simp)]; exact this
  · have := l.prod t (T.reg a) (T.reg b) v w ht hv hw ha hb
    rw [regF_prod h ie hX a b k (by rw [ha]; simp) (by rw [hb]; simp)]; exact this
  · have := l.madd t (T.reg g) (T.reg a) (T.reg b) x v w ht hx hv hw hg ha hb
    show T.reg (T.vadd (T.vmul g a) b) k = _
    rw [regF_add h ie, regF_mul h ie]; exact this

theorem laneF_getD (k : Nat) {l : List R} (d : R) {j : Nat} (hj : j < l.length) : (laneF T k l).getD j .nan = T.X.val (T.v (l.getD j d) k) := by
  unfold laneF
  rw [← getElem_eq_getD (by rw [List.length_map]; exact hj), ← getElem_eq_getD hj, List.getElem_map]

theorem lanes_pos {MAX_M : Nat} {soft hard maps : List R} {metric : List Fl} {rank : Option (List Nat)} {codeword : List (BitVec w)}
    {frozen : List Nat} {level : Nat} {s : Nat → ℚ} {B : ℚ} (h : FListCallT T MAX_M soft hard maps metric rank codeword frozen level s B) : NeZero T.n := ⟨by have := h.lanes; omega⟩

theorem values_T {MAX_M : Nat} {soft hard maps : List R} {metric : List Fl} {rank : Option (List Nat)} {codeword : List (BitVec w)}
    {frozen : List Nat} {level : Nat} {s : Nat → ℚ} {B : ℚ} (h : FListCallT T MAX_M soft hard maps metric rank codeword frozen level s B) :
    2 ^ level ≤ codeword.length ∧ ∀ j, j < 2 ^ level → T.X.val (codeword.getD j 0) = .fin (s j) ∧ T.X.R.rep (s j) ∧ |s j| ≤ B := by
  have hc : 2 ^ level ≤ codeword.length := by have := h.codeword_len; rwa [List.length_map] at this
  refine ⟨hc, fun j hj => ?_⟩
  have := h.values j hj
  rwa [getD_map' _ _ (0 : BitVec w) _ (by omega)] at this

/-! ### C67 -/

/-- The targets: simd.hh alone with any number of lanes; for `float` SSE4.1 with 4, 8, 12 and 16 lanes, AVX2 with 8 and 16, NEON with 4, 8, 12 and
16; for `double` SSE4.1 with 2, 4, 6 and 8 lanes and AVX2 with 4 and 8. -/
theorem C67_targets :
    (∀ (A : Fpu 32) (n : Nat), (portF float32 A n).Ok A ∧ (portF float32 A n).X = float32 ∧ (portF float32 A n).n = n) ∧
    (∀ (A : Fpu 64) (n : Nat), (portF float64 A n).Ok A ∧ (portF float64 A n).X = float64 ∧ (portF float64 A n).n = n) ∧
    (∀ A, ((sseF32 A).Ok A ∧ (sseF32 A).X = float32 ∧ (sseF32 A).n = 4) ∧ ((sse2F32 A).Ok A ∧ (sse2F32 A).X = float32 ∧ (sse2F32 A).n = 8) ∧
      ((sse3F32 A).Ok A ∧ (sse3F32 A).X = float32 ∧ (sse3F32 A).n = 12) ∧ ((sse4F32 A).Ok A ∧ (sse4F32 A).X = float32 ∧ (sse4F32 A).n = 16) ∧
      ((avxF32 A).Ok A ∧ (avxF32 A).X = float32 ∧ (avxF32 A).n = 8) ∧ ((avx2F32 A).Ok A ∧ (avx2F32 A).X = float32 ∧ (avx2F32 A).n = 16) ∧
      ((neonF32 A).Ok A ∧ (neonF32 A).X = float32 ∧ (neonF32 A).n = 4) ∧ ((neon2F32 A).Ok A ∧ (neon2F32 A).X = float32 ∧ (neon2F32 A).n = 8) ∧
      ((neon3F32 A).Ok A ∧ (neon3F32 A).X = float32 ∧ (neon3F32 A).n = 12) ∧ ((neon4F32 A).Ok A ∧ (neon4F32 A).X = float32 ∧ (neon4F32 A).n = 16)) ∧
    (∀ A, ((sseF64 A).Ok A ∧ (sseF64 A).X = float64 ∧ (sseF64 A).n = 2) ∧ ((sse2F64 A).Ok A ∧ (sse2F64 A).X = float64 ∧ (sse2F64 A).n = 4) ∧
      ((sse3F64 A).Ok A ∧ (sse3F64 A).X = float64 ∧ (sse3F64 A).n = 6) ∧ ((sse4F64 A).Ok A ∧ (sse4F64 A).X = float64 ∧ (sse4F64 A).n = 8) ∧
      ((avxF64 A).Ok A ∧ (avxF64 A).X = float64 ∧ (avxF64 A).n = 4) ∧ ((avx2F64 A).Ok A ∧ (avx2F64 A).X = float64 ∧ (avx2F64 A).n = 8)) ∧
    float32.Ok ∧ float64.Ok :=
  ⟨fun A n => ⟨portF_ok _ A n, rfl, rfl⟩, fun A n => ⟨portF_ok _ A n, rfl, rfl⟩,
    fun A => ⟨⟨sseF32_ok A, rfl, rfl⟩, ⟨sse2F32_ok A, rfl, rfl⟩, ⟨sse3F32_ok A, rfl, rfl⟩, ⟨sse4F32_ok A, rfl, rfl⟩, ⟨avxF32_ok A, rfl, rfl⟩, ⟨avx2F32_ok A, rfl, rfl⟩,
      ⟨neonF32_ok A, rfl, rfl⟩, ⟨neon2F32_ok A, rfl, rfl⟩, ⟨neon3F32_ok A, rfl, rfl⟩, ⟨neon4F32_ok A, rfl, rfl⟩⟩,
    fun A => ⟨⟨sseF64_ok A, rfl, rfl⟩, ⟨sse2F64_ok A, rfl, rfl⟩, ⟨sse3F64_ok A, rfl, rfl⟩, ⟨sse4F64_ok A, rfl, rfl⟩, ⟨avxF64_ok A, rfl, rfl⟩, ⟨avx2F64_ok A, rfl, rfl⟩⟩,
    float32_ok, float64_ok⟩

/-- `PolarEncoder`, `PolarSysEnc` and `PolarParityEncoder` on `SIMD<float, n>`, `SIMD<double, n>`: every lane with a message of ±1.0 gets what
C59 says of a single encoder, whatever the other lanes hold; nothing behind the codeword is written. -/
theorem C67_encode (h : T.Ok A) (hX : T.X.Ok) (ie : IsIeee T.X A) (codeword message : List R) (frozen : List Nat) (level : Nat) (hl : 1 ≤ level)
    (hf : 2 ^ level ≤ 32 * frozen.length) (hc : 2 ^ level ≤ codeword.length) :
    (freeBelow frozen (2 ^ level) ≤ message.length →
      ∃ cw, encode T.ph codeword message frozen level = some cw ∧ cw.length = codeword.length ∧ cw.drop (2 ^ level) = codeword.drop (2 ^ level) ∧
      ∀ k, k < T.n → ∀ m : List Int, (∀ x ∈ m, x = 1 ∨ x = -1) → laneF T k message = m.map flSym →
        ∀ j, j < 2 ^ level → (laneF T k cw).getD j .nan = flSym (polar level (symbolAt frozen m) j)) ∧
    (freeBelow frozen (2 ^ level) ≤ message.length → Closed frozen level →
      ∃ cw, sysEncode T.ph codeword message frozen level = some cw ∧ cw.length = codeword.length ∧ cw.drop (2 ^ level) = codeword.drop (2 ^ level) ∧
      ∀ k, k < T.n → ∀ m : List Int, (∀ x ∈ m, x = 1 ∨ x = -1) → laneF T k message = m.map flSym →
        (∀ i, i < 2 ^ level → ¬ Frozen frozen i → (laneF T k cw).getD i .nan = flSym (m.getD (freeBelow frozen i) 0)) ∧
        ∃ m' : List Int, m'.length = freeBelow frozen (2 ^ level) ∧ (∀ x ∈ m', x = 1 ∨ x = -1) ∧
          ∀ j, j < 2 ^ level → (laneF T k cw).getD j .nan = flSym (polar level (symbolAt frozen m') j)) ∧
    ∀ stride first, dataBelow first stride (freeBelow frozen (2 ^ level)) ≤ message.length →
      ∃ cw, parEncode T.ph codeword message frozen level stride first = some cw ∧ cw.length = codeword.length ∧ cw.drop (2 ^ level) = codeword.drop (2 ^ level) ∧
      ∀ k, k < T.n → ∀ m : List Int, (∀ x ∈ m, x = 1 ∨ x = -1) → laneF T k message = m.map flSym →
        ∀ j, j < 2 ^ level → (laneF T k cw).getD j .nan = flSym (polar level (symbolAt frozen (withParity first stride m (freeBelow frozen (2 ^ level)))) j) := by
  refine ⟨fun hm => ?_, fun hm hcl => ?_, fun stride first hm => ?_⟩
  · obtain ⟨cw, e, h1, h2, h3⟩ := enc_hom T.ph T.ph.one codeword message frozen level hl hf hm hc
    refine ⟨cw, e, h1, h2, fun k hk m hi hmk j hj => ?_⟩
    rw [laneF_getD k T.ph.one (by omega)]
    exact h3 _ m (homFT h ie hX ⟨k, hk⟩) hi (forall2_syms hmk) j hj
  · obtain ⟨cw, e, h1, h2, h3⟩ := sys_hom T.ph T.ph.one codeword message frozen level hl hf hm hc hcl
    refine ⟨cw, e, h1, h2, fun k hk m hi hmk => ?_⟩
    obtain ⟨q1, m', q2, q3, q4⟩ := h3 _ m (homFT h ie hX ⟨k, hk⟩) hi (forall2_syms hmk)
    refine ⟨fun i hi hn => ?_, m', q2, q3, fun j hj => ?_⟩
    · rw [laneF_getD k T.ph.one (by omega)]; exact q1 i hi hn
    · rw [laneF_getD k T.ph.one (by omega)]; exact q4 j hj
  · obtain ⟨cw, e, h1, h2, h3⟩ := par_hom T.ph T.ph.one codeword message frozen level stride first hl hf hm hc
    refine ⟨cw, e, h1, h2, fun k hk m hi hmk j hj => ?_⟩
    rw [laneF_getD k T.ph.one (by omega)]
    exact h3 _ m (homFT h ie hX ⟨k, hk⟩) hi (forall2_syms hmk) j hj

/-- `PolarDecoder<SIMD<float, n>, MAX_M>` (or `double`): every lane whose received values are finite, at most `B` in magnitude, where `B * 2^level` does not
overflow, gets the decisions of the textbook's successive cancellation decoder in the arithmetic of the format, unless one of them is to be made on a soft
value of 0; whatever the other lanes hold. -/
theorem C67_sc (h : T.Ok A) (hX : T.X.Ok) (ie : IsIeee T.X A) (MAX_M : Nat) (soft hard codeword out : List R) (frozen : List Nat) (level : Nat)
    (hcall : Call MAX_M soft hard codeword frozen level) (ho : freeBelow frozen (2 ^ level) ≤ out.length) :
    ∃ l, l.length = freeBelow frozen (2 ^ level) ∧
      scDecode T.ph MAX_M soft hard out codeword frozen level = some (l ++ out.drop (freeBelow frozen (2 ^ level))) ∧
      ∀ k, k < T.n → ∀ (B : ℚ) (s : Nat → ℚ), T.X.R.rep B → B * 2 ^ level < T.X.R.huge →
        (∀ j, j < 2 ^ level → (laneF T k codeword).getD j .nan = .fin (s j) ∧ |s j| ≤ B) → Decided (minSum T.X.R.rnd) level s (Frozen frozen) →
        laneF T k l = (freeSymbols (Frozen frozen) (decisions (minSum T.X.R.rnd) level s (Frozen frozen) (2 ^ level))).map flSym := by
  obtain ⟨l, hl, e⟩ := C37_in_bounds (H := T.ph) MAX_M soft hard codeword out frozen level hcall ho
  refine ⟨l, hl, e, fun k hk B s hB hh hs hd => ?_⟩
  have hc := hcall.codeword_len
  have hv : ∀ j, j < 2 ^ level → T.reg (codeword.getD j T.ph.one) ⟨k, hk⟩ = .fin (s j) := fun j hj => by
    have := (hs j hj).1
    rwa [laneF_getD k T.ph.one (by omega)] at this
  have := sct_lane (floatLaws T.X.R hB) (laneFT h ie hX ⟨k, hk⟩ hB hh) hcall s (fun j hj => ⟨(Format.val_rep hX (hv j hj)).1, by simpa using (hs j hj).2⟩) hv hd ho e
  rw [show (l ++ out.drop (freeBelow frozen (2 ^ level))).take (freeBelow frozen (2 ^ level)) = l by simp [← hl]] at this
  unfold laneF
  generalize freeSymbols _ _ = l' at this
  clear hl e
  induction this with
  | nil => rfl
  | cons h _ ih => rw [List.map_cons, List.map_cons, ih]; congr 1

/-- On every target, and for any finite soft values that cannot overflow, the list decoder computes exactly the textbook's list, rounding included: the
same paths in the same order with the same metrics and ranks. -/
theorem C67_list (h : T.Ok A) (hX : T.X.Ok) (ie : IsIeee T.X A) (MAX_M : Nat) (soft hard maps : List R) (metric : List Fl) (rank : Option (List Nat)) (message : List R)
    (codeword : List (BitVec w)) (frozen : List Nat) (level : Nat) (s : Nat → ℚ) (B : ℚ) (hc : FListCallT T MAX_M soft hard maps metric rank codeword frozen level s B)
    (hmsg : freeBelow frozen (2 ^ level) ≤ message.length) :
    ∃ rank' message' metric', T.listDecode MAX_M soft hard maps metric rank message codeword frozen level = some (rank', message', metric') ∧
      FSclResult T.n (sclF T.X.R T.n level s (Frozen frozen) (addF T.X.R)) (freeSymbols (Frozen frozen)) (freeBelow frozen (2 ^ level))
        rank (message.map T.reg) rank' (message'.map T.reg) metric' := by
  haveI := lanes_pos hc
  obtain ⟨hcl, hval⟩ := values_T hc
  have hs1 := hc.soft_len
  have hs2 := hc.hard_len
  have hs3 := hc.maps_len
  rw [List.length_map] at hs1 hs2 hs3
  have hpow : 2 ^ level ≤ 2 ^ MAX_M := Nat.pow_le_pow_right (by norm_num) hc.level_le
  have hcap : freeBelow frozen (2 ^ level) ≤ (maps.map T.map).length := by
    rw [List.length_map, hs3]
    refine le_trans ?_ hpow
    rw [← cnt_fbits]
    refine (List.length_filter_le _ _).trans ?_
    simp [fbits]
  have hmsg' : freeBelow frozen (2 ^ level) ≤ (message.map T.reg).length := by rwa [List.length_map]
  obtain ⟨soft', es, s1, s2⟩ := dupLoopFT_ok (T := T) (level := level) (codeword := codeword) (soft := soft) T.ph.one (by rw [hs1]; omega) hcl
  obtain ⟨t, t', et, ⟨x1, x2, x3, x4⟩, ⟨r1, r2, r3⟩, pt⟩ := float_topT hc.bound.1
    (listSimF (F := T.X.R) (U := 2 ^ w) hc.lanes.2 hc.bound.1 hc.bound.2 (frozen := frozen) (msg0 := message.map T.reg) (cap := (maps.map T.map).length) hmsg' hcap)
    (ρ := listRelsF T) rfl (listSimFT h ie hX) h T.ph.one (listAgreeFT _) hc.frozen_words hc.level_ge (hc.level_le.trans hc.max_le) hc.frozen_len hc.free hcl hval
    (m := ⟨⟨.fin 0 :: List.replicate (T.n - 1) (.fin 1000000), message, maps, 0⟩, hard, soft'⟩)
    (x' := ⟨.fin 0 :: List.replicate (T.n - 1) (.fin 1000000), message.map T.reg, maps.map T.map, 0⟩) ⟨rfl, rfl, rfl, rfl⟩ s2
    (by rw [hs2]; exact hpow) ⟨mets_init hc.million.1 hc.million.2 _, by simp [freeBelow], rows_init _ _ fun k => by rw [word_init]; rfl⟩
  rw [r2] at r3
  obtain ⟨rank', message', e1, e2, res⟩ := float_end pt.count r1 hc.rank_len hc.free hmsg' hcap r3
  have e2' := e2
  rw [← x2, ← x3] at e2'
  have hm4 := r3.2.2.2.1
  rw [← x3] at hm4
  have hl3 := r3.2.2.1
  rw [← x3, List.length_map, List.length_map] at hl3
  rw [List.length_map] at hcap
  obtain ⟨o, eo, rfl⟩ := backLoopFT_ok h hc.free (by omega) hm4 e2'
  refine ⟨rank', o, t'.metric, ?_, res⟩
  unfold FTarget.listDecode
  rw [show assertUB (level ≤ MAX_M) = some () from if_pos hc.level_le, sb, metric0F_ok hc.million.1 hc.million.2 hc.lanes.1 hc.metric_len, sb, es, sb, et, sb, x1, e1, sb, x4, r2, eo]
  rfl

/-- The same for the parity-aided list decoder. -/
theorem C67_parity (h : T.Ok A) (hX : T.X.Ok) (ie : IsIeee T.X A) (MAX_M : Nat) (soft hard maps : List R) (metric : List Fl) (rank : Option (List Nat)) (message : List R)
    (codeword : List (BitVec w)) (frozen : List Nat) (level stride first : Nat) (s : Nat → ℚ) (B : ℚ) (hc : FListCallT T MAX_M soft hard maps metric rank codeword frozen level s B)
    (hfirst : 1 ≤ first) (hmsg : dataBelow first stride (freeBelow frozen (2 ^ level)) ≤ message.length) :
    ∃ rank' message' metric', T.parDecode MAX_M soft hard maps metric rank message codeword frozen level stride first = some (rank', message', metric') ∧
      FSclResult T.n (sclF T.X.R T.n level s (Frozen frozen) (parityF T.X.R first stride (Frozen frozen))) (fun w => dataSymbols first stride (freeSymbols (Frozen frozen) w))
        (dataBelow first stride (freeBelow frozen (2 ^ level))) rank (message.map T.reg) rank' (message'.map T.reg) metric' := by
  haveI := lanes_pos hc
  obtain ⟨hcl, hval⟩ := values_T hc
  have hs1 := hc.soft_len
  have hs2 := hc.hard_len
  have hs3 := hc.maps_len
  rw [List.length_map] at hs1 hs2 hs3
  have hpow : 2 ^ level ≤ 2 ^ MAX_M := Nat.pow_le_pow_right (by norm_num) hc.level_le
  have hcap : dataBelow first stride (freeBelow frozen (2 ^ level)) ≤ (maps.map T.map).length := by
    rw [List.length_map, hs3]
    refine (dataBelow_le _ _ _).trans (le_trans ?_ hpow)
    rw [← cnt_fbits]
    refine (List.length_filter_le _ _).trans ?_
    simp [fbits]
  have hmsg' : dataBelow first stride (freeBelow frozen (2 ^ level)) ≤ (message.map T.reg).length := by rwa [List.length_map]
  obtain ⟨soft', es, s1, s2⟩ := dupLoopFT_ok (T := T) (level := level) (codeword := codeword) (soft := soft) T.ph.one (by rw [hs1]; omega) hcl
  obtain ⟨t, t', et, ⟨x1, x2, x3, x4, -, -⟩, ⟨r1, r2, -, -, r3⟩, pt⟩ := float_topT hc.bound.1
    (parSimF (F := T.X.R) hc.million.1 hc.million.2 (U := 2 ^ w) hc.lanes.2 hc.bound.1 hc.bound.2 (frozen := frozen) (stride := stride) hfirst (msg0 := message.map T.reg)
      (cap := (maps.map T.map).length) hmsg' hcap)
    (ρ := parRelsF T) rfl (parSimFT h ie hX stride) h T.ph.one (parAgreeFT stride _) hc.frozen_words hc.level_ge (hc.level_le.trans hc.max_le) hc.frozen_len hc.free hcl hval
    (m := ⟨⟨.fin 0 :: List.replicate (T.n - 1) (.fin 1000000), message, maps, 0, T.ph.one, first⟩, hard, soft'⟩)
    (x' := ⟨.fin 0 :: List.replicate (T.n - 1) (.fin 1000000), message.map T.reg, maps.map T.map, 0, (phFV T.X.R T.n).one, first⟩)
    ⟨rfl, rfl, rfl, rfl, ⟨regF_one h hX, fun k => ⟨1, Or.inl rfl, by simp [phFV, flSym]⟩⟩, rfl⟩ s2
    (by rw [hs2]; exact hpow) ⟨mets_init hc.million.1 hc.million.2 _, by simp [freeBelow, dataBelow], by simp [freeBelow, cAt], fun k => by
      rw [word_init]; simp [phFV, flSym, sinceProd, freeSymbols], rows_init _ _ fun k => by rw [word_init]; rfl⟩
  rw [r2] at r3
  have hK := dataBelow_pos (stride := stride) hfirst hc.free
  obtain ⟨rank', message', e1, e2, res⟩ := float_end (symbols := fun w => dataSymbols first stride (freeSymbols (Frozen frozen) w)) pt.count r1 hc.rank_len hK hmsg' hcap r3
  have e2' := e2
  rw [← x2, ← x3] at e2'
  have hm4 := r3.2.2.2.1
  rw [← x3] at hm4
  have hl3 := r3.2.2.1
  rw [← x3, List.length_map, List.length_map] at hl3
  rw [List.length_map] at hcap
  obtain ⟨o, eo, rfl⟩ := backLoopFT_ok h hK (by omega) hm4 e2'
  refine ⟨rank', o, t'.metric, ?_, res⟩
  unfold FTarget.parDecode
  rw [show assertUB (level ≤ MAX_M) = some () from if_pos hc.level_le, sb, metric0F_ok hc.million.1 hc.million.2 hc.lanes.1 hc.metric_len, sb, es, sb, et, sb, x1, e1, sb, x4, r2, eo]
  rfl

theorem fscl_same {R' : Type} {T' : FTarget w R'} (hn : T.n = T'.n) {ps ps' : List (List Int × WithTop ℚ)} (hp : ps = ps') {f : List Int → List Int} {K : Nat} {rank r r' : Option (List Nat)}
    {m : List (FReg T.n)} {m' : List (FReg T'.n)} {o : List R} {o' : List R'} {c c' : List Fl} (hr : FSclResult T.n ps f K rank m r (o.map T.reg) c)
    (hr' : FSclResult T'.n ps' f K rank m' r' (o'.map T'.reg) c') :
    r = r' ∧ c = c' ∧ ∀ k, k < T.n → (laneF T k o).take K = (laneF T' k o').take K := by
  have hm : c = c' := by rw [hr.metrics, hr'.metrics, hp]
  have hln : ∀ {R : Type} (T : FTarget w R) (k : Fin T.n) (o : List R), ((o.map T.reg).map fun r => r k) = laneF T k o := fun T k o => by
    unfold laneF
    rw [List.map_map]; rfl
  refine ⟨?_, hm, fun k hk => ?_⟩
  · cases rank with
    | none => rw [hr.ranks.1 rfl, hr'.ranks.1 rfl]
    | some q =>
      obtain ⟨a, rfl, a1, a2, a3⟩ := hr.ranks.2 q rfl
      obtain ⟨b, rfl, b1, b2, b3⟩ := hr'.ranks.2 q rfl
      congr 1
      refine ext_getD 0 (by omega) fun i _ => ?_
      by_cases hi : i < T.n
      · rw [a2 i hi, b2 i (by omega), hp]
      · rw [a3 i (by omega), b3 i (by omega)]
  · have a := hr.messages ⟨k, hk⟩
    have b := hr'.messages ⟨k, by omega⟩
    rw [hln] at a b
    dsimp only at a b
    rw [a, b, hp]

/-- Two targets with the same format and number of lanes: the list decoder gives the same ranks, the same messages in every lane and the same
metrics, for the same received values (whatever their zeros are); whatever is in the memory they work on. -/
theorem C67_same_list {R' : Type} {T' : FTarget w R'} {A' : Fpu w} (h : T.Ok A) (h' : T'.Ok A') (hX : T.X.Ok) (ie : IsIeee T.X A) (ie' : IsIeee T.X A') (he : T.X = T'.X) (hn : T.n = T'.n)
    (MAX_M : Nat) (rank : Option (List Nat)) (codeword codeword' : List (BitVec w)) (frozen : List Nat) (level : Nat) (s : Nat → ℚ) (B : ℚ)
    (soft hard maps message : List R) (soft' hard' maps' message' : List R') (metric metric' : List Fl)
    (hc : FListCallT T MAX_M soft hard maps metric rank codeword frozen level s B) (hc' : FListCallT T' MAX_M soft' hard' maps' metric' rank codeword' frozen level s B)
    (hm : freeBelow frozen (2 ^ level) ≤ message.length) (hm' : freeBelow frozen (2 ^ level) ≤ message'.length) :
    ∃ r o o' m, T.listDecode MAX_M soft hard maps metric rank message codeword frozen level = some (r, o, m) ∧
      T'.listDecode MAX_M soft' hard' maps' metric' rank message' codeword' frozen level = some (r, o', m) ∧
      ∀ k, k < T.n → (laneF T k o).take (freeBelow frozen (2 ^ level)) = (laneF T' k o').take (freeBelow frozen (2 ^ level)) := by
  obtain ⟨r, o, m, e, hr⟩ := C67_list h hX ie MAX_M soft hard maps metric rank message codeword frozen level s B hc hm
  obtain ⟨r', o', m', e', hr'⟩ := C67_list h' (he ▸ hX) (he ▸ ie') MAX_M soft' hard' maps' metric' rank message' codeword' frozen level s B hc' hm'
  obtain ⟨rfl, rfl, hk⟩ := fscl_same hn (by rw [hn, he]) hr hr'
  exact ⟨r, o, o', m, e, e', hk⟩

/-- The same for the parity-aided list decoder. -/
theorem C67_same_parity {R' : Type} {T' : FTarget w R'} {A' : Fpu w} (h : T.Ok A) (h' : T'.Ok A') (hX : T.X.Ok) (ie : IsIeee T.X A) (ie' : IsIeee T.X A') (he : T.X = T'.X) (hn : T.n = T'.n)
    (MAX_M : Nat) (rank : Option (List Nat)) (codeword codeword' : List (BitVec w)) (frozen : List Nat) (level stride first : Nat) (s : Nat → ℚ) (B : ℚ)
    (soft hard maps message : List R) (soft' hard' maps' message' : List R') (metric metric' : List Fl)
    (hc : FListCallT T MAX_M soft hard maps metric rank codeword frozen level s B) (hc' : FListCallT T' MAX_M soft' hard' maps' metric' rank codeword' frozen level s B)
    (hfirst : 1 ≤ first) (hm : dataBelow first stride (freeBelow frozen (2 ^ level)) ≤ message.length) (hm' : dataBelow first stride (freeBelow frozen (2 ^ level)) ≤ message'.length) :
    ∃ r o o' m, T.parDecode MAX_M soft hard maps metric rank message codeword frozen level stride first = some (r, o, m) ∧
      T'.parDecode MAX_M soft' hard' maps' metric' rank message' codeword' frozen level stride first = some (r, o', m) ∧
      ∀ k, k < T.n → (laneF T k o).take (dataBelow first stride (freeBelow frozen (2 ^ level))) = (laneF T' k o').take (dataBelow first stride (freeBelow frozen (2 ^ level))) := by
  obtain ⟨r, o, m, e, hr⟩ := C67_parity h hX ie MAX_M soft hard maps metric rank message codeword frozen level stride first s B hc hfirst hm
  obtain ⟨r', o', m', e', hr'⟩ := C67_parity h' (he ▸ hX) (he ▸ ie') MAX_M soft' hard' maps' metric' rank message' codeword' frozen level stride first s B hc' hfirst hm'
  obtain ⟨rfl, rfl, hk⟩ := fscl_same hn (by rw [hn, he]) hr hr'
  exact ⟨r, o, o', m, e, e', hk⟩

/-- If the soft values have the signs of the codeword of the message `data` then on every target lane 0 of the list decoder's result holds the message, with
metric and rank 0; every other lane has a larger metric and rank. -/
theorem C67_sign_correct (h : T.Ok A) (hX : T.X.Ok) (ie : IsIeee T.X A) (MAX_M : Nat) (soft hard maps : List R) (metric : List Fl) (rank : Option (List Nat)) (message : List R)
    (codeword : List (BitVec w)) (frozen : List Nat) (level : Nat) (s : Nat → ℚ) (B : ℚ) (hc : FListCallT T MAX_M soft hard maps metric rank codeword frozen level s B)
    (hmsg : freeBelow frozen (2 ^ level) ≤ message.length) (data : List Int) (hlen : data.length = freeBelow frozen (2 ^ level)) (hi : ∀ x ∈ data, x = 1 ∨ x = -1)
    (hsign : ∀ j, j < 2 ^ level → 0 < s j * polar level (symbolAt frozen data) j) :
    ∃ rank' message' metric', T.listDecode MAX_M soft hard maps metric rank message codeword frozen level = some (rank', message', metric') ∧
      FirstLane T.n data rank rank' (message'.map T.reg) metric' := by
  obtain ⟨rank', message', metric', e, res⟩ := C67_list h hX ie MAX_M soft hard maps metric rank message codeword frozen level s B hc hmsg
  exact ⟨rank', message', metric', e, first_list hc hlen hi hsign res⟩

/-- The same for the parity-aided list decoder. -/
theorem C67_parity_sign_correct (h : T.Ok A) (hX : T.X.Ok) (ie : IsIeee T.X A) (MAX_M : Nat) (soft hard maps : List R) (metric : List Fl) (rank : Option (List Nat)) (message : List R)
    (codeword : List (BitVec w)) (frozen : List Nat) (level stride first : Nat) (s : Nat → ℚ) (B : ℚ) (hc : FListCallT T MAX_M soft hard maps metric rank codeword frozen level s B)
    (hfirst : 1 ≤ first) (hmsg : dataBelow first stride (freeBelow frozen (2 ^ level)) ≤ message.length)
    (data : List Int) (hlen : data.length = dataBelow first stride (freeBelow frozen (2 ^ level))) (hi : ∀ x ∈ data, x = 1 ∨ x = -1)
    (hsign : ∀ j, j < 2 ^ level → 0 < s j * polar level (symbolAt frozen (withParity first stride data (freeBelow frozen (2 ^ level)))) j) :
    ∃ rank' message' metric', T.parDecode MAX_M soft hard maps metric rank message codeword frozen level stride first = some (rank', message', metric') ∧
      FirstLane T.n data rank rank' (message'.map T.reg) metric' := by
  obtain ⟨rank', message', metric', e, res⟩ := C67_parity h hX ie MAX_M soft hard maps metric rank message codeword frozen level stride first s B hc hfirst hmsg
  exact ⟨rank', message', metric', e, first_parity hc hlen hi hsign res⟩

/-! ### Cases -/

theorem ieee_num {X : Format w} (a b : BitVec w) :
    (Fl.add X.R (X.val a) (X.val b) = .nan ∨ Fl.Num X.R (Fl.add X.R (X.val a) (X.val b))) ∧ (Fl.mul X.R (X.val a) (X.val b) = .nan ∨ Fl.Num X.R (Fl.mul X.R (X.val a) (X.val b))) := by
  constructor
  · cases ea : X.val a with
    | nan => exact Or.inl rfl
    | inf s => cases eb : X.val b with
      | nan => exact Or.inl rfl
      | inf t => unfold Fl.add; dsimp only; split_ifs <;> simp [Fl.Num]
      | fin q => exact Or.inr trivial
    | fin p => cases eb : X.val b with
      | nan => exact Or.inl rfl
      | inf t => exact Or.inr trivial
      | fin q => exact Or.inr (Fl.num_ofQ _)
  · cases ea : X.val a with
    | nan => exact Or.inl rfl
    | inf s => cases eb : X.val b with
      | nan => exact Or.inl rfl
      | inf t => exact Or.inr trivial
      | fin q => unfold Fl.mul; dsimp only; split_ifs <;> simp [Fl.Num]
    | fin p => cases eb : X.val b with
      | nan => exact Or.inl rfl
      | inf t => unfold Fl.mul; dsimp only; split_ifs <;> simp [Fl.Num]
      | fin q => exact Or.inr (Fl.num_ofQ _)

/-- There is an arithmetic on patterns that is that of IEEE 754. -/
theorem exists_ieee {X : Format w} (hX : X.Ok) (hnan : X.F.inf.toNat + 1 < 2 ^ (w - 1)) : ∃ A : Fpu w, IsIeee X A := by
  choose f hf using fun a b => Format.val_surj hX hnan (ieee_num a b).1
  choose g hg using fun a b => Format.val_surj hX hnan (ieee_num a b).2
  exact ⟨⟨f, f, g⟩, hf, hg⟩

/-- So the conditions of the theorems are met by `float` and `double`. -/
example : (∃ A, IsIeee float32 A) ∧ ∃ A, IsIeee float64 A := ⟨exists_ieee float32_ok (by decide), exists_ieee float64_ok (by decide)⟩

/-- The values of `quarters` (PropsFloat.lean) as `float`s: 1.25f, -0.75f, 1.75f, .. -/
def quarters32 : List (BitVec 32) := [0x3fa00000, 0xbf400000, 0x3fe00000, 0x40100000, 0x3fa00000, 0x3f400000, 0xbfe00000, 0x40100000, 0x3fa00000, 0x3f400000, 0x3fe00000, 0x40100000, 0x3fa00000, 0x3f400000, 0x3fe00000, 0xc0100000, 0x3fa00000, 0x3f400000, 0x3fe00000, 0x40100000, 0x3fa00000, 0x3f400000, 0x3fe00000, 0x40100000, 0x3fa00000, 0xbf400000, 0x3fe00000, 0x40100000, 0x3fa00000, 0x3f400000, 0x3fe00000, 0x40300000]

theorem quarters32_val : quarters32.map float32.val = quarters.map .fin := by decide +kernel

/-- They make a call on the four lanes of SSE4.1 and on those of NEON, so both compute the textbook's list for them, the message of ones first (`quarters_call`). -/
example {A A' : Fpu 32} (ie : IsIeee float32 A) (ie' : IsIeee float32 A') : ∃ r o o' m,
    (sseF32 A).listDecode 5 (List.replicate 64 0) (List.replicate 32 1) (List.replicate 32 2) (List.replicate 4 .nan) (some (List.replicate 4 9)) (List.replicate 6 3) quarters32 [0x177f7fff] 5 = some (r, o, m) ∧
    (neonF32 A').listDecode 5 (List.replicate 64 4) (List.replicate 32 5) (List.replicate 32 6) (List.replicate 4 (.fin 7)) (some (List.replicate 4 9)) (List.replicate 6 8) quarters32 [0x177f7fff] 5 = some (r, o', m) ∧
    ∀ k, k < 4 → (laneF (sseF32 A) k o).take 6 = (laneF (neonF32 A') k o').take 6 := by
  have hf : freeBelow [0x177f7fff] (2 ^ 5) = 6 := by decide +kernel
  have q := quarters_call
  have h1 : FListCallT (sseF32 A) 5 (List.replicate 64 0) (List.replicate 32 1) (List.replicate 32 2) (List.replicate 4 .nan) (some (List.replicate 4 9)) quarters32 [0x177f7fff] 5 (quarters.getD · 0) 32 :=
    ⟨q.lanes, q.million, q.max_le, q.level_ge, q.level_le, by simp, by simp, by simp, by simp; rfl, q.rank_len, by rw [List.length_map]; decide, by
      rw [show quarters32.map (sseF32 A).X.val = quarters.map .fin from quarters32_val]; exact q.values, q.bound, q.frozen_len, q.frozen_words, q.free⟩
  have h2 : FListCallT (neonF32 A') 5 (List.replicate 64 4) (List.replicate 32 5) (List.replicate 32 6) (List.replicate 4 (.fin 7)) (some (List.replicate 4 9)) quarters32 [0x177f7fff] 5 (quarters.getD · 0) 32 :=
    ⟨q.lanes, q.million, q.max_le, q.level_ge, q.level_le, by simp, by simp, by simp, by simp; rfl, q.rank_len, by rw [List.length_map]; decide, by
      rw [show quarters32.map (neonF32 A').X.val = quarters.map .fin from quarters32_val]; exact q.values, q.bound, q.frozen_len, q.frozen_words, q.free⟩
  have := C67_same_list (sseF32_ok A) (neonF32_ok A') float32_ok ie ie' rfl rfl 5 _ _ _ _ 5 _ _ _ _ _ (List.replicate 6 3) _ _ _ (List.replicate 6 8) _ _ h1 h2 (by rw [hf]; simp) (by rw [hf]; simp)
  rw [hf] at this
  exact this

end Verif.Targets
