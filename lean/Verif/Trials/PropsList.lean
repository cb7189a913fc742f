import Verif.Trials.List
import Verif.Trials.PropsPolar
import Verif.CrcPolar.Props
/- C77, the trials of tests/polar_list_regression_test.cc. -/
namespace Verif.Trials
open Verif.RS (sb)
open Verif.Polar (Fl Rounding ph8 phV Frozen freeBelow symbolAt polar Balanced Reg LMap ln parK withParity dataBelow)
open Verif.Hadamard (count)
open Verif.Crc (CRC diffs)
open Verif.CrcPolar (Valid Built sign laneBits neg8)
open Finset (range)

variable {F : Rounding} {w L : Nat}

/-! ### Specification -/

/-- The number of message symbols. -/
noncomputable def listK (kind : ListKind) (level : Nat) (frozen : List Nat) : Nat :=
  match kind with
  | .parity stride first => parK frozen level stride first
  | _ => freeBelow frozen (2 ^ level)

/-- The message of a trial: the drawn bits, with `crcAided` followed by the bits of their CRC. -/
def DrawnBits (crcAided : Bool) (poly : BitVec w) (data bits : List Bool) : Prop :=
  if crcAided then Valid poly bits ∧ bits.take (bits.length - w) = data else bits = data

/-- `sent` are the symbols the encoder transforms: the message, the message with parity symbols, or (systematic encoding) those whose codeword has the message at the positions that are not
frozen. -/
def ListSent (kind : ListKind) (level : Nat) (frozen : List Nat) (message sent : List Int) : Prop :=
  match kind with
  | .plain => sent = message
  | .parity stride first => sent = withParity first stride message (freeBelow frozen (2 ^ level))
  | .systematic => ∀ i, i < 2 ^ level → ¬ Frozen frozen i → polar level (symbolAt frozen sent) i = message.getD (freeBelow frozen i) 0

/-- What the decoder of the trial returns for the received values: see C38 and C39. -/
def ListDecoded (kind : ListKind) (MAX_M level : Nat) (frozen : List Nat) (A : ListArrays L) (noisy : List Int) (rank : List Nat) (dec : List (Reg L)) (metric : List Int) : Prop :=
  match kind with
  | .parity stride first => Polar.parDecode MAX_M A.soft A.hard A.maps A.metric (some A.rank) A.decoded noisy frozen level stride first = some (some rank, dec, metric) ∧
      Polar.ParResult L (some A.rank) A.decoded noisy frozen level stride first (some rank) dec metric
  | _ => Polar.listDecode MAX_M A.soft A.hard A.maps A.metric (some A.rank) A.decoded noisy frozen level = some (some rank, dec, metric) ∧
      ∃ origin, Polar.ListResult L (some A.rank) A.decoded noisy frozen level (some rank) dec metric origin

/-- `bits` are the message bits that lane `k` of the decoder stands for. -/
def LaneOut (kind : ListKind) (level : Nat) (frozen : List Nat) (dec : List (Reg L)) (k : Fin L) (bits : List Bool) : Prop :=
  match kind with
  | .systematic => bits.length = freeBelow frozen (2 ^ level) ∧
      ∀ i, i < 2 ^ level → ¬ Frozen frozen i → polar level (symbolAt frozen (ln k dec)) i = sign (bits.getD (freeBelow frozen i) false)
  | _ => ln k dec = bits.map sign

/-- What a trial counts: `bits` is the message, `sent` as above, `noisy` the received values, `metric` the metrics of the lanes and `out` their messages. -/
structure ListScore (crcAided : Bool) (poly : BitVec w) (level : Nat) (frozen : List Nat) (bits : List Bool) (sent noisy metric : List Int) (out : Fin L → List Bool) (r : ListCounts) : Prop where
  /-- not a number of errors, but the sum of the received values of the symbols -1 -/
  awgn : r.awgn = ∑ i ∈ range (2 ^ level), if polar level (symbolAt frozen sent) i < 0 then noisy.getD i 0 else 0
  erasures : r.erasures = count (2 ^ level) fun i => noisy.getD i 0 = 0
  /-- the decoder leaves nothing undecided -/
  ambiguity : r.ambiguity = 0
  /-- with CRC: the first lane with a matching CRC counts, or lane 0 and a frame error if there is none -/
  aided : crcAided = true →
    (r.frame = 0 ∧ ∃ b : Fin L, Valid poly (out b) ∧ (∀ k, k < b → ¬ Valid poly (out k)) ∧ r.uncorrected = (diffs bits (out b)).card) ∨
    (r.frame = 1 ∧ (∀ k, ¬ Valid poly (out k)) ∧ ∀ k : Fin L, k.val = 0 → r.uncorrected = (diffs bits (out k)).card)
  /-- without CRC: lane 0 counts; it is a frame error if its message is wrong or if lane 1 is as good -/
  unaided : crcAided = false → ∀ k : Fin L, k.val = 0 → r.uncorrected = (diffs bits (out k)).card ∧
    r.frame = if out k ≠ bits ∨ metric.getD 0 0 = metric.getD 1 0 then 1 else 0

/-- The arrays have the sizes of the test, the decoder accepts the level and the mask, there is a bit for every data symbol; without CRC there are two lanes to compare. -/
structure ListTrialCall (kind : ListKind) (crcAided : Bool) (w MAX_M level : Nat) (frozen : List Nat) (A : ListArrays L) (data : List Bool) : Prop where
  lanes : 1 ≤ L ∧ L ≤ 256
  two : crcAided = false → 2 ≤ L
  max_le : MAX_M ≤ 16
  level_ge : 5 ≤ level
  level_le : level ≤ MAX_M
  frozen_len : 2 ^ level ≤ 32 * frozen.length
  frozen_words : ∀ x ∈ frozen, x < 2 ^ 32
  free : 1 ≤ freeBelow frozen (2 ^ level)
  balanced : kind = .systematic → Balanced frozen level
  first_pos : ∀ stride first, kind = .parity stride first → 1 ≤ first
  codeword : A.codeword.length = 2 ^ level
  temp : A.temp.length = 2 ^ level
  message : A.message.length = listK kind level frozen
  decoded : A.decoded.length = listK kind level frozen
  orig : A.orig.length = 2 ^ level
  noisy : A.noisy.length = 2 ^ level
  symb : A.symb.length = 2 ^ level
  rank : A.rank.length = L
  soft : A.soft.length = 2 * 2 ^ MAX_M
  hard : A.hard.length = 2 ^ MAX_M
  maps : A.maps.length = 2 ^ MAX_M
  metric : A.metric.length = L
  crc_fits : crcAided = true → w ≤ listK kind level frozen
  data : data.length = if crcAided then listK kind level frozen - w else listK kind level frozen

/-! ### The parts of a trial -/

theorem laneAt_eq (r : Reg L) (k : Fin L) : laneAt r k = some (r k) := by
  unfold laneAt
  rw [dif_pos k.2]

theorem laneWrong_eq {K : Nat} {dec : List (Reg L)} {message : List Int} (k : Fin L) (hd : dec.length = K) (hm : message.length = K) :
    laneWrong K k dec message = some (count K fun j => (ln k dec).getD j 0 * message.getD j 0 ≤ 0) := by
  apply forUp_count
  intro i cnt hi
  rw [rd_getD (d := 0) (by omega), sb, laneAt_eq, sb, rd_getD (d := 0) (by omega), sb, Polar.ln_getD k dec 0 0 (by omega)]
  rfl

theorem laneErased_eq {K : Nat} {dec : List (Reg L)} (k : Fin L) (hd : dec.length = K) : laneErased K k dec = some (count K fun j => (ln k dec).getD j 0 = 0) := by
  apply forUp_count
  intro i cnt hi
  rw [rd_getD (d := 0) (by omega), sb, laneAt_eq, sb, Polar.ln_getD k dec 0 0 (by omega)]
  rfl

theorem bits_of_sym {l : List Int} (h : ∀ x ∈ l, x = 1 ∨ x = -1) : ∃ bits : List Bool, l = bits.map sign := by
  refine ⟨l.map neg8, ?_⟩
  rw [List.map_map]
  conv_lhs => rw [← List.map_id l]
  refine List.map_congr_left fun x hx => ?_
  rcases h x hx with rfl | rfl <;> rfl

theorem sign_getD {bits : List Bool} {j : Nat} (h : j < bits.length) : (bits.map sign).getD j 0 = sign (bits.getD j false) := by
  rw [List.getD_eq_getElem?_getD, List.getD_eq_getElem?_getD, List.getElem?_map, List.getElem?_eq_getElem h]
  rfl

theorem count_diffs {K : Nat} {a b : List Bool} (ha : a.length = K) (hb : b.length = K) :
    (count K fun j => (a.map sign).getD j 0 * (b.map sign).getD j 0 ≤ 0) = (diffs b a).card := by
  unfold count diffs
  rw [Finset.card_filter, hb]
  refine Finset.sum_congr rfl fun j hj => ?_
  have hj := Finset.mem_range.1 hj
  beta_reduce
  rw [sign_getD (by omega), sign_getD (by omega)]
  cases a.getD j false <;> cases b.getD j false <;> rfl

theorem diffs_eq_zero {a b : List Bool} (h : a.length = b.length) : (diffs a b).card = 0 ↔ b = a := by
  rw [Finset.card_eq_zero]
  constructor
  · intro he
    refine List.ext_getElem h.symm fun i h1 h2 => ?_
    by_contra hne
    have : i ∈ diffs a b := Finset.mem_filter.2 ⟨Finset.mem_range.2 h2, by rw [← getElem_eq_getD h2, ← getElem_eq_getD h1]; exact fun e => hne e.symm⟩
    rw [he] at this
    cases this
  · rintro rfl
    exact Finset.filter_false_of_mem fun i _ h => h rfl

/-- The drawn message. -/
theorem listMessage_ok {kind : ListKind} {crcAided : Bool} {MAX_M level : Nat} {frozen : List Nat} {A : ListArrays L} {data : List Bool} {poly : BitVec w} {crc : CRC w} (hw : 8 ≤ w)
    (hc : Built poly crc) (h : ListTrialCall kind crcAided w MAX_M level frozen A data) :
    ∃ crc' bits, listMessage crcAided crc data A.message (listK kind level frozen) = some (crc', bits.map sign) ∧ Built poly crc' ∧ bits.length = listK kind level frozen ∧
      DrawnBits crcAided poly data bits := by
  have hm := h.message
  have hd := h.data
  unfold listMessage DrawnBits
  cases crcAided with
  | true =>
    simp only [if_true] at hd ⊢
    obtain ⟨crc', bits, e, b1, b2, b3, b4⟩ := CrcPolar.C68_message hw poly crc hc data A.message _ (h.crc_fits rfl) hd (by omega)
    rw [List.drop_of_length_le (by omega), List.append_nil] at e
    exact ⟨crc', bits, e, b1, b2, b3, by rw [b2]; exact b4⟩
  | false =>
    simp only [Bool.false_eq_true, if_false] at hd ⊢
    refine ⟨crc, data, ?_, hc, hd, rfl⟩
    rw [forUp_write (v := fun i => sign (data.getD i false)) hm (by
      intro i o hi ho _
      rw [rd_getD (d := false) (by omega), sb, wr_of_lt (by omega)]
      congr 2
      cases data.getD i false <;> rfl), sb]
    congr 2
    refine List.ext_getElem (by simp [hd]) fun i h1 h2 => ?_
    have : i < data.length := by simpa using h2
    simp [List.getElem?_eq_getElem this]

/-- The encoder of a trial. -/
theorem listEncode_ok {kind : ListKind} {crcAided : Bool} {MAX_M level : Nat} {frozen : List Nat} {A : ListArrays L} {data : List Bool} {message : List Int}
    (h : ListTrialCall kind crcAided w MAX_M level frozen A data) (hml : message.length = listK kind level frozen) (hmv : ∀ x ∈ message, x = 1 ∨ x = -1) :
    ∃ sent, ListSent kind level frozen message sent ∧ sent.length = freeBelow frozen (2 ^ level) ∧ (∀ x ∈ sent, x = 1 ∨ x = -1) ∧
      listEncode kind level frozen A.codeword message = some ((List.range (2 ^ level)).map (polar level (symbolAt frozen sent))) := by
  have hl : 1 ≤ level := by have := h.level_ge; omega
  have hcl := h.codeword
  have hex : ∀ cw : List Int, ∀ g : Nat → Int, Polar.Writes A.codeword cw level g → cw = (List.range (2 ^ level)).map g := by
    intro cw g ⟨h1, h2⟩
    refine List.ext_getElem (by simp [h1, hcl]) fun i i1 i2 => ?_
    rw [getElem_eq_getD i1 0, h2, if_pos (by omega)]
    simp
  cases kind with
  | plain =>
    change message.length = freeBelow frozen (2 ^ level) at hml
    refine ⟨message, rfl, hml, hmv, ?_⟩
    obtain ⟨cw, e, h1, -⟩ := Polar.C35_hard A.codeword message frozen level hl h.frozen_len (by omega) (by omega) hmv
    show Polar.encode ph8 A.codeword message frozen level = _
    rw [e, hex cw _ h1]
  | parity stride first =>
    change message.length = parK frozen level stride first at hml
    obtain ⟨cw, e, h0, h1, -⟩ := Polar.C39_encode A.codeword message frozen level stride first hl h.frozen_len (by unfold parK at hml; omega) (by omega) hmv
    refine ⟨_, rfl, by simp [withParity], ?_, ?_⟩
    · exact Polar.withParity_sym _ _ hmv _
    · show Polar.parEncode ph8 A.codeword message frozen level stride first = _
      rw [e, hex cw _ h1]
  | systematic =>
    change message.length = freeBelow frozen (2 ^ level) at hml
    obtain ⟨cw, e, h1⟩ := (Polar.C36_iff A.codeword frozen level hl h.frozen_len (by omega)).2 (h.balanced rfl) message hml hmv
    obtain ⟨cw', e', h2, -, m', m1, m2, m3⟩ := Polar.C36_codeword A.codeword message frozen level hl h.frozen_len (by omega) (by omega) hmv
    rw [e] at e'
    cases e'
    obtain ⟨cw', e', h3, -⟩ := Polar.C35_hard A.codeword m' frozen level hl h.frozen_len (by omega) (by omega) m2
    rw [m3] at e'
    cases e'
    refine ⟨m', ?_, m1, m2, ?_⟩
    · intro i hi hn
      rw [← h1 i hi hn, h3.2, if_pos hi]
    · obtain ⟨r, hr⟩ := Option.ne_none_iff_exists'.1 ((sysCheck_iff h.frozen_len (by omega) (by omega)).2 h1)
      show (Polar.sysEncode ph8 A.codeword message frozen level >>= fun codeword => sysCheck (2 ^ level) codeword message frozen >>= fun _ => some codeword) = _
      rw [e, sb, hr, sb, hex cw _ h3]

theorem list_call {kind : ListKind} {crcAided : Bool} {MAX_M level : Nat} {frozen : List Nat} {A : ListArrays L} {data : List Bool} {noisy : List Int}
    (h : ListTrialCall kind crcAided w MAX_M level frozen A data) (hk : ∀ s f, kind ≠ .parity s f) (hn : noisy.length = 2 ^ level) (hr : ∀ x ∈ noisy, -128 ≤ x ∧ x ≤ 127) :
    Polar.ListCall L MAX_M A.soft A.hard A.maps A.metric (some A.rank) A.decoded noisy frozen level where
  lanes := h.lanes
  max_le := h.max_le
  level_ge := h.level_ge
  level_le := h.level_le
  soft_len := h.soft
  hard_len := h.hard
  maps_len := h.maps
  metric_len := h.metric
  rank_len := fun r e => by cases e; rw [h.rank]
  codeword_len := by omega
  codeword_range := fun i hi => by rw [← getElem_eq_getD (by omega)]; exact hr _ (List.getElem_mem _)
  frozen_len := h.frozen_len
  frozen_words := h.frozen_words
  free := h.free
  message_len := by
    rw [h.decoded]
    cases kind with
    | parity s f => exact absurd rfl (hk s f)
    | plain => exact le_refl _
    | systematic => exact le_refl _

theorem par_call {stride first : Nat} {crcAided : Bool} {MAX_M level : Nat} {frozen : List Nat} {A : ListArrays L} {data : List Bool} {noisy : List Int}
    (h : ListTrialCall (.parity stride first) crcAided w MAX_M level frozen A data) (hn : noisy.length = 2 ^ level) (hr : ∀ x ∈ noisy, -128 ≤ x ∧ x ≤ 127) :
    Polar.ParCall L MAX_M A.soft A.hard A.maps A.metric (some A.rank) A.decoded noisy frozen level stride first where
  lanes := h.lanes
  max_le := h.max_le
  level_ge := h.level_ge
  level_le := h.level_le
  soft_len := h.soft
  hard_len := h.hard
  maps_len := h.maps
  metric_len := h.metric
  rank_len := fun r e => by cases e; rw [h.rank]
  codeword_len := by omega
  codeword_range := fun i hi => by rw [← getElem_eq_getD (by omega)]; exact hr _ (List.getElem_mem _)
  frozen_len := h.frozen_len
  frozen_words := h.frozen_words
  free := h.free
  first_pos := h.first_pos _ _ rfl
  message_len := by rw [h.decoded]; exact le_refl _

/-- The decoder of a trial. -/
theorem listRunDecoder_ok {kind : ListKind} {crcAided : Bool} {MAX_M level : Nat} {frozen : List Nat} {A : ListArrays L} {data : List Bool} {noisy : List Int}
    (h : ListTrialCall kind crcAided w MAX_M level frozen A data) (hn : noisy.length = 2 ^ level) (hr : ∀ x ∈ noisy, -128 ≤ x ∧ x ≤ 127) :
    ∃ rank dec metric, ListDecoded kind MAX_M level frozen A noisy rank dec metric ∧ listRunDecoder kind MAX_M level frozen A noisy = some (rank, dec) ∧
      dec.length = listK kind level frozen ∧ (∀ k : Fin L, ∀ x ∈ ln k dec, x = 1 ∨ x = -1) ∧ rank.length = L ∧
      ∀ i, i < L → rank.getD i 0 = Polar.changes (fun j => metric.getD j 0) i := by
  have hd := h.decoded
  have hrk := h.rank
  have hln : ∀ (dec : List (Reg L)) (k : Fin L), (ln k dec).length = dec.length := fun dec k => by unfold ln; simp
  cases kind with
  | parity stride first =>
    change A.decoded.length = parK frozen level stride first at hd
    obtain ⟨rank', dec, metric, e, hres⟩ := Polar.C39_decode MAX_M A.soft A.hard A.maps A.metric (some A.rank) A.decoded noisy frozen level stride first (par_call h hn hr)
    obtain ⟨r', rfl, r1, r2, -⟩ := hres.ranks.2 _ rfl
    have hl := hres.frame.1
    refine ⟨r', dec, metric, ⟨e, hres⟩, ?_, hl.trans hd, fun k x hx => hres.symbols k x ?_, by omega, r2⟩
    · unfold listRunDecoder
      simp only
      rw [e]
      rfl
    · rwa [List.take_of_length_le (by rw [hln]; omega)]
  | plain =>
    change A.decoded.length = freeBelow frozen (2 ^ level) at hd
    obtain ⟨rank', dec, metric, o, e, hres⟩ := Polar.C38_decode MAX_M A.soft A.hard A.maps A.metric (some A.rank) A.decoded noisy frozen level (list_call h (by simp) hn hr)
    obtain ⟨r', rfl, r1, r2, -⟩ := hres.ranks.2 _ rfl
    have hl := hres.frame.1
    refine ⟨r', dec, metric, ⟨e, o, hres⟩, ?_, hl.trans hd, fun k x hx => hres.symbols k x ?_, by omega, r2⟩
    · unfold listRunDecoder
      simp only
      rw [e]
      rfl
    · rwa [List.take_of_length_le (by rw [hln]; omega)]
  | systematic =>
    change A.decoded.length = freeBelow frozen (2 ^ level) at hd
    obtain ⟨rank', dec, metric, o, e, hres⟩ := Polar.C38_decode MAX_M A.soft A.hard A.maps A.metric (some A.rank) A.decoded noisy frozen level (list_call h (by simp) hn hr)
    obtain ⟨r', rfl, r1, r2, -⟩ := hres.ranks.2 _ rfl
    have hl := hres.frame.1
    refine ⟨r', dec, metric, ⟨e, o, hres⟩, ?_, hl.trans hd, fun k x hx => hres.symbols k x ?_, by omega, r2⟩
    · unfold listRunDecoder
      simp only
      rw [e]
      rfl
    · rwa [List.take_of_length_le (by rw [hln]; omega)]

/-- The symbols that are compared with the message. -/
theorem listOut_ok {kind : ListKind} {crcAided : Bool} {MAX_M level : Nat} {frozen : List Nat} {A : ListArrays L} {data : List Bool} {dec : List (Reg L)}
    (h : ListTrialCall kind crcAided w MAX_M level frozen A data) (hd : dec.length = listK kind level frozen) (hv : ∀ k : Fin L, ∀ x ∈ ln k dec, x = 1 ∨ x = -1) :
    ∃ (d : List (Reg L)) (out : Fin L → List Bool), listOut kind level frozen A.temp dec = some d ∧ d.length = listK kind level frozen ∧ (∀ k, ln k d = (out k).map sign) ∧ ∀ k, LaneOut kind level frozen dec k (out k) := by
  have hl : 1 ≤ level := by have := h.level_ge; omega
  have hT := h.temp
  cases kind with
  | parity stride first =>
    choose out hout using fun k => bits_of_sym (hv k)
    exact ⟨dec, out, rfl, hd, hout, hout⟩
  | plain =>
    choose out hout using fun k => bits_of_sym (hv k)
    exact ⟨dec, out, rfl, hd, hout, hout⟩
  | systematic =>
    change dec.length = freeBelow frozen (2 ^ level) at hd
    obtain ⟨t, e5, t1, -, t3⟩ := Polar.C35_simd A.temp dec frozen level hl h.frozen_len (by omega) (by omega)
    obtain ⟨⟨d, n⟩, e6, g1, g2, -⟩ := CrcPolar.gather_ok t dec frozen (2 ^ level) (0 : Reg L) h.frozen_len (by omega) (by omega)
    simp only at g1 g2
    have hg : ∀ (k : Fin L) (i : Nat), i < 2 ^ level → ¬ Frozen frozen i → d.getD (freeBelow frozen i) 0 k = polar level (symbolAt frozen (ln k dec)) i := by
      intro k i hi hn
      rw [g2 i hi hn]
      exact t3 k (fun r hr => hv k _ (List.mem_map.2 ⟨r, hr, rfl⟩)) i hi
    have hs : ∀ k : Fin L, ∀ x ∈ ln k d, x = 1 ∨ x = -1 := by
      intro k x hx
      obtain ⟨j, hj, rfl⟩ := List.getElem_of_mem hx
      have hj' : j < d.length := by unfold ln at hj; simpa using hj
      obtain ⟨i, i1, i2, rfl⟩ := free_position frozen (N := 2 ^ level) (j := j) (by omega)
      rw [getElem_eq_getD hj 0, Polar.ln_getD k d 0 0 hj', hg k i i1 i2]
      exact polar_sym (hv k) i
    choose out hout using fun k => bits_of_sym (hs k)
    have hol : ∀ k, (out k).length = freeBelow frozen (2 ^ level) := by
      intro k
      have := congrArg List.length (hout k)
      unfold ln at this
      simp at this
      omega
    refine ⟨d, out, ?_, g1.trans hd, hout, fun k => ⟨hol k, fun i hi hn => ?_⟩⟩
    · show CrcPolar.systematicSymbols (phV L) A.temp dec frozen level = _
      unfold CrcPolar.systematicSymbols
      rw [e5, sb]
      erw [e6]
      rfl
    · have hf := Polar.free_lt hi hn
      rw [← hg k i hi hn, ← Polar.ln_getD k d 0 0 (by omega), hout k, sign_getD (by rw [hol]; omega)]

theorem frameError_eq {K : Nat} {rank : List Nat} {dec : List (Reg L)} {bits out : List Bool} (k : Fin L) (hk : k.val = 0) (hr : 2 ≤ rank.length) (hd : dec.length = K)
    (ho : ln k dec = out.map sign) (hb : bits.length = K) :
    frameError K rank dec (bits.map sign) = some (decide (out ≠ bits ∨ rank.getD 0 0 = rank.getD 1 0)) := by
  have hol : out.length = K := by
    have := congrArg List.length ho
    unfold ln at this
    simp at this
    omega
  have hk0 : ∀ r : Reg L, laneAt r 0 = some (r k) := fun r => by rw [← hk]; exact laneAt_eq r k
  unfold frameError
  rw [rd_getD (d := 0) (by omega), sb, rd_getD (d := 0) (by omega), sb]
  obtain ⟨e, he, h⟩ := forUp_inv (f := fun i error => do
      let r ← rd dec i
      let x ← laneAt r 0
      let m ← rd (bits.map sign) i
      return error || decide (x * m ≤ 0)) (fun n e => e = decide ((∃ j, j < n ∧ out.getD j false ≠ bits.getD j false) ∨ rank.getD 0 0 = rank.getD 1 0)) (Nat.zero_le K)
    (s := rank.getD 0 0 == rank.getD 1 0) (by simp only [Nat.not_lt_zero, false_and, exists_false, false_or]; rfl) (by
      rintro n e - hn rfl
      rw [rd_getD (d := 0) (by omega), sb, hk0, sb, rd_getD (d := 0) (by simp; omega), sb, ← Polar.ln_getD k dec 0 0 (by omega), ho, sign_getD (by omega), sign_getD (by omega)]
      refine ⟨_, rfl, ?_⟩
      have hx : (sign (out.getD n false) * sign (bits.getD n false) ≤ 0) ↔ out.getD n false ≠ bits.getD n false := by
        cases out.getD n false <;> cases bits.getD n false <;> decide
      beta_reduce
      rw [Bool.eq_iff_iff, Bool.or_eq_true, decide_eq_true_iff, decide_eq_true_iff, decide_eq_true_iff, hx]
      constructor
      · rintro ((⟨j, j1, j2⟩ | h) | h)
        · exact Or.inl ⟨j, by omega, j2⟩
        · exact Or.inr h
        · exact Or.inl ⟨n, by omega, h⟩
      · rintro (⟨j, j1, j2⟩ | h)
        · rcases Nat.lt_succ_iff_lt_or_eq.mp j1 with j1 | rfl
          · exact Or.inl (Or.inl ⟨j, j1, j2⟩)
          · exact Or.inr j2
        · exact Or.inl (Or.inr h))
  rw [he, h]
  congr 1
  rw [decide_eq_decide]
  refine or_congr_left ⟨?_, ?_⟩
  · rintro ⟨j, -, hj⟩ rfl
    exact hj rfl
  · intro hne
    by_contra hc
    push Not at hc
    refine hne (List.ext_getElem (by omega) fun j j1 j2 => ?_)
    have := hc j (by omega)
    rwa [← getElem_eq_getD j1, ← getElem_eq_getD j2] at this

theorem laneOut_length {kind : ListKind} {level : Nat} {frozen : List Nat} {dec : List (Reg L)} {k : Fin L} {out : List Bool} (hd : dec.length = listK kind level frozen)
    (h : LaneOut kind level frozen dec k out) : out.length = listK kind level frozen := by
  have hp : ln k dec = out.map sign → out.length = dec.length := by
    intro e
    have := congrArg List.length e
    unfold ln at this
    simp at this
    omega
  cases kind with
  | parity stride first => exact (hp h).trans hd
  | plain => exact (hp h).trans hd
  | systematic => exact h.1

/-- **C77**: for every draw, factor other than 0 and finite noise a trial is defined: the message is the drawn bits (and their CRC), the decoder gets the quantised noisy symbols of its codeword,
and the counters count what `ListScore` says; the CRC object can be used again. -/
theorem C77_list {kind : ListKind} {crcAided : Bool} {MAX_M level : Nat} {frozen : List Nat} {A : ListArrays L} {data : List Bool} {poly : BitVec w} {crc : CRC w} {f : ℚ} {noise : Nat → ℚ}
    (hw : 8 ≤ w) (hp : poly.msb = true) (hc : Built poly crc) (hf : f ≠ 0) (h : ListTrialCall kind crcAided w MAX_M level frozen A data) :
    ∃ bits sent noisy rank dec metric out r crc', bits.length = listK kind level frozen ∧ DrawnBits crcAided poly data bits ∧
      ListSent kind level frozen (bits.map sign) sent ∧ sent.length = freeBelow frozen (2 ^ level) ∧ (∀ x ∈ sent, x = 1 ∨ x = -1) ∧
      Received F (2 ^ level) f noise (polar level (symbolAt frozen sent)) noisy ∧ ListDecoded kind MAX_M level frozen A noisy rank dec metric ∧
      (∀ k, (out k).length = listK kind level frozen ∧ LaneOut kind level frozen dec k (out k)) ∧
      listTrial F kind crcAided MAX_M level (listK kind level frozen) frozen A crc (.fin f) (fun i => .fin (noise i)) data = some (r, crc') ∧ Built poly crc' ∧
      ListScore crcAided poly level frozen bits sent noisy metric out r := by
  obtain ⟨crc1, bits, e1, b1, b2, b3⟩ := listMessage_ok hw hc h
  obtain ⟨sent, s1, s2, s3, e2⟩ := listEncode_ok (message := bits.map sign) h (by simpa using b2) (CrcPolar.sign_sym bits)
  obtain ⟨noisy, e3, g2, g3⟩ := channel_word (F := F) (noise := noise) (word := polar level (symbolAt frozen sent)) (out := (List.range (2 ^ level)).map (polar level (symbolAt frozen sent)))
    (symb := A.symb) hf (by simp) h.symb
  have hnl := g2.length
  obtain ⟨rank, dec, metric, d1, e4, d2, d3, d4, d5⟩ := listRunDecoder_ok h hnl g3
  obtain ⟨d, out, e5, o1, o2, o3⟩ := listOut_ok h d2 d3
  have hol : ∀ k, (out k).length = listK kind level frozen := fun k => laneOut_length d2 (o3 k)
  have hsum : (∑ i ∈ range (2 ^ level), if ((List.range (2 ^ level)).map (polar level (symbolAt frozen sent))).getD i 0 < 0 then noisy.getD i 0 else 0) =
      ∑ i ∈ range (2 ^ level), if polar level (symbolAt frozen sent) i < 0 then noisy.getD i 0 else 0 :=
    Finset.sum_congr rfl fun i hi => by rw [getD_words (Finset.mem_range.1 hi)]
  have hwr : ∀ k : Fin L, laneWrong (listK kind level frozen) k d (bits.map sign) = some (diffs bits (out k)).card := by
    intro k
    rw [laneWrong_eq k o1 (by simpa using b2), o2, count_diffs (hol k) b2]
  have her : ∀ k : Fin L, laneErased (listK kind level frozen) k d = some 0 := by
    intro k
    rw [laneErased_eq k o1, o2, count_zero.2]
    intro j hj
    rw [sign_getD (by rw [hol]; exact hj)]
    cases (out k).getD j false <;> decide
  have hrun : ∀ (crc' : CRC w) (best : Fin L) (error : Bool), listJudge crcAided crc1 (listK kind level frozen) rank d (bits.map sign) = some (crc', best.val, error) →
      listTrial F kind crcAided MAX_M level (listK kind level frozen) frozen A crc (.fin f) (fun i => .fin (noise i)) data =
        some (⟨∑ i ∈ range (2 ^ level), if polar level (symbolAt frozen sent) i < 0 then noisy.getD i 0 else 0, count (2 ^ level) fun i => noisy.getD i 0 = 0,
          (diffs bits (out best)).card, 0, if error then 1 else 0⟩, crc') := by
    intro crc' best error hj
    unfold listTrial
    rw [e1, sb]
    simp only
    rw [e2, sb, copyTo_eq h.orig (by simp), sb, e3, sb, copyTo_eq h.noisy hnl, sb, e4, sb]
    simp only
    rw [e5, sb, hj, sb]
    simp only
    rw [negSum_eq hnl (by simp), sb, erased_eq hnl, sb, hwr best, sb, her best, sb, hsum]
    rfl
  have hL := h.lanes.1
  cases crcAided with
  | true =>
    have hlb : ∀ k, laneBits neg8 d (listK kind level frozen) k = out k := fun k =>
      CrcPolar.laneBits_of_ln d _ k (by rw [List.take_of_length_le (by unfold ln; rw [List.length_map]; omega)]; exact o2 k)
    obtain ⟨crc', best, error, e6, q1, q2, q3⟩ := CrcPolar.C68_select hw poly hp neg8 crc1 b1 d _ (h.crc_fits rfl) (by omega)
    have hbest : best < L := by
      cases error with
      | true => rw [(q3 rfl).1]; omega
      | false => exact (q2 rfl).1
    refine ⟨bits, sent, noisy, rank, dec, metric, out, _, crc', b2, b3, s1, s2, s3, g2, d1, fun k => ⟨hol k, o3 k⟩, hrun crc' ⟨best, hbest⟩ error e6, q1, rfl, rfl, rfl, fun _ => ?_, by simp⟩
    cases error with
    | true =>
      right
      obtain ⟨rfl, q⟩ := q3 rfl
      exact ⟨rfl, fun k hk => q k (by rw [hlb]; exact hk), fun k hk => by rw [show (⟨0, hbest⟩ : Fin L) = k from Fin.ext hk.symm]⟩
    | false =>
      left
      obtain ⟨hb, q, q'⟩ := q2 rfl
      rw [hlb] at q
      exact ⟨rfl, ⟨best, hbest⟩, q, fun k hk => by rw [← hlb]; exact q' k hk, rfl⟩
  | false =>
    have h2 := h.two rfl
    have e6 : listJudge false crc1 (listK kind level frozen) rank d (bits.map sign) = some (crc1, 0, decide (out ⟨0, hL⟩ ≠ bits ∨ rank.getD 0 0 = rank.getD 1 0)) := by
      unfold listJudge
      simp only [Bool.false_eq_true, if_false]
      rw [frameError_eq ⟨0, hL⟩ rfl (by omega) o1 (o2 _) b2]
      rfl
    refine ⟨bits, sent, noisy, rank, dec, metric, out, _, crc1, b2, b3, s1, s2, s3, g2, d1, fun k => ⟨hol k, o3 k⟩, hrun crc1 ⟨0, hL⟩ _ e6, b1, rfl, rfl, rfl, by simp, fun _ k hk => ?_⟩
    obtain rfl : k = ⟨0, hL⟩ := Fin.ext hk
    refine ⟨rfl, ?_⟩
    simp only [decide_eq_true_eq]
    rw [d5 0 (by omega), d5 1 (by omega)]
    have : (Polar.changes (fun j => metric.getD j 0) 0 = Polar.changes (fun j => metric.getD j 0) 1) ↔ metric.getD 0 0 = metric.getD 1 0 := by
      show 0 = 0 + _ ↔ _
      by_cases e : metric.getD 0 0 = metric.getD 1 0 <;> simp [e]
    simp only [this]

/-- **C77** (frame errors, with CRC): a frame error means wrong bits; wrong bits without a frame error differ from the message by a multiple of the generator, not only within `w`
neighbouring positions.  With the polynomial of the test they are at least five (up to 65537 symbols). -/
theorem C77_list_frame {kind : ListKind} {level : Nat} {frozen : List Nat} {poly : BitVec w} {data bits : List Bool} {sent noisy metric : List Int} {out : Fin L → List Bool} {r : ListCounts}
    (hw : 0 < w) (hp : poly.msb = true) (hL : 1 ≤ L) (hd : DrawnBits true poly data bits) (hl : bits.length = listK kind level frozen)
    (ho : ∀ k, (out k).length = listK kind level frozen) (h : ListScore true poly level frozen bits sent noisy metric out r) :
    (r.frame = 1 → 1 ≤ r.uncorrected) ∧
    (r.frame = 0 → r.uncorrected = 0 ∨ ∃ b : Fin L, r.uncorrected = (diffs bits (out b)).card ∧ Crc.genPoly poly ∣ Crc.msgPoly bits - Crc.msgPoly (out b) ∧
      ∀ k, ∃ i, i ∈ diffs bits (out b) ∧ (i < k ∨ k + w ≤ i)) ∧
    (∀ e : w = 32, e ▸ poly = 0xD419CC15#32 → bits.length ≤ 65537 → r.frame = 0 → r.uncorrected = 0 ∨ 5 ≤ r.uncorrected) := by
  have hv : Valid poly bits := by
    unfold DrawnBits at hd
    simp only [if_true] at hd
    exact hd.1
  refine ⟨fun h1 => ?_, fun h0 => ?_, ?_⟩
  · rcases h.aided rfl with ⟨g, -⟩ | ⟨-, g2, g3⟩
    · omega
    · rw [g3 ⟨0, hL⟩ rfl]
      by_contra hz
      have := (diffs_eq_zero (by rw [hl, ho])).1 (show (diffs bits (out ⟨0, hL⟩)).card = 0 by omega)
      exact g2 _ (by rw [this]; exact hv)
  · rcases h.aided rfl with ⟨-, b, q1, -, q3⟩ | ⟨g, -⟩
    · by_cases hz : r.uncorrected = 0
      · exact Or.inl hz
      · right
        obtain ⟨m1, m2⟩ := CrcPolar.C68_mistaken hw poly hp bits (out b) hv q1 (by rw [hl, ho])
        refine ⟨b, q3, m1, m2 fun e => hz ?_⟩
        rw [q3, (diffs_eq_zero (by rw [hl, ho])).2 e.symm]
    · omega
  · rintro rfl e h16 h0
    simp only at e
    subst e
    rcases h.aided rfl with ⟨-, b, q1, -, q3⟩ | ⟨g, -⟩
    · by_cases hz : r.uncorrected = 0
      · exact Or.inl hz
      · right
        rw [q3]
        refine CrcPolar.C68_distance bits (out b) hv q1 (by rw [hl, ho]) h16 fun e => hz ?_
        rw [q3, (diffs_eq_zero (by rw [hl, ho])).2 e.symm]
    · omega

theorem map_sign_inj {a b : List Bool} (h : a.map sign = b.map sign) : a = b :=
  List.map_injective_iff.2 (fun x y hxy => by cases x <;> cases y <;> first | rfl | cases hxy) h

/-- If every received value points to the right symbol, lane 0 has the message, metric 0, and no other lane has. -/
theorem decoded_right {kind : ListKind} {crcAided : Bool} {MAX_M level : Nat} {frozen : List Nat} {A : ListArrays L} {data : List Bool} {bits : List Bool} {sent noisy : List Int}
    {rank : List Nat} {dec : List (Reg L)} {metric : List Int} {out : List Bool} (h : ListTrialCall kind crcAided w MAX_M level frozen A data) (hb : bits.length = listK kind level frozen)
    (hs : ListSent kind level frozen (bits.map sign) sent) (hsl : sent.length = freeBelow frozen (2 ^ level)) (hsv : ∀ x ∈ sent, x = 1 ∨ x = -1) (hn : noisy.length = 2 ^ level)
    (hr : ∀ x ∈ noisy, -128 ≤ x ∧ x ≤ 127) (hpos : ∀ i, i < 2 ^ level → 0 < noisy.getD i 0 * polar level (symbolAt frozen sent) i)
    (hd : ListDecoded kind MAX_M level frozen A noisy rank dec metric) (k : Fin L) (hk : k.val = 0) (hol : out.length = listK kind level frozen) (ho : LaneOut kind level frozen dec k out) :
    out = bits ∧ metric.getD 0 0 = 0 ∧ ∀ j, 0 < j → j < L → 1 ≤ metric.getD j 0 := by
  have hl : 1 ≤ level := by have := h.level_ge; omega
  have hcl := h.codeword
  have hdl := h.decoded
  have hln : (ln k dec).length = dec.length := by unfold ln; simp
  cases kind with
  | parity stride first =>
    obtain ⟨e, hres⟩ := hd
    change bits.length = parK frozen level stride first at hb
    change A.decoded.length = parK frozen level stride first at hdl
    obtain ⟨cw, e1, -, ⟨-, c2⟩, -⟩ := Polar.C39_encode A.codeword (bits.map sign) frozen level stride first hl h.frozen_len (by unfold parK at hb; rw [List.length_map]; omega) (by omega)
      (CrcPolar.sign_sym bits)
    change sent = _ at hs
    subst hs
    obtain ⟨_, _, _, e2, q1, q2, q3, -⟩ := Polar.C39_sign_correct MAX_M A.soft A.hard A.maps A.metric (some A.rank) A.decoded noisy frozen level stride first (par_call h hn hr)
      (bits.map sign) A.codeword cw (by rw [List.length_map]; omega) (CrcPolar.sign_sym bits) (by omega) e1 (fun j hj => by rw [c2, if_pos hj]; exact hpos j hj)
    rw [e] at e2
    cases e2
    have hq := q1 k hk
    have hfl := hres.frame.1
    rw [List.take_of_length_le (by omega), List.take_of_length_le (by rw [List.length_map]; omega)] at hq
    exact ⟨map_sign_inj (Eq.trans (Eq.symm ho) hq), q2, q3⟩
  | plain =>
    obtain ⟨e, o, hres⟩ := hd
    change A.decoded.length = freeBelow frozen (2 ^ level) at hdl
    obtain ⟨cw, e1, ⟨-, c2⟩, -⟩ := Polar.C35_hard A.codeword sent frozen level hl h.frozen_len (by omega) (by omega) hsv
    obtain ⟨_, _, _, e2, q1, q2, q3, -⟩ := Polar.C38_sign_correct MAX_M A.soft A.hard A.maps A.metric (some A.rank) A.decoded noisy frozen level (list_call h (by simp) hn hr)
      sent A.codeword cw (by omega) hsv (by omega) e1 (fun j hj => by rw [c2, if_pos hj]; exact hpos j hj)
    rw [e] at e2
    cases e2
    have hq := q1 k hk
    have hfl := hres.frame.1
    rw [List.take_of_length_le (by omega), List.take_of_length_le (by omega)] at hq
    change sent = _ at hs
    exact ⟨map_sign_inj (Eq.trans (Eq.trans (Eq.symm ho) hq) hs), q2, q3⟩
  | systematic =>
    obtain ⟨e, o, hres⟩ := hd
    change A.decoded.length = freeBelow frozen (2 ^ level) at hdl
    change bits.length = freeBelow frozen (2 ^ level) at hb
    obtain ⟨cw, e1, ⟨-, c2⟩, -⟩ := Polar.C35_hard A.codeword sent frozen level hl h.frozen_len (by omega) (by omega) hsv
    obtain ⟨_, _, _, e2, q1, q2, q3, -⟩ := Polar.C38_sign_correct MAX_M A.soft A.hard A.maps A.metric (some A.rank) A.decoded noisy frozen level (list_call h (by simp) hn hr)
      sent A.codeword cw (by omega) hsv (by omega) e1 (fun j hj => by rw [c2, if_pos hj]; exact hpos j hj)
    rw [e] at e2
    cases e2
    have hq := q1 k hk
    have hfl := hres.frame.1
    rw [List.take_of_length_le (by omega), List.take_of_length_le (by omega)] at hq
    obtain ⟨o1, o2⟩ := ho
    refine ⟨map_sign_inj (List.ext_getElem (by simp; omega) fun j j1 j2 => ?_), q2, q3⟩
    have hj : j < freeBelow frozen (2 ^ level) := by simp at j1; omega
    obtain ⟨i, i1, i2, rfl⟩ := free_position frozen hj
    have := o2 i i1 i2
    rw [hq, hs i i1 i2] at this
    rw [getElem_eq_getD j1 0, getElem_eq_getD j2 0, this, sign_getD (by omega)]

/-- **C77** (weak noise): nothing is wrong, nothing erased, no frame error; the first counter is negative unless the codeword is all 1. -/
theorem C77_list_weak {kind : ListKind} {crcAided : Bool} {MAX_M level : Nat} {frozen : List Nat} {A : ListArrays L} {data : List Bool} {poly : BitVec w} {crc : CRC w} {f : ℚ}
    {noise : Nat → ℚ} (hw : 8 ≤ w) (hp : poly.msb = true) (hc : Built poly crc) (hf : 0 < f) (h : ListTrialCall kind crcAided w MAX_M level frozen A data)
    (hwk : ∀ i, i < 2 ^ level → ∀ c : Int, c = 1 ∨ c = -1 → Weak F f c (noise i)) :
    ∃ bits sent a crc', DrawnBits crcAided poly data bits ∧ ListSent kind level frozen (bits.map sign) sent ∧
      listTrial F kind crcAided MAX_M level (listK kind level frozen) frozen A crc (.fin f) (fun i => .fin (noise i)) data = some (⟨a, 0, 0, 0, 0⟩, crc') ∧ Built poly crc' ∧
      a ≤ 0 ∧ (a = 0 ↔ ∀ i, i < 2 ^ level → polar level (symbolAt frozen sent) i = 1) := by
  obtain ⟨bits, sent, noisy, rank, dec, metric, out, r, crc', b1, b2, s1, s2, s3, g, d1, d2, e, c1, hsc⟩ := C77_list (F := F) (noise := noise) hw hp hc hf.ne' h
  have hpm := polar_sym (level := level) (frozen := frozen) s3
  have hpos : ∀ i, i < 2 ^ level → 0 < polar level (symbolAt frozen sent) i * noisy.getD i 0 := fun i hi => C73_channel_weak hf (hpm i) (hwk i hi _ (hpm i)) (g.value i hi)
  have hgl := g.length
  have hI8 : ∀ x ∈ noisy, -128 ≤ x ∧ x ≤ 127 := by
    intro x hx
    obtain ⟨j, hj, rfl⟩ := List.getElem_of_mem hx
    have := g.value j (by omega)
    rw [← getElem_eq_getD hj] at this
    revert this
    generalize llr F (.fin f) (.fin (noise j)) (polar level (symbolAt frozen sent) j) = y
    generalize noisy[j] = n
    intro this
    have hmn := (C49_quant_float y n).2 this
    cases y with
    | nan => rw [quantF_nan] at hmn; cases hmn
    | inf b => rw [quantF_inf] at hmn; cases hmn; cases b <;> simp
    | fin q => rw [quantF_fin] at hmn; cases hmn; omega
  have hL := h.lanes.1
  obtain ⟨o1, o2, o3⟩ := decoded_right h b1 s1 s2 s3 hgl hI8 (fun i hi => by rw [mul_comm]; exact hpos i hi) d1 ⟨0, hL⟩ rfl (d2 _).1 (d2 _).2
  have h2 : r.erasures = 0 := by
    rw [hsc.erasures, count_zero]
    intro i hi hz
    have := hpos i hi
    rw [hz, mul_zero] at this
    omega
  have hz : (diffs bits (out ⟨0, hL⟩)).card = 0 := (diffs_eq_zero (by rw [o1])).2 o1
  have h3 : r.uncorrected = 0 ∧ r.frame = 0 := by
    cases crcAided with
    | true =>
      have hv : Valid poly (out ⟨0, hL⟩) := by
        rw [o1]
        unfold DrawnBits at b2
        simp only [if_true] at b2
        exact b2.1
      rcases hsc.aided rfl with ⟨h0, b, q1, q2, q3⟩ | ⟨h1, q, -⟩
      · refine ⟨?_, h0⟩
        rcases Nat.eq_zero_or_pos b.val with hb | hb
        · obtain rfl : b = ⟨0, hL⟩ := Fin.ext hb
          rw [q3, hz]
        · exact absurd hv (q2 ⟨0, hL⟩ hb)
      · exact absurd hv (q _)
    | false =>
      obtain ⟨q1, q2⟩ := hsc.unaided rfl ⟨0, hL⟩ rfl
      have := h.two rfl
      have := o3 1 (by omega) (by omega)
      refine ⟨by rw [q1, hz], ?_⟩
      rw [q2, if_neg]
      rintro (e | e)
      · exact e o1
      · omega
  have hterm : ∀ i, i < 2 ^ level → (if polar level (symbolAt frozen sent) i < 0 then noisy.getD i 0 else 0) ≤ 0 := by
    intro i hi
    have := hpos i hi
    rcases hpm i with e | e <;> rw [e] at this ⊢
    · rw [if_neg (by decide)]
    · rw [if_pos (by decide)]; omega
  refine ⟨bits, sent, r.awgn, crc', b2, s1, ?_, c1, ?_, ?_⟩
  · rw [e]
    have h4 := hsc.ambiguity
    obtain ⟨h3, h5⟩ := h3
    obtain ⟨a, b, c, d, e⟩ := r
    simp only at h2 h3 h4 h5
    subst h2 h3 h4 h5
    rfl
  · rw [hsc.awgn]
    exact Finset.sum_nonpos fun i hi => hterm i (Finset.mem_range.1 hi)
  · rw [hsc.awgn, Finset.sum_eq_zero_iff_of_nonpos fun i hi => hterm i (Finset.mem_range.1 hi)]
    constructor
    · intro hh i hi
      rcases hpm i with e | e
      · exact e
      · have := hh i (Finset.mem_range.2 hi)
        rw [e, if_pos (by decide)] at this
        have hp := hpos i hi
        rw [this, mul_zero] at hp
        omega
    · intro hh i hi
      rw [hh i (Finset.mem_range.1 hi)]
      rfl

/-! ### The parity symbols of the test -/

theorem dataBelow_first (first stride : Nat) {r : Nat} (hr : r ≤ first) : dataBelow first stride r = r := by
  induction r with
  | zero => rfl
  | succ n ih =>
    rw [Polar.dataBelow_succ, ih (by omega), if_pos]
    unfold Polar.cAt
    rw [if_pos (by omega)]
    omega

theorem dataBelow_after (first stride t : Nat) : dataBelow first stride (first + t) + (t + stride) / (stride + 1) = first + t := by
  induction t with
  | zero => rw [Nat.add_zero, dataBelow_first first stride (le_refl _), Nat.zero_add, Nat.div_eq_of_lt (by omega), Nat.add_zero]
  | succ t ih =>
    rw [← Nat.add_assoc, Polar.dataBelow_succ, show t + 1 + stride = t + stride + 1 by omega, Nat.succ_div]
    have hd : stride + 1 ∣ t + stride + 1 ↔ stride + 1 ∣ t := by rw [show t + stride + 1 = t + (stride + 1) by omega]; exact Nat.dvd_add_self_right
    have hc : Polar.cAt first stride (first + t) = 0 ↔ stride + 1 ∣ t := by
      unfold Polar.cAt
      rcases Nat.eq_zero_or_pos t with rfl | ht
      · simp
      · rw [if_neg (by omega), show first + t - first - 1 = t - 1 by omega]
        have hlt := Nat.mod_lt (t - 1) (show 0 < stride + 1 by omega)
        have hs := Polar.mod_succ_eq (t - 1) (stride + 1) (by omega)
        rw [Nat.sub_add_cancel ht] at hs
        rw [Nat.dvd_iff_mod_eq_zero, hs]
        split <;> omega
    by_cases h : stride + 1 ∣ t
    · rw [if_neg (by simp [hc.2 h]), if_pos (hd.2 h)]; omega
    · rw [if_pos (by simp [hc, h]), if_neg (by simp [hd, h])]; omega

/-- **C77** (the numbers of the test): with the first parity symbol and the number of message symbols that the test computes from the number `K` of positions that are not frozen, the encoder and
the decoder use exactly that many message symbols.  With CRC the first parity symbol follows 0 message symbols - and the decoder then accesses `message[-1]`, see C39 - exactly if `K` is a multiple
of `S + 1`. -/
theorem C77_parity_numbers (crcAided : Bool) (frozen : List Nat) (level S : Nat) :
    parK frozen level S (firstParity crcAided (freeBelow frozen (2 ^ level)) S) = parityK (freeBelow frozen (2 ^ level)) S ∧
    (firstParity true (freeBelow frozen (2 ^ level)) S = 0 ↔ S + 1 ∣ freeBelow frozen (2 ^ level)) := by
  generalize hK : freeBelow frozen (2 ^ level) = K
  refine ⟨?_, by unfold firstParity; rw [if_pos rfl, Nat.dvd_iff_mod_eq_zero]⟩
  unfold parK parityK firstParity
  rw [hK]
  have hdm := Nat.div_add_mod K (S + 1)
  have hlt := Nat.mod_lt K (show 0 < S + 1 by omega)
  generalize K / (S + 1) = P at *
  generalize K % (S + 1) = R at *
  have hS : S / (S + 1) = 0 := Nat.div_eq_of_lt (by omega)
  cases crcAided with
  | true =>
    have h := dataBelow_after R S ((S + 1) * P)
    rw [Nat.mul_add_div (by omega), hS, Nat.add_comm R, hdm] at h
    simp only [if_true]
    omega
  | false =>
    simp only [Bool.false_eq_true, if_false]
    rcases Nat.eq_zero_or_pos P with rfl | hP
    · rw [dataBelow_first _ _ (by omega)]
      omega
    · have hle : S + 1 ≤ (S + 1) * P := Nat.le_mul_of_pos_right _ hP
      have h := dataBelow_after (R + S) S ((S + 1) * P - S)
      rw [show (S + 1) * P - S + S = (S + 1) * P by omega, Nat.mul_div_cancel_left _ (by omega), show R + S + ((S + 1) * P - S) = K by omega] at h
      omega

/-- The numbers of the test: 716 positions are not frozen, a parity symbol after every 32 message symbols. -/
example : firstParity true 716 32 = 23 ∧ firstParity false 716 32 = 55 ∧ parityK 716 32 = 695 := by decide

/-! ### Cases: level 5, a CRC of 8 bits -/

/-- Arrays of the right sizes for `L` lanes and `K` message symbols, full of nines. -/
def listArrays (L K : Nat) : ListArrays L :=
  ⟨List.replicate 32 9, List.replicate 32 fun _ => 9, List.replicate K 9, List.replicate K fun _ => 9, List.replicate 32 9, List.replicate 32 9, List.replicate 32 .nan, List.replicate L 9,
    List.replicate 64 fun _ => 9, List.replicate 32 fun _ => 9, List.replicate 32 fun _ => 9, List.replicate L 9⟩

/-- Sixteen positions that are not frozen, four lanes, parity symbols after 4 and then every 5 message symbols, as the test would choose them. -/
theorem listArrays_call : ListTrialCall (.parity 5 (firstParity true 16 5)) true 8 5 5 [0xffff] (listArrays 4 14) [true, false, false, true, true, false] where
  lanes := by decide
  two := by decide
  max_le := by decide
  level_ge := by decide
  level_le := by decide
  frozen_len := by decide
  frozen_words := by decide
  free := by decide +kernel
  balanced := by simp
  first_pos := by
    intro s f e
    cases e
    decide
  codeword := by decide
  temp := by decide
  message := by decide +kernel
  decoded := by decide +kernel
  orig := by decide
  noisy := by decide
  symb := by decide
  rank := by decide
  soft := by decide
  hard := by decide
  maps := by decide
  metric := by decide
  crc_fits := by decide +kernel
  data := by decide +kernel

/-- The same for systematic encoding without CRC, information set {15, 23, 27, 29, 30, 31}. -/
theorem listArrays_sys : ListTrialCall .systematic false 8 5 5 [0x177f7fff] (listArrays 4 6) [true, false, false, true, true, false] where
  lanes := by decide
  two := by decide
  max_le := by decide
  level_ge := by decide
  level_le := by decide
  frozen_len := by decide
  frozen_words := by decide
  free := by decide +kernel
  balanced := fun _ => polarArrays_balanced
  first_pos := by simp
  codeword := by decide
  temp := by decide
  message := by decide +kernel
  decoded := by decide +kernel
  orig := by decide
  noisy := by decide
  symb := by decide
  rank := by decide
  soft := by decide
  hard := by decide
  maps := by decide
  metric := by decide
  crc_fits := by simp
  data := by decide +kernel

/-- A CRC object is built with the polynomial it is constructed with. -/
example : (0xD5#8).msb = true ∧ ∀ c, CRC.new 0xD5#8 0#8 = some c → Built 0xD5#8 c := ⟨rfl, fun c h => ⟨0#8, c, [], [], h, rfl⟩⟩

/-- A trial with a new CRC object. -/
def listCase (kind : ListKind) (crcAided : Bool) (L K mask : Nat) (noise : Nat → ℚ) (data : List Bool) : Option ListCounts := do
  let crc ← CRC.new 0xD5#8 0#8
  let (r, _) ← listTrial unrounded kind crcAided 5 5 K [mask] (listArrays L K) crc (.fin 4) (fun i => .fin (noise i)) data
  return r
/-- The data bits of the cases. -/
def listData : List Bool := [true, false, false, true, true, false]
/-- Trials, run: noise at six positions is corrected. -/
example : listCase (.parity 5 4) true 4 14 0xffff (fun i => if i % 8 = 3 then 3 / 2 else if i % 16 = 2 then -3 / 2 else 0) listData = some ⟨-84, 0, 0, 0, 0⟩ := by decide +kernel
/-- With more noise no lane has a matching CRC and one bit of lane 0 is wrong. -/
example : listCase (.parity 5 4) true 4 14 0xffff (fun i => if i % 3 = 2 then 3 / 2 else -1) listData = some ⟨-74, 11, 1, 0, 1⟩ := by decide +kernel
/-- Systematic encoding without CRC, with nothing wrong and with four bits wrong. -/
example : listCase .systematic false 4 6 0x177f7fff (fun i => if i % 4 = 3 then 3 / 2 else -1) listData = some ⟨-88, 12, 0, 0, 0⟩ := by decide +kernel
example : listCase .systematic false 4 6 0x177f7fff (fun i => if i < 15 then 3 / 2 else -1) listData = some ⟨-58, 8, 4, 0, 1⟩ := by decide +kernel

end Verif.Trials
