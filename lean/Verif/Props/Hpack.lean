import Verif.Props.HpackTable
import Verif.Lemmas.HpackBlock
import Verif.Spec.HpackSession
/-! Property theorems of the HPACK encoder and decoder (C18, C20, C27-C41). -/
namespace Verif.Props
open Verif Verif.Spec Verif.Hpack
open Verif.Huffman (Speed)

/-! ### Encoder -/

/-- C27. A successful call appends the octets of exactly the representation that the documentation prescribes for the
input and its flags (`Chosen`, unique by `C27_choice_unique`), with names and values in the form asked for, and changes the
table as that representation prescribes. -/
theorem C27_encoder_refines (s s' : EncoderState) (input : EncoderInput) (hwf : s.table.WF)
    (h : encode input s = (.ok (), s')) :
    ∃ rep bs hdr, Chosen s.table.spec input rep ∧ s'.dst = s.dst ++ bs ∧
      RepWireAs rfcPads 6 (huffName input) (huffValue input) rep bs ∧
      (∀ limit, rep.apply limit s.table.spec = some (some hdr, s'.table.spec)) ∧ s'.table.WF := by
  obtain ⟨rep, hc⟩ := Chosen.exists s.table hwf input
  have hs := encode_spec s hwf input rep 0 hc
  have hnolim : ∀ limit, rep.apply limit s.table.spec = rep.apply 0 s.table.spec := by
    intro limit; cases hc <;> rfl
  cases ha : rep.apply 0 s.table.spec with
  | none => simp only [ha] at hs; rw [hs] at h; simp at h
  | some p =>
    obtain ⟨hdr, st⟩ := p
    simp only [ha] at hs
    have hhdr : ∃ h, hdr = some h := by
      cases hc <;> simp only [Rep.apply] at ha <;> split at ha <;> simp at ha <;> exact ⟨_, ha.1.symm⟩
    obtain ⟨hdr, rfl⟩ := hhdr
    by_cases hf : RepFits (2 ^ 32) (huffName input) (huffValue input) rep
    · obtain ⟨bs, t', hwf', hsp, he, hw, _⟩ := hs.1 hf
      rw [he] at h
      simp only [Prod.mk.injEq, true_and] at h
      subst h
      exact ⟨rep, bs, hdr, hc, rfl, hw, fun limit => by rw [hnolim, ha, hsp], hwf'⟩
    · obtain ⟨_, _, _, _, he, _⟩ := hs.2 hf
      rw [he] at h; simp at h

/-- C27. The prescription is unambiguous. -/
theorem C27_choice_unique (t : SpecTable) (input : EncoderInput) (r r' : Rep) (h : Chosen t input r)
    (h' : Chosen t input r') : r = r' := Chosen.unique h h'

/-- C27. A call succeeds whenever the representation has a meaning and its strings are shorter than 2^32 octets. -/
theorem C27_encoder_succeeds (s : EncoderState) (input : EncoderInput) (rep : Rep) (hwf : s.table.WF)
    (hc : Chosen s.table.spec input rep) (ha : (rep.apply 0 s.table.spec).isSome)
    (hf : RepFits (2 ^ 32) (huffName input) (huffValue input) rep) : ∃ s', encode input s = (.ok (), s') := by
  have hs := encode_spec s hwf input rep 0 hc
  cases h : rep.apply 0 s.table.spec with
  | none => rw [h] at ha; simp at ha
  | some p =>
    simp only [h] at hs
    obtain ⟨bs, t', _, _, he, _⟩ := hs.1 hf
    exact ⟨_, he⟩

/-- C27. A size update always succeeds, appends the octets of the representation and resizes the table. -/
theorem C27_size_update (s : EncoderState) (hwf : s.table.WF) (n : UInt32) :
    ∃ bs s', encUpdateMaxDynamicSize n s = (.ok (), s') ∧ s'.dst = s.dst ++ bs ∧
      RepWire rfcPads 6 (.sizeUpdate n.toNat) bs ∧ s'.table.spec = s.table.spec.resize n.toNat ∧ s'.table.WF := by
  obtain ⟨bs, t', h1, h2, h3, h4, _⟩ := encUpdate_spec s hwf n
  exact ⟨bs, _, h3, rfl, ⟨false, false, h4⟩, h2, h1⟩

/-- A new header with indexing and Huffman coding: all hypotheses of C27 hold for the default encoder. -/
example : (encode (.Literal [97] [98] 0x7) EncoderState.default).1 = .ok () := by decide +kernel

/-- C39. Invalid indices are rejected by the encoder without any effect. An index is invalid if it is zero or beyond
the last dynamic entry. -/
theorem C39_encoder_invalid_index (s : EncoderState) (hwf : s.table.WF) (i : UInt32)
    (hi : i = 0 ∨ 61 + s.table.spec.entries.length < i.toNat) (v : Bytes) (f : UInt8) :
    encode (.Indexed i) s = (.err .InvalidIndex, s) ∧ encode (.IndexedName i v f) s = (.err .InvalidIndex, s) := by
  have hn : s.table.spec.addr i.toNat = none := by
    rw [← Table.get_spec]
    rcases hi with h | h
    · exact (C25_get s.table i).1 h
    · exact (C25_get s.table i).2.2.2 h
  have h1 := encode_spec s hwf _ _ 0 (Chosen.indexed (t := s.table.spec) i)
  have h2 := encode_spec s hwf _ _ 0 (Chosen.indexedName (t := s.table.spec) i v f)
  simp only [Rep.apply, NameRef.resolve, hn, Option.map_none] at h1 h2
  exact ⟨h1, h2⟩

example : (61 : Nat) + EncoderState.default.table.spec.entries.length < (62 : UInt32).toNat := by decide

/-- C40. The only failures: an invalid index given by the caller, without any effect, and a string of 2^32 octets or
more. No panic, no endless loop. The invariant of the table survives in any case. -/
theorem C40_encode_failures (s : EncoderState) (hwf : s.table.WF) (input : EncoderInput) :
    (∃ s', encode input s = (.ok (), s') ∧ s'.table.WF) ∨
    (encode input s = (.err .InvalidIndex, s) ∧
      ∃ i, s.table.get i = none ∧ (input = .Indexed i ∨ ∃ v f, input = .IndexedName i v f)) ∨
    (∃ s', encode input s = (.err .IntegerOverflow, s') ∧ s'.table.WF ∧
      ((∃ i v f, input = .IndexedName i v f ∧ 2 ^ 32 ≤ strLen (huffValue input) v) ∨
       (∃ n v f, input = .Literal n v f ∧
          (2 ^ 32 ≤ strLen (huffName input) n ∨ 2 ^ 32 ≤ strLen (huffValue input) v)))) := by
  obtain ⟨rep, hc⟩ := Chosen.exists s.table hwf input
  have hs := encode_spec s hwf input rep 0 hc
  cases ha : rep.apply 0 s.table.spec with
  | none =>
    simp only [ha] at hs
    right; left
    refine ⟨hs, ?_⟩
    cases hc with
    | indexed i =>
      refine ⟨i, ?_, Or.inl rfl⟩
      rw [Table.get_spec]
      simp only [Rep.apply] at ha
      cases h : s.table.spec.addr i.toNat with
      | none => rfl
      | some e => simp [h] at ha
    | indexedName i v f =>
      refine ⟨i, ?_, Or.inr ⟨v, f, rfl⟩⟩
      rw [Table.get_spec]
      simp only [Rep.apply, NameRef.resolve] at ha
      cases h : s.table.spec.addr i.toNat with
      | none => rfl
      | some e => simp [h] at ha
    | literal n v f hf => simp [Rep.apply, NameRef.resolve] at ha
    | bestFull n v f hf i hl =>
      obtain ⟨⟨e, he, _⟩, _⟩ := hl
      simp [Rep.apply, he] at ha
    | bestName n v f hf hn i hl =>
      obtain ⟨⟨e, he, _⟩, _⟩ := hl
      simp [Rep.apply, NameRef.resolve, he] at ha
    | bestNew n v f hf hn => simp [Rep.apply, NameRef.resolve] at ha
  | some p =>
    obtain ⟨hdr, st⟩ := p
    simp only [ha] at hs
    by_cases hf : RepFits (2 ^ 32) (huffName input) (huffValue input) rep
    · obtain ⟨bs, t', hwf', _, he, _⟩ := hs.1 hf
      left; exact ⟨_, he, hwf'⟩
    · obtain ⟨bs, t', hwf', _, he, _⟩ := hs.2 hf
      right; right
      refine ⟨_, he, hwf', ?_⟩
      cases hc with
      | indexed i => exact absurd trivial hf
      | indexedName i v f => left; exact ⟨i, v, f, rfl, by simp only [RepFits] at hf; omega⟩
      | literal n v f _ => right; exact ⟨n, v, f, rfl, by simp only [RepFits] at hf; omega⟩
      | bestFull n v f _ i _ => exact absurd trivial hf
      | bestName n v f _ _ i _ => right; exact ⟨n, v, f, rfl, by simp only [RepFits] at hf; omega⟩
      | bestNew n v f _ _ => right; exact ⟨n, v, f, rfl, by simp only [RepFits] at hf; omega⟩

/-! ### Decoder -/

/-- C31. One representation: every wire form with at most five octets per integer of a representation that is
meaningful in the current state is read, whatever follows: exactly these octets are consumed, the prescribed header
(if any) is added, the table changes as prescribed. (`decode_exact` with capacity 1.) -/
theorem C31_accepts (s : DecoderState) (hwf : s.table.WF) (rep : Rep) (bs rest : Bytes) (hdr : Option Field)
    (st : SpecTable) (hb : s.buf = bs ++ rest) (hw : RepWire lenientPads 5 rep bs)
    (ha : rep.apply s.maxDynamicSize.toNat s.table.spec = some (hdr, st)) :
    ∃ k s', decodeExact 1 s = (.ok k, s') ∧ s'.buf = rest ∧ s'.dst = s.dst ++ hdr.toList ∧ s'.table.spec = st ∧
      s'.table.WF ∧ s'.maxDynamicSize = s.maxDynamicSize ∧ s'.speed = s.speed := by
  have hone := decodeOne_wire hwf hb hw
  simp only [ha] at hone
  obtain ⟨t', h1, h2, h3⟩ := hone
  have hpos := RepWire.pos hw
  have hemp : s.buf.isEmpty = false := by
    rw [hb]
    cases bs with
    | nil => simp at hpos
    | cons => rfl
  refine ⟨0 + (if rep.isHeader then bs.length else 0), s.step rest hdr t', ?_, rfl, rfl, h2, h1, rfl, rfl⟩
  simp only [decodeExact, decodeExactLoop, M.bind_apply, M.get_apply, M.ite_apply, hemp, h3]
  rfl

/-- C31. The wire forms allowed by the RFC (paddings of ones) are among those. -/
theorem C31_rfc_forms (rep : Rep) (bs : Bytes) (h : RepWire rfcPads 5 rep bs) : RepWire lenientPads 5 rep bs := by
  obtain ⟨hn, hv, h⟩ := h
  refine ⟨hn, hv, ?_⟩
  cases rep with
  | indexed i => exact h
  | sizeUpdate n => exact h
  | literal m nm v =>
    cases nm with
    | index i =>
      obtain ⟨h0, b1, b2, h1, h2, h3⟩ := h
      exact ⟨h0, b1, b2, h1, StrWireAs_lenient h2, h3⟩
    | new n =>
      obtain ⟨b1, b2, b3, h1, h2, h3, h4⟩ := h
      exact ⟨b1, b2, b3, h1, StrWireAs_lenient h2, StrWireAs_lenient h3, h4⟩

/-- C31. A whole block. -/
theorem C31_accepts_block (s : DecoderState) (hwf : s.table.WF) (ws : List (Rep × Octets)) (hs : List Field)
    (t2 : SpecTable) (h : Block lenientPads s.maxDynamicSize.toNat s.table.spec s.buf ws hs t2) :
    ∃ k s', decode s = (.ok k, s') ∧ s'.buf = [] ∧ s'.dst = s.dst ++ hs ∧ s'.table.spec = t2 ∧ s'.table.WF ∧
      s'.maxDynamicSize = s.maxDynamicSize ∧ s'.speed = s.speed := by
  obtain ⟨t', h1, h2, h3⟩ := decode_block hwf h
  exact ⟨_, _, h3, rfl, rfl, h2, h1, rfl, rfl⟩

/-- RFC 7541 C.2.1 (literal with indexing, new name), as a non-trivial instance of a block. -/
example : decode { DecoderState.default with buf := [0x40, 1, 0x61, 1, 0x62] ++ [0x82] ++ [0x20] } =
    (.ok 6, { DecoderState.default with table := Table.withDynamicSize 0, dst := [([0x61], [0x62], 4), ([58, 109, 101, 116, 104, 111, 100], [71, 69, 84], 0)] }) := by
  decide +kernel

/-- C32. One step on a non-empty buffer that succeeds has read a wire form of a representation that is meaningful in
the current state, and its effect is that of this representation. -/
theorem C32_sound (s s' : DecoderState) (hwf : s.table.WF) (k : Nat) (hne : s.buf ≠ [])
    (h : decodeExact 1 s = (.ok k, s')) :
    ∃ rep bs hdr, s.buf = bs ++ s'.buf ∧ RepWire lenientPads 5 rep bs ∧
      rep.apply s.maxDynamicSize.toNat s.table.spec = some (hdr, s'.table.spec) ∧ s'.dst = s.dst ++ hdr.toList ∧
      s'.table.WF ∧ s'.maxDynamicSize = s.maxDynamicSize ∧ s'.speed = s.speed := by
  have hemp : s.buf.isEmpty = false := by simpa using hne
  rcases decodeOne_cases hwf hne with ⟨rep, bs, rest, hdr, t', hb, hw, ha, hwf', h'⟩ | ⟨_, ⟨e, h', _⟩ | ⟨h', _⟩⟩
  · simp only [decodeExact, decodeExactLoop, M.bind_apply, M.get_apply, M.ite_apply, hemp, h'] at h
    simp only [Bool.false_eq_true, if_false, M.pure_apply, Prod.mk.injEq] at h
    obtain ⟨_, rfl⟩ := h
    exact ⟨rep, bs, hdr, hb, hw, ha, rfl, hwf', rfl, rfl⟩
  · simp [decodeExact, decodeExactLoop, M.bind_apply, hne, h'] at h
  · simp [decodeExact, decodeExactLoop, M.bind_apply, hne, h'] at h

/-- C32. A successful `decode` has read a block; C37: the returned number is the number of octets of the
representations that add a header. -/
theorem C32_sound_block (s s' : DecoderState) (hwf : s.table.WF) (k : Nat) (h : decode s = (.ok k, s')) :
    ∃ ws hs, Block lenientPads s.maxDynamicSize.toNat s.table.spec s.buf ws hs s'.table.spec ∧ s'.buf = [] ∧
      s'.dst = s.dst ++ hs ∧ s'.table.WF ∧ s'.maxDynamicSize = s.maxDynamicSize ∧ s'.speed = s.speed ∧
      k = (headerOctets ws).length := by
  obtain ⟨s1, ws, hs, r, h1, ⟨⟨used, hb, hblk⟩, h3, h4, h5, h6⟩, h7⟩ := decode_spec s hwf
  rw [h] at h1
  simp only [Prod.mk.injEq] at h1
  obtain ⟨rfl, rfl⟩ := h1
  rcases h7 with ⟨h7, h8⟩ | h7
  · rw [h8, List.append_nil] at hb
    rw [← hb] at hblk
    simp only [Res.ok.injEq] at h7
    exact ⟨ws, hs, hblk, h8, h3, h4, h6, h5, h7⟩
  · cases h7

/-- C37. The returned number, stated on its own. -/
theorem C37_count (s s' : DecoderState) (hwf : s.table.WF) (k : Nat) (h : decode s = (.ok k, s')) :
    ∃ ws hs, Block lenientPads s.maxDynamicSize.toNat s.table.spec s.buf ws hs s'.table.spec ∧
      k = (headerOctets ws).length ∧
      ((∀ w ∈ ws, w.1.isHeader = true) → k = s.buf.length) ∧
      ((∃ w ∈ ws, w.1.isHeader = false) → k < s.buf.length) := by
  obtain ⟨ws, hs, hblk, _, _, _, _, _, hk⟩ := C32_sound_block s s' hwf k h
  refine ⟨ws, hs, hblk, hk, fun hall => ?_, fun hex => ?_⟩
  · rw [hk, hblk.2.1, headerOctets, wireOf, List.filter_eq_self.mpr hall]
  · rw [hk, hblk.2.1]
    have hpos : ∀ w ∈ ws, 1 ≤ w.2.length := fun w hw => RepWire.pos (hblk.1 w hw)
    clear hblk hk h
    induction ws with
    | nil => obtain ⟨w, hw, _⟩ := hex; simp at hw
    | cons w ws ih =>
      obtain ⟨rep, bs⟩ := w
      rw [headerOctets_cons]
      have hle : ∀ ws : List (Rep × Octets), (headerOctets ws).length ≤ (wireOf ws).length := by
        intro ws
        induction ws with
        | nil => simp [headerOctets]
        | cons w ws ih =>
          obtain ⟨rep, bs⟩ := w
          rw [headerOctets_cons]
          simp only [wireOf, List.flatMap_cons, List.length_append] at ih ⊢
          split <;> omega
      have := hle ws
      have hp := hpos (rep, bs) (by simp)
      simp only [wireOf, List.flatMap_cons, List.length_append] at this ih ⊢
      obtain ⟨w, hw, hww⟩ := hex
      simp only [List.mem_cons] at hw
      rcases hw with rfl | hw
      · simp only at hww hp
        rw [hww]
        simp only [Bool.false_eq_true, if_false]
        omega
      · have := ih ⟨w, hw, hww⟩ (fun w hw => hpos w (by simp [hw]))
        split <;> omega

/-- The reading "the returned number is the number of octets consumed". -/
def CountIsConsumed : Prop :=
  ∀ (s s' : DecoderState) (k : Nat), s.table.WF → decode s = (.ok k, s') → k + s'.buf.length = s.buf.length

/-- C37. That reading is false of the code: a size update is consumed and not counted. -/
theorem C37_count_not_consumed : ¬ CountIsConsumed := by
  intro h
  have hd : decode { DecoderState.default with buf := [0x20, 0x82] } =
      (.ok 1, { DecoderState.default with table := Table.withDynamicSize 0, dst := [([58, 109, 101, 116, 104, 111, 100], [71, 69, 84], 0)] }) := by
    decide +kernel
  have := h _ _ _ (Table.withDynamicSize_WF 4096) hd
  simp [DecoderState.default] at this

/-- C33. What a failed `decode` leaves behind: the buffer is cut just before the offending octets, the headers before
them have been delivered, the table is the one after them; no meaningful representation starts at the offending octets.
The octets before them are a block. -/
theorem C33_failure (s s' : DecoderState) (hwf : s.table.WF) (e : DecoderError) (h : decode s = (.err e, s')) :
    ∃ used ws hs, s.buf = used ++ s'.buf ∧ s'.buf ≠ [] ∧
      Block lenientPads s.maxDynamicSize.toNat s.table.spec used ws hs s'.table.spec ∧
      s'.dst = s.dst ++ hs ∧ s'.table.WF ∧ s'.maxDynamicSize = s.maxDynamicSize ∧ s'.speed = s.speed ∧
      (∀ rep bs rest, s'.buf = bs ++ rest → RepWire lenientPads 5 rep bs →
        rep.apply s'.maxDynamicSize.toNat s'.table.spec = none) ∧
      decode s' = (.err e, s') := by
  obtain ⟨s1, ws, hs, r, h1, ⟨⟨used, hb, hblk⟩, h3, h4, h5, h6⟩, h7⟩ := decode_spec s hwf
  rw [h] at h1
  simp only [Prod.mk.injEq] at h1
  obtain ⟨rfl, rfl⟩ := h1
  rcases h7 with ⟨h7, h8⟩ | h7
  · simp at h7
  · cases h7 with
    | err e hne hd hno hc => exact ⟨used, ws, hs, hb, hne, hblk, h3, h4, h6, h5, hno, decode_fail h4 hne hd (by simp)⟩

/-- A failure after a header that was stored: the header is delivered, the table keeps it, the offending octet is left. -/
example : decode { DecoderState.default with buf := [0x40, 1, 0x61, 1, 0x62, 0xBF] } =
    (.err .InvalidIndex, { DecoderState.default with
      buf := [0xBF], dst := [([0x61], [0x62], 4)], table := Table.ofEntries [([0x61], [0x62])] 4096 }) := by decide +kernel

/-- The documentation's claim: after an error nothing has been consumed or written. -/
def FailureTouchesNothing : Prop :=
  ∀ (s s' : DecoderState) (e : DecoderError), s.table.WF → decode s = (.err e, s') → s' = s

/-- C33. That claim is false of the code. -/
theorem C33_untouched_false : ¬ FailureTouchesNothing := by
  intro h
  have hd : decode { DecoderState.default with buf := [0x82, 0x80] } =
      (.err .InvalidIndex, { DecoderState.default with buf := [0x80], dst := [([58, 109, 101, 116, 104, 111, 100], [71, 69, 84], 0)] }) := by
    decide +kernel
  have := h _ _ _ (Table.withDynamicSize_WF 4096) hd
  simp [DecoderState.default] at this

/-- C33. It holds for one representation: a failing step changes nothing. -/
theorem C33_step_atomic (s s' : DecoderState) (hwf : s.table.WF) (r : Res DecoderError Nat)
    (h : decodeExact 1 s = (r, s')) (hr : ∀ k, r ≠ .ok k) : s' = s := by
  by_cases hne : s.buf = []
  · rw [decodeExact, decodeExactLoop_nil 1 0 hne] at h
    simp only [Prod.mk.injEq] at h
    exact h.2.symm
  · rcases decodeOne_cases hwf hne with ⟨rep, bs, rest, hdr, t', hb, hw, ha, hwf', h'⟩ | ⟨_, ⟨e, h', _⟩ | ⟨h', _⟩⟩
    · simp [decodeExact, decodeExactLoop, M.bind_apply, hne, h'] at h
      exact absurd h.1.symm (hr _)
    · simp [decodeExact, decodeExactLoop, M.bind_apply, hne, h'] at h
      exact h.2.symm
    · simp [decodeExact, decodeExactLoop, M.bind_apply, hne, h'] at h
      exact h.2.symm

/-- A failing step: a literal whose value is cut off. -/
example : decodeExact 1 { DecoderState.default with buf := [0x40, 1, 0x61, 2, 0x62] } =
    (.err .IntegerUnderflow, { DecoderState.default with buf := [0x40, 1, 0x61, 2, 0x62] }) := by decide +kernel

/-- C34. Decoding in pieces: if `decode` succeeds on `b1`, then decoding `b1 ++ b2` at once gives the same verdict and
the same final state as decoding `b1` and then `b2`; the counts add up. -/
theorem C34_pieces (s s1 : DecoderState) (hwf : s.table.WF) (b1 b2 : Bytes) (k1 : Nat)
    (h : decode { s with buf := b1 } = (.ok k1, s1)) :
    (decode { s with buf := b1 ++ b2 }).2 = (decode { s1 with buf := b2 }).2 ∧
    (decode { s with buf := b1 ++ b2 }).1 =
      (match (decode { s1 with buf := b2 }).1 with | .ok k2 => .ok (k1 + k2) | r => r) := by
  obtain ⟨ws, hs, hblk, hb, hdst, hwf1, hlim, hsp, hk⟩ := C32_sound_block { s with buf := b1 } s1 hwf k1 h
  obtain ⟨t', h1, h2, fuel', hf', h3⟩ := block_steps hblk { s with buf := b1 ++ b2 } (b1 ++ b2).length 0 b2 hwf rfl rfl rfl
    (Nat.le_refl _)
  have ht' : t' = s1.table := Table.WF.ext h1 hwf1 h2
  have hst : ({ s with buf := b2, dst := s.dst ++ hs, table := t' } : DecoderState) = { s1 with buf := b2 } := by
    obtain ⟨sp1, m1, t1, buf1, d1⟩ := s1
    simp only at hdst hlim hsp ht' ⊢
    rw [hdst, hlim, hsp, ht']
  simp only at h3
  rw [hst] at h3
  rw [show decode { s with buf := b1 ++ b2 } = _ from h3, Nat.zero_add, ← hk]
  have := decodeLoop_shift fuel' b2.length k1 0 { s1 with buf := b2 } hwf1 hf' (Nat.le_refl _)
  exact ⟨this.1, this.2.trans (by show _ = match (decodeLoop b2.length 0 { s1 with buf := b2 }).1 with | .ok k2 => Res.ok (k1 + k2) | r => r; cases (decodeLoop b2.length 0 { s1 with buf := b2 }).1 <;> rfl)⟩

/-- The pieces: a header that is stored, and its index. -/
example : (decode { DecoderState.default with buf := [0x40, 1, 0x61, 1, 0x62] }).1 = .ok 5 ∧
    (decode { DecoderState.default with buf := [0x40, 1, 0x61, 1, 0x62] ++ [0xBE] }).1 = .ok (5 + 1) := by decide +kernel

/-- C41. Progress: a successful step on a non-empty buffer consumes at least one octet. -/
theorem C41_progress (s s' : DecoderState) (hwf : s.table.WF) (k : Nat) (hne : s.buf ≠ [])
    (h : decodeExact 1 s = (.ok k, s')) : s'.buf.length < s.buf.length := by
  obtain ⟨rep, bs, hdr, hb, hw, _⟩ := C32_sound s s' hwf k hne h
  have := RepWire.pos hw
  rw [hb, List.length_append]; omega

example : (decodeExact 1 { DecoderState.default with buf := [0x40, 1, 0x61, 1, 0x62, 0xBE] }).1 = .ok 5 ∧
    (decodeExact 1 { DecoderState.default with buf := [0x40, 1, 0x61, 1, 0x62, 0xBE] }).2.buf = [0xBE] := by decide +kernel

/-- C41. `decode` and `decode_exact` end on every input. -/
theorem C41_terminates (s : DecoderState) (hwf : s.table.WF) (cap : Nat) :
    (decode s).1 ≠ .hang ∧ (decodeExact cap s).1 ≠ .hang := by
  obtain ⟨s', ws, hs, r, h1, _, h2⟩ := decode_spec s hwf
  obtain ⟨s2, ws2, hs2, r2, h3, _, h4⟩ := decodeExactLoop_spec cap 0 s hwf
  rw [h1, decodeExact, h3]
  refine ⟨?_, ?_⟩
  · rcases h2 with ⟨rfl, _⟩ | h
    · simp
    · cases h <;> simp
  · rcases h4 with ⟨rfl, _⟩ | ⟨h, _⟩
    · simp
    · cases h <;> simp

/-- C20, full statement. -/
def NeverPanics : Prop := ∀ s : DecoderState, s.table.WF → (decode s).1 ≠ .panic

/-- C20 is false of the code: the single octets 0x7f and 0x40 make the default decoder index out of bounds. -/
theorem C20_never_panics_false : ¬ NeverPanics := by
  intro h
  exact h { DecoderState.default with buf := [0x40] } (Table.withDynamicSize_WF 4096) (by decide +kernel)

example : (decode { DecoderState.default with buf := [0x7f] }).1 = .panic := by decide +kernel

/-- C20. The exact set of panicking inputs: those that, after any number of complete meaningful representations, end
inside (or just before) an integer of the next one. All others end with `Ok` or `Err`. -/
theorem C20_panics_exactly (s : DecoderState) (hwf : s.table.WF) :
    (decode s).1 = .panic ↔
      ∃ used rest ws hs t', s.buf = used ++ rest ∧
        Block lenientPads s.maxDynamicSize.toNat s.table.spec used ws hs t' ∧ RepCut lenientPads t' rest := by
  constructor
  · intro h
    obtain ⟨s', ws, hs, r, h1, ⟨⟨used, hb, hblk⟩, _, _, _, h6⟩, h2⟩ := decode_spec s hwf
    rw [h1] at h
    subst h
    rcases h2 with ⟨h2, _⟩ | h2
    · simp at h2
    · cases h2 with
      | panic hne hd hno hc => exact ⟨used, s'.buf, ws, hs, _, hb, hblk, hc⟩
  · rintro ⟨used, rest, ws, hs, t', hb, hblk, hc⟩
    obtain ⟨t1, h1, h2, fuel', hf', h3⟩ := block_steps hblk s s.buf.length 0 rest hwf rfl rfl hb (Nat.le_refl _)
    rw [decode, h3]
    have hne : rest ≠ [] := by
      rintro rfl
      rcases hc with ⟨b0, tl, h, _⟩ | ⟨m, i, b1, r, _, _, hw, _, h⟩ | ⟨m, b1, r, hw, _, h⟩ | ⟨m, n, b1, b2, r, hw, _, _, h⟩
      · simp at h
      · have := hw.1.pos; simp at h; rw [h.1] at this; simp at this
      · have := hw.1.pos; simp at h; rw [h.1] at this; simp at this
      · have := hw.1.pos; simp at h; rw [h.1] at this; simp at this
    have hcut := decodeOne_cut (s := { s with buf := rest, dst := s.dst ++ hs, table := t1 }) h1 (by
      simp only; rw [h2]; exact hc)
    rw [decodeLoop_fail (s := { s with buf := rest, dst := s.dst ++ hs, table := t1 }) h1 hne hf' hcut (by simp)]

/-- C20. Input that ends at a boundary never panics: if no integer is cut, the result is `Ok` or `Err`. -/
theorem C20_ok_or_err (s : DecoderState) (hwf : s.table.WF)
    (h : ∀ used rest ws hs t', s.buf = used ++ rest →
      Block lenientPads s.maxDynamicSize.toNat s.table.spec used ws hs t' → ¬ RepCut lenientPads t' rest) :
    (∃ k, (decode s).1 = .ok k) ∨ ∃ e, (decode s).1 = .err e := by
  have h1 : (decode s).1 ≠ .panic := fun hp => by
    obtain ⟨u, r, ws, hs, t', hb, hblk, hc⟩ := (C20_panics_exactly s hwf).mp hp
    exact h u r ws hs t' hb hblk hc
  have h2 := (C41_terminates s hwf 0).1
  cases hd : (decode s).1 with
  | ok k => exact Or.inl ⟨k, rfl⟩
  | err e => exact Or.inr ⟨e, rfl⟩
  | panic => exact absurd hd h1
  | hang => exact absurd hd h2

/-- No integer is cut in a header followed by a string that is cut. -/
example : ∀ used rest ws hs t', ([0x82, 0x00, 0x02, 0x61] : Bytes) = used ++ rest →
    Block lenientPads 4096 DecoderState.default.table.spec used ws hs t' → ¬ RepCut lenientPads t' rest :=
  fun used rest ws hs t' hb hblk hc =>
    absurd ((C20_panics_exactly { DecoderState.default with buf := [0x82, 0x00, 0x02, 0x61] } (Table.withDynamicSize_WF 4096)).mpr
      ⟨used, rest, ws, hs, t', hb, hblk, hc⟩) (by decide +kernel)

/-! Concrete cases that meet the hypotheses of the theorems above. -/
/-- C40: an index that is not in use; the second case of the theorem. -/
example : (encode (.Indexed 70) EncoderState.default).1 = .err .InvalidIndex ∧ EncoderState.default.table.get 70 = none := by decide +kernel
/-- C32, C37: a header that is stored, a size update and an indexed header; the count leaves out the octet of the size update. -/
example : ∃ s', decode { DecoderState.default with buf := [0x40, 1, 0x61, 1, 0x62, 0x3e, 0x82] } = (.ok 6, s') ∧
    ∃ ws hs, Block lenientPads 4096 DecoderState.default.table.spec [0x40, 1, 0x61, 1, 0x62, 0x3e, 0x82] ws hs s'.table.spec ∧ s'.buf = [] ∧
      s'.dst = hs ∧ 6 = (headerOctets ws).length := by
  have h1 : (decode { DecoderState.default with buf := [0x40, 1, 0x61, 1, 0x62, 0x3e, 0x82] }).1 = .ok 6 := by decide +kernel
  generalize hd : decode { DecoderState.default with buf := [0x40, 1, 0x61, 1, 0x62, 0x3e, 0x82] } = p at h1
  obtain ⟨r, s'⟩ := p
  simp only at h1
  subst h1
  obtain ⟨ws, hs, h2, h3, h4, _, _, _, h5⟩ := C32_sound_block _ s' (Table.withDynamicSize_WF 4096) 6 hd
  exact ⟨s', rfl, ws, hs, h2, h3, h4, h5⟩
/-- C32: one representation of a longer buffer. -/
example : ∃ s', decodeExact 1 { DecoderState.default with buf := [0x40, 1, 0x61, 1, 0x62, 0x82] } = (.ok 5, s') ∧
    ∃ rep bs hdr, ([0x40, 1, 0x61, 1, 0x62, 0x82] : Bytes) = bs ++ s'.buf ∧ RepWire lenientPads 5 rep bs ∧
      rep.apply 4096 DecoderState.default.table.spec = some (hdr, s'.table.spec) := by
  have h1 : (decodeExact 1 { DecoderState.default with buf := [0x40, 1, 0x61, 1, 0x62, 0x82] }).1 = .ok 5 := by decide +kernel
  generalize hd : decodeExact 1 { DecoderState.default with buf := [0x40, 1, 0x61, 1, 0x62, 0x82] } = p at h1
  obtain ⟨r, s'⟩ := p
  simp only at h1
  subst h1
  obtain ⟨rep, bs, hdr, h2, h3, h4, _⟩ := C32_sound _ s' (Table.withDynamicSize_WF 4096) 5 (by simp) hd
  exact ⟨s', rfl, rep, bs, hdr, h2, h3, h4⟩
/-- C41: a state whose table is not empty. -/
example (b : Bytes) : (decode { (decode { DecoderState.default with buf := [0x40, 1, 0x61, 1, 0x62] }).2 with buf := b }).1 ≠ .hang := by
  obtain ⟨s', _, _, _, h1, ⟨_, _, h4, _⟩, _⟩ := decode_spec { DecoderState.default with buf := [0x40, 1, 0x61, 1, 0x62] } (Table.withDynamicSize_WF 4096)
  rw [h1]
  exact (C41_terminates { s' with buf := b } h4 0).1

end Verif.Props
