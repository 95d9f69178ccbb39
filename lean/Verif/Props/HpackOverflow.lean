import Verif.Props.HpackTries
/-! Exactly when the HPACK encoder fails (C40), and what a string that is too long leaves behind (C116). -/
namespace Verif.Props
open Verif.Hpack Verif.Spec

/-- C40. Exactly when which result is returned: `InvalidIndex` if the caller's index has no header; otherwise `IntegerOverflow` if
the representation chosen has a string of 2^32 octets or more; otherwise success. -/
theorem C40_exactly (s : EncoderState) (hwf : s.table.WF) (input : EncoderInput) (rep : Rep) (hc : Chosen s.table.spec input rep) :
    let Unknown : Prop := ∃ i : UInt32, s.table.get i = none ∧ (input = .Indexed i ∨ ∃ v f, input = .IndexedName i v f)
    let Fits : Prop := RepFits (2 ^ 32) (huffName input) (huffValue input) rep
    ((encode input s).1 = .err .InvalidIndex ↔ Unknown) ∧
    ((encode input s).1 = .err .IntegerOverflow ↔ ¬ Unknown ∧ ¬ Fits) ∧
    ((encode input s).1 = .ok () ↔ ¬ Unknown ∧ Fits) := by
  intro Unknown Fits
  have hs := encode_spec s hwf input rep 0 hc
  have hu : Unknown ↔ rep.apply 0 s.table.spec = none := by
    constructor
    · rintro ⟨i, hi, rfl | ⟨v, f, rfl⟩⟩
      · rw [Table.get_spec] at hi
        cases hc with
        | indexed _ => simp only [Rep.apply, hi]
      · rw [Table.get_spec] at hi
        cases hc with
        | indexedName _ _ _ => simp only [Rep.apply, NameRef.resolve, hi, Option.map_none]
    · intro ha
      have hs' := hs
      rw [ha] at hs'
      simp only at hs'
      rcases C40_encode_failures s hwf input with ⟨s', h, _⟩ | ⟨_, h⟩ | ⟨s', h, _⟩
      · rw [h] at hs'; cases hs'
      · exact h
      · rw [h] at hs'; cases hs'
  cases ha : rep.apply 0 s.table.spec with
  | none =>
    rw [ha] at hs
    simp only at hs
    have hU : Unknown := hu.mpr ha
    rw [hs]
    simp [hU]
  | some p =>
    rw [ha] at hs
    simp only at hs
    have hU : ¬ Unknown := fun h => by rw [hu.mp h] at ha; cases ha
    by_cases hf : Fits
    · obtain ⟨_, _, _, _, h, _⟩ := hs.1 hf
      rw [h]
      simp [hU, hf]
    · obtain ⟨_, _, _, _, h, _⟩ := hs.2 hf
      rw [h]
      simp [hU, hf]

/-- A string that is too long exists (as a list; it need not be computed). -/
example (k : Nat) (hk : 2 ^ 32 ≤ k) : ¬ RepFits (2 ^ 32) false false (.literal .without (.index 1) (List.replicate k 97)) := by
  intro h
  have h : (List.replicate k (97 : UInt8)).length < 2 ^ 32 := h
  rw [List.length_replicate] at h
  omega

/-- C116. What a call leaves behind that fails with `IntegerOverflow`: the octets of the representation before the string that is too
long are in the output, and the table is already changed as if the whole header had been sent. -/
theorem C116_state_after (s s' : EncoderState) (hwf : s.table.WF) (input : EncoderInput) (rep : Rep) (hc : Chosen s.table.spec input rep)
    (h : encode input s = (.err .IntegerOverflow, s')) :
    ∃ bs hdr st, s'.dst = s.dst ++ bs ∧ bs ≠ [] ∧ RepUntilTooLong rfcPads (huffName input) (huffValue input) rep bs ∧
      rep.apply 0 s.table.spec = some (hdr, st) ∧ s'.table.spec = st := by
  have hs := encode_spec s hwf input rep 0 hc
  cases ha : rep.apply 0 s.table.spec with
  | none => rw [ha] at hs; simp only at hs; rw [hs] at h; cases h
  | some p =>
    obtain ⟨hdr, st⟩ := p
    rw [ha] at hs
    simp only at hs
    by_cases hf : RepFits (2 ^ 32) (huffName input) (huffValue input) rep
    · obtain ⟨_, _, _, _, e, _⟩ := hs.1 hf; rw [e] at h; cases h
    · obtain ⟨bs, t', _, h2, h3, h4⟩ := hs.2 hf
      rw [h3] at h
      simp only [Prod.mk.injEq, true_and] at h
      subst h
      refine ⟨bs, hdr, st, rfl, ?_, h4, rfl, h2⟩
      have intNe : ∀ {n hi v : Nat} {b : Octets}, IntWireLim 5 n hi v b → b ≠ [] := by
        rintro n hi v b ⟨⟨_, h⟩ | ⟨_, cs, h⟩, _⟩ rfl <;> simp at h
      cases rep with
      | indexed i => exact absurd h4 id
      | sizeUpdate n => exact absurd h4 id
      | literal m name v =>
        cases name with
        | index i => exact intNe h4.2
        | new n =>
          rcases h4 with ⟨_, h4⟩ | ⟨_, b1, b2, h4, _, rfl⟩
          · exact intNe h4
          · exact fun h => intNe h4 (List.append_eq_nil_iff.mp h).1

/-- C116. With WITH_INDEXING and strings of 2^32 octets or more (not shortened by Huffman coding), the failed call empties the table of the
encoder, while the peer's table stays as it is. -/
theorem C116_empties_table (s s' : EncoderState) (hwf : s.table.WF) (n v : Bytes) (f : UInt8) (hf : f.toNat.testBit 2 = true)
    (h4 : f.toNat.testBit 4 = false) (hlong : 2 ^ 32 ≤ n.length + v.length)
    (h : encode (.Literal n v f) s = (.err .IntegerOverflow, s')) : s'.table.spec.entries = [] := by
  obtain ⟨bs, hdr, st, _, _, _, ha, he⟩ := C116_state_after s s' hwf _ _ (.literal n v f h4) h
  have hm : flagMode f = .incremental := by rw [flagMode, if_pos hf]
  rw [hm] at ha
  simp only [Rep.apply, NameRef.resolve, Option.some.injEq, Prod.mk.injEq] at ha
  rw [he, ← ha.2]
  have hmax : s.table.spec.max < 2 ^ 32 := s.table.maxDynamicSize.toNat_lt
  simp only [if_pos, SpecTable.insert]
  rw [if_neg (by simp only [entrySize]; omega)]

/-- Such a call, on an encoder whose table is not empty. -/
example (s : EncoderState) (hwf : s.table.WF) (v : Bytes) (hv : 2 ^ 32 ≤ v.length) :
    ∃ s', encode (.Literal [97] v 4) s = (.err .IntegerOverflow, s') ∧ s'.table.spec.entries = [] := by
  obtain ⟨rep, hc⟩ := Chosen.exists s.table hwf (.Literal [97] v 4)
  have hr : (encode (.Literal [97] v 4) s).1 = .err .IntegerOverflow := by
    refine (C40_exactly s hwf _ _ (.literal [97] v 4 (by decide))).2.1.mpr ⟨?_, ?_⟩
    · rintro ⟨i, _, h | ⟨_, _, h⟩⟩ <;> cases h
    · simp only [RepFits, huffName, huffValue, flagsOf, strLen]
      intro h
      have := h.2
      simp only [show (4 : UInt8).toNat.testBit 1 = false by decide] at this
      simp at this
      omega
  refine ⟨(encode (.Literal [97] v 4) s).2, by rw [← hr], ?_⟩
  exact C116_empties_table s _ hwf [97] v 4 (by decide) (by decide) (by simp; omega) (by rw [← hr])

/-- C116. Going on after such a failure breaks the connection: the octets left behind turn the next header into the beginning of a
string, so the receiver never gets it. (After `InvalidIndex` going on is safe, see C94.) -/
theorem C116_next_header_lost (v : Bytes) (hv : 2 ^ 32 ≤ v.length) :
    ∃ s1 s2, encode (.IndexedName 1 v 0) EncoderState.default = (.err .IntegerOverflow, s1) ∧
      encode (.Indexed 2) s1 = (.ok (), s2) ∧
      decode { DecoderState.default with buf := s2.dst } =
        (.err .IntegerUnderflow, { DecoderState.default with buf := s2.dst }) := by
  have hr : encode (.IndexedName 1 v 0) EncoderState.default = (.err .IntegerOverflow, { EncoderState.default with dst := [1] }) := by
    have hs : encodeString v false = .err .IntegerOverflow := (encodeString_spec v false).2 (by simpa [strLen] using hv)
    have hi : (encodeInteger 1 0 4) = .ok [1] := by decide
    have hg : EncoderState.default.table.get 1 = some ([0x3a, 0x61, 0x75, 0x74, 0x68, 0x6f, 0x72, 0x69, 0x74, 0x79], []) := by decide +kernel
    show encodeIndexedName 1 v 0 EncoderState.default = _
    unfold encodeIndexedName
    simp only [M.bind_apply, M.get_apply, hg]
    rw [if_neg (by decide), if_neg (by decide), hi]
    simp only [show ((0 : UInt8) &&& 0x2 = 0x2) = False by decide, decide_false, hs, pushBytes_ok, pushBytes_err]
    rfl
  refine ⟨_, { EncoderState.default with dst := [1, 0x82] }, hr, by decide +kernel, by decide +kernel⟩

end Verif.Props
