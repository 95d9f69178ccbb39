import Verif.Props.HpackVerdict
import Verif.Props.HpackStream
/-! Property theorem C129: which failures of the HPACK decoder are final and which only mean that octets are missing. -/
namespace Verif.Props
open Verif Verif.Spec Verif.Hpack

theorem IntLong.app {n : Nat} {bs : Octets} (h : IntLong n bs) (q : Octets) : IntLong n (bs ++ q) := by
  obtain ⟨b0, tl, rfl, h1, h2, h3⟩ := h
  refine ⟨b0, tl ++ q, rfl, h1, by simp; omega, ?_⟩
  rw [List.take_append_of_le_length h2]
  exact h3

theorem StrDefect.app {pads : List (List Bool)} {bs : Octets} {e : DecoderError} (h : StrDefect pads bs e) (he : e ≠ .IntegerUnderflow)
    (q : Octets) : StrDefect pads (bs ++ q) e := by
  cases h with
  | lengthTooLong h => exact .lengthTooLong (IntLong.app h q)
  | cut hhi h hr => exact absurd rfl he
  | badCode h hq =>
    rw [List.append_assoc, List.append_assoc]
    exact .badCode h hq

theorem RepDefect.app {pads : List (List Bool)} {limit : Nat} {t : SpecTable} {bs : Octets} {e : DecoderError}
    (h : RepDefect pads limit t bs e) (he : e ≠ .IntegerUnderflow) (q : Octets) : RepDefect pads limit t (bs ++ q) e := by
  cases h with
  | intTooLong h => exact .intTooLong (IntLong.app h q)
  | index h hi => rw [List.append_assoc]; exact .index h hi
  | nameIndex m h0 h hi => rw [List.append_assoc]; exact .nameIndex m h0 h hi
  | size h hn => rw [List.append_assoc]; exact .size h hn
  | valueAfterIndex m h0 h hi hr => rw [List.append_assoc]; exact .valueAfterIndex m h0 h hi (StrDefect.app hr he q)
  | name m h hr => rw [List.append_assoc]; exact .name m h (StrDefect.app hr he q)
  | value m h h2 hr => rw [List.append_assoc, List.append_assoc]; exact .value m h h2 (StrDefect.app hr he q)

/-- C129. An error other than `IntegerUnderflow` is final: with any further octets the call fails in the same way, delivering the same
headers, leaving the same table and the further octets unread behind the rest of the buffer. -/
theorem C129_final (s s' : DecoderState) (hwf : s.table.WF) (e : DecoderError) (he : e ≠ .IntegerUnderflow)
    (h : decode s = (.err e, s')) (q : Bytes) : decode (s.app q) = (.err e, s'.app q) := by
  obtain ⟨used, ws, hs, h1, h2, h3, h4, h5, h6, h7⟩ := (C120_verdict s s' hwf _).mp h
  refine (C120_verdict (s.app q) (s'.app q) hwf _).mpr ⟨used, ws, hs, ?_, h2, h3, h4, h5, h6, ?_⟩
  · show s.buf ++ q = used ++ (s'.buf ++ q)
    rw [h1, List.append_assoc]
  · show BlockEnd _ _ _ (s'.buf ++ q) _
    generalize s'.buf = rest at h7
    cases h7 with
    | defect h => exact .defect (RepDefect.app h he q)

example (q : Bytes) : (decode { DecoderState.default with buf := [0x82, 0xbf] ++ q }).1 = .err .InvalidIndex :=
  congrArg Prod.fst (C129_final { DecoderState.default with buf := [0x82, 0xbf] } _ (Table.withDynamicSize_WF 4096) .InvalidIndex (by decide) rfl q)

/-- C129. Calling again after such an error, with or without further octets, any number of times: always the same error, and nothing
more is delivered, removed or stored. -/
theorem C129_stays (s s' : DecoderState) (hwf : s.table.WF) (e : DecoderError) (he : e ≠ .IntegerUnderflow)
    (h : decode s = (.err e, s')) (cs : List Bytes) : feedAll (.err e) cs s' = (.err e, s'.app cs.flatten) := by
  have hwf' : s'.table.WF := by
    obtain ⟨_, _, _, _, _, _, h4, _⟩ := (C120_verdict s s' hwf _).mp h
    exact h4
  have hself : decode s' = (.err e, s') := by
    obtain ⟨used, ws, hs, h1, h2, h3, h4, h5, h6, h7⟩ := (C120_verdict s s' hwf _).mp h
    refine (C120_verdict s' s' hwf' _).mpr ⟨[], [], [], rfl, block_nil _ _, by simp, h4, rfl, rfl, ?_⟩
    rw [h6]
    generalize s'.buf = rest at h7 ⊢
    cases h7 with
    | defect h => exact .defect h
  clear h hwf s
  induction cs generalizing s' with
  | nil => simp [feedAll, DecoderState.app]
  | cons c cs ih =>
    have hc := C129_final s' s' hwf' e he hself c
    rw [feedAll, hc]
    refine (ih (s'.app c) hwf' hc).trans ?_
    simp [DecoderState.app]

example (cs : List Bytes) : (feedAll (.err .InvalidIndex) cs (decode { DecoderState.default with buf := [0x82, 0xbf] }).2).1 = .err .InvalidIndex :=
  congrArg Prod.fst (C129_stays { DecoderState.default with buf := [0x82, 0xbf] } _ (Table.withDynamicSize_WF 4096) .InvalidIndex (by decide) rfl cs)

/-! ### Missing octets -/

theorem isCont_zero {tl : Octets} (h : ∀ c ∈ tl, 128 ≤ c.toNat) : IsCont (tl ++ [0]) := by
  induction tl with
  | nil => show (0 : UInt8).toNat < 128; decide
  | cons c tl ih =>
    have := ih fun d hd => h d (List.mem_cons_of_mem _ hd)
    cases tl with
    | nil => exact ⟨h c List.mem_cons_self, this⟩
    | cons d tl => exact ⟨h c List.mem_cons_self, this⟩

/-- One more octet completes an integer that was cut off. -/
theorem int_finish {n hi : Nat} {b0 : UInt8} {tl : Octets} (hb : b0.toNat = hi + (2 ^ n - 1)) (hl : tl.length < 4)
    (hc : ∀ c ∈ tl, 128 ≤ c.toNat) : IntWireLim 5 n hi (2 ^ n - 1 + contVal (tl ++ [0])) (b0 :: tl ++ [0]) := by
  refine ⟨Or.inr ⟨tl ++ [0], isCont_zero hc, rfl, ?_⟩, by simp; omega⟩
  rw [← hb, UInt8.ofNat_toNat]
  rfl

theorem str_fill {hi v : Nat} {len r : Octets} (hhi : hi = 0 ∨ hi = 128) (h : IntWireLim 5 7 hi v len) (hr : r.length ≤ v) :
    ∃ q, (∃ s, StrWire lenientPads 5 s (len ++ r ++ q)) ∨ StrDefect lenientPads (len ++ r ++ q) .InvalidInput := by
  have hlen : (r ++ List.replicate (v - r.length) (0 : UInt8)).length = v := by simp; omega
  refine ⟨List.replicate (v - r.length) 0, ?_⟩
  rw [List.append_assoc]
  generalize r ++ List.replicate (v - r.length) (0 : UInt8) = x at hlen
  subst hlen
  rcases hhi with rfl | rfl
  · exact Or.inl ⟨x, false, len, h, rfl⟩
  · by_cases hq : ∃ s, ∃ t ∈ lenientPads, bytesBits x = codesOf s ++ t
    · obtain ⟨s, hs⟩ := hq
      exact Or.inl ⟨s, true, len, x, h, hs, rfl⟩
    · right
      have := StrDefect.badCode (pads := lenientPads) (r := []) h fun s t ht e => hq ⟨s, t, ht, e⟩
      simpa using this

/-- A string that was cut off can be completed, or turns out to be no Huffman code. -/
theorem str_finish {r : Octets} (h : StrCut r ∨ StrDefect lenientPads r .IntegerUnderflow) :
    ∃ q, (∃ s, StrWire lenientPads 5 s (r ++ q)) ∨ ∃ e, e ≠ .IntegerUnderflow ∧ StrDefect lenientPads (r ++ q) e := by
  rcases h with (rfl | ⟨b0, tl, rfl, h1, h2, h3⟩) | h
  · refine ⟨[0], Or.inl ⟨[], false, [0], ⟨Or.inl ⟨by decide, rfl⟩, by decide⟩, rfl⟩⟩
  · have hb := b0.toNat_lt
    have hhi : b0.toNat - 127 = 0 ∨ b0.toNat - 127 = 128 := by omega
    have hw := int_finish (n := 7) (hi := b0.toNat - 127) (b0 := b0) (tl := tl) (by omega) h2 h3
    obtain ⟨q, hq⟩ := str_fill (r := []) hhi hw (by simp)
    rw [List.append_nil, List.append_assoc] at hq
    refine ⟨[0] ++ q, ?_⟩
    rcases hq with hq | hq
    · exact Or.inl hq
    · exact Or.inr ⟨_, by decide, hq⟩
  · cases h with
    | cut hhi h hr =>
      obtain ⟨q, hq⟩ := str_fill hhi h (Nat.le_of_lt hr)
      refine ⟨q, ?_⟩
      rcases hq with hq | hq
      · exact Or.inl hq
      · exact Or.inr ⟨_, by decide, hq⟩

/-- The octets are one complete valid representation, or start with a final defect. -/
def Settled (limit : Nat) (t : SpecTable) (x : Octets) : Prop :=
  (∃ rep hdr t', RepWire lenientPads 5 rep x ∧ rep.apply limit t = some (hdr, t')) ∨
  ∃ e, e ≠ .IntegerUnderflow ∧ RepDefect lenientPads limit t x e

theorem value_finish {limit : Nat} {t : SpecTable} (m : Indexing) {i : Nat} {b r : Octets} (h0 : 0 < i)
    (h : IntWireLim 5 m.bits m.pattern i b) (hi : (t.addr i).isSome) (hr : StrCut r ∨ StrDefect lenientPads r .IntegerUnderflow) :
    ∃ q, Settled limit t (b ++ r ++ q) := by
  obtain ⟨q, ⟨s, hf, hs⟩ | ⟨e, he, hs⟩⟩ := str_finish hr
  · refine ⟨q, Or.inl ?_⟩
    obtain ⟨nv, hnv⟩ := Option.isSome_iff_exists.mp hi
    refine ⟨.literal m (.index i) s, some (nv.1, s, m.flag), if m = .incremental then t.insert (nv.1, s) else t, ?_, ?_⟩
    · exact ⟨false, hf, h0, b, r ++ q, h, hs, by rw [List.append_assoc]⟩
    · simp [Rep.apply, NameRef.resolve, hnv]
  · refine ⟨q, Or.inr ⟨e, he, ?_⟩⟩
    rw [List.append_assoc]
    exact .valueAfterIndex m h0 h hi hs

theorem value_finish_new {limit : Nat} {t : SpecTable} (m : Indexing) {n b b2 r : Octets}
    (h : IntWireLim 5 m.bits m.pattern 0 b) (h2 : StrWire lenientPads 5 n b2) (hr : StrCut r ∨ StrDefect lenientPads r .IntegerUnderflow) :
    ∃ q, Settled limit t (b ++ (b2 ++ r) ++ q) := by
  obtain ⟨q, ⟨s, hf, hs⟩ | ⟨e, he, hs⟩⟩ := str_finish hr
  · refine ⟨q, Or.inl ?_⟩
    obtain ⟨hn, h2⟩ := h2
    refine ⟨.literal m (.new n) s, some (n, s, m.flag), if m = .incremental then t.insert (n, s) else t, ?_, ?_⟩
    · exact ⟨hn, hf, b, b2, r ++ q, h, h2, hs, by simp⟩
    · simp [Rep.apply, NameRef.resolve]
  · refine ⟨q, Or.inr ⟨e, he, ?_⟩⟩
    rw [List.append_assoc, List.append_assoc]
    exact .value m h h2 hs

theorem name_finish {limit : Nat} {t : SpecTable} (m : Indexing) {b r : Octets}
    (h : IntWireLim 5 m.bits m.pattern 0 b) (hr : StrCut r ∨ StrDefect lenientPads r .IntegerUnderflow) :
    ∃ q, Settled limit t (b ++ r ++ q) := by
  obtain ⟨q, ⟨n, hn⟩ | ⟨e, he, hs⟩⟩ := str_finish hr
  · obtain ⟨q2, hq2⟩ := value_finish_new (limit := limit) (t := t) (r := []) m h hn (Or.inl (Or.inl rfl))
    refine ⟨q ++ q2, ?_⟩
    simpa using hq2
  · refine ⟨q, Or.inr ⟨e, he, ?_⟩⟩
    rw [List.append_assoc]
    exact .name m h hs

theorem literal_finish {limit : Nat} {t : SpecTable} (m : Indexing) {b0 : UInt8} {tl : Octets}
    (hb : b0.toNat = m.pattern + (2 ^ m.bits - 1)) (hl : tl.length < 4) (hc : ∀ c ∈ tl, 128 ≤ c.toNat) :
    ∃ q, Settled limit t (b0 :: tl ++ q) := by
  have hw := int_finish hb hl hc
  have h0 : 0 < 2 ^ m.bits - 1 + contVal (tl ++ [0]) := by
    have : 1 < 2 ^ m.bits := by cases m <;> decide
    omega
  cases ha : t.addr (2 ^ m.bits - 1 + contVal (tl ++ [0])) with
  | none =>
    refine ⟨[0], Or.inr ⟨.InvalidIndex, by decide, ?_⟩⟩
    have := RepDefect.nameIndex (pads := lenientPads) (limit := limit) (t := t) (r := []) m h0 hw ha
    simpa using this
  | some nv =>
    obtain ⟨q, hq⟩ := value_finish (limit := limit) (t := t) (r := []) m h0 hw (by rw [ha]; rfl) (Or.inl (Or.inl rfl))
    refine ⟨[0] ++ q, ?_⟩
    simpa using hq

theorem rep_finish {limit : Nat} {t : SpecTable} {x : Octets}
    (h : RepCut lenientPads t x ∨ RepDefect lenientPads limit t x .IntegerUnderflow) : ∃ q, Settled limit t (x ++ q) := by
  rcases h with (h | ⟨m, i, b1, r, h0, hi, hw, hr, rfl⟩ | ⟨m, b1, r, hw, hr, rfl⟩ | ⟨m, n, b1, b2, r, hw, h2, hr, rfl⟩) | h
  · obtain ⟨b0, tl, rfl, ⟨hb, hc⟩ | ⟨hb, hb', hc⟩ | ⟨hb, hb', hc⟩ | ⟨hb, hc⟩⟩ := h <;> obtain ⟨c0, cl, he, h1, h2, h3⟩ := hc <;>
      (simp only [List.cons.injEq] at he; obtain ⟨rfl, rfl⟩ := he) <;> have hlt := b0.toNat_lt
    · have hw := int_finish (n := 7) (hi := 128) (b0 := b0) (by omega) h2 h3
      cases ha : t.addr (2 ^ 7 - 1 + contVal (tl ++ [0])) with
      | none =>
        refine ⟨[0], Or.inr ⟨.InvalidIndex, by decide, ?_⟩⟩
        have := RepDefect.index (pads := lenientPads) (limit := limit) (t := t) (r := []) hw ha
        simpa using this
      | some nv =>
        exact ⟨[0], Or.inl ⟨.indexed _, some (nv.1, nv.2, 0), t, ⟨false, false, hw⟩, by simp only [Rep.apply, ha]⟩⟩
    · exact literal_finish .incremental (by show b0.toNat = 64 + (2 ^ 6 - 1); omega) h2 h3
    · have hw := int_finish (n := 5) (hi := 32) (b0 := b0) (by omega) h2 h3
      by_cases hn : 2 ^ 5 - 1 + contVal (tl ++ [0]) ≤ limit
      · exact ⟨[0], Or.inl ⟨.sizeUpdate _, none, _, ⟨false, false, hw⟩, by simp only [Rep.apply, if_pos hn]; rfl⟩⟩
      · refine ⟨[0], Or.inr ⟨.InvalidMaxDynamicSize, by decide, ?_⟩⟩
        have := RepDefect.size (pads := lenientPads) (limit := limit) (t := t) (r := []) hw (by omega)
        simpa using this
    · by_cases h16 : b0.toNat < 16
      · exact literal_finish .without (by show b0.toNat = 0 + (2 ^ 4 - 1); omega) h2 h3
      · exact literal_finish .never (by show b0.toNat = 16 + (2 ^ 4 - 1); omega) h2 h3
  · exact value_finish m h0 hw hi (Or.inl hr)
  · exact name_finish m hw (Or.inl hr)
  · exact value_finish_new m hw h2 (Or.inl hr)
  · generalize he : DecoderError.IntegerUnderflow = e at h
    cases h with
    | intTooLong _ => cases he
    | index _ _ => cases he
    | nameIndex _ _ _ _ => cases he
    | size _ _ => cases he
    | valueAfterIndex m h0 h hi hr => subst he; exact value_finish m h0 h hi (Or.inr hr)
    | name m h hr => subst he; exact name_finish m h (Or.inr hr)
    | value m h h2 hr => subst he; exact value_finish_new m h h2 (Or.inr hr)

/-- C129. Every other failure (`IntegerUnderflow`, or the panic for an integer that is cut off) only means that octets are missing: there
are octets with which the call either succeeds or fails with a final error. In short, every input has a continuation that settles it. -/
theorem C129_missing (s : DecoderState) (hwf : s.table.WF) :
    ∃ q, (∃ k, (decode (s.app q)).1 = .ok k) ∨ ∃ e, e ≠ .IntegerUnderflow ∧ (decode (s.app q)).1 = .err e := by
  rcases hd : decode s with ⟨r, s'⟩
  obtain ⟨used, ws, hs, h1, h2, h3, h4, h5, h6, h7⟩ := (C120_verdict s s' hwf _).mp hd
  have hsett : s'.buf = [] ∧ (∃ k, r = .ok k) ∨ ∃ q, Settled s.maxDynamicSize.toNat s'.table.spec (s'.buf ++ q) := by
    generalize s'.buf = rest at h7 ⊢
    cases h7 with
    | complete => exact Or.inl ⟨rfl, _, rfl⟩
    | defect h =>
      rename_i e
      by_cases he : e = .IntegerUnderflow
      · subst he
        exact Or.inr (rep_finish (Or.inr h))
      · exact Or.inr ⟨[], Or.inr ⟨e, he, by simpa using h⟩⟩
    | cut h => exact Or.inr (rep_finish (Or.inl h))
  rcases hsett with ⟨_, k, rfl⟩ | ⟨q, hq⟩
  · refine ⟨[], Or.inl ⟨k, ?_⟩⟩
    have : s.app [] = s := by simp [DecoderState.app]
    rw [this, hd]
  · refine ⟨q, ?_⟩
    have hres := (C87_resume s hwf q).2
    rw [hd] at hres
    rcases hq with ⟨rep, hdr, t', hw, ha⟩ | ⟨e, he, hdef⟩
    · left
      have hb : Block lenientPads s.maxDynamicSize.toNat s'.table.spec (s'.buf ++ q) [(rep, s'.buf ++ q)] (hdr.toList ++ []) t' := by
        have := block_cons hw ha (block_nil _ _)
        simpa using this
      rw [← h6] at hb
      obtain ⟨t2, _, _, hok⟩ := decode_block (s := s'.app q) h4 hb
      simp only [hok] at hres
      revert hres
      generalize (decode (s.app q)).1 = r'
      intro hres
      cases r' <;> simp_all [SameVerdict]
    · right
      refine ⟨e, he, ?_⟩
      have : decode (s'.app q) = (.err e, s'.app q) := by
        refine (C120_verdict (s'.app q) (s'.app q) h4 _).mpr ⟨[], [], [], rfl, block_nil _ _, by simp, h4, rfl, rfl, ?_⟩
        refine .defect ?_
        show RepDefect _ s'.maxDynamicSize.toNat _ _ _
        rw [h6]
        exact hdef
      simp only [this] at hres
      revert hres
      generalize (decode (s.app q)).1 = r'
      intro hres
      cases r' <;> simp_all [SameVerdict]

/-- C129. Exactly the errors other than `IntegerUnderflow` are final: an error is reported whatever octets follow if and only if it is
reported now and is not `IntegerUnderflow`. -/
theorem C129_final_iff (s : DecoderState) (hwf : s.table.WF) (e : DecoderError) :
    (∀ q, (decode (s.app q)).1 = .err e) ↔ (decode s).1 = .err e ∧ e ≠ .IntegerUnderflow := by
  constructor
  · intro h
    have h0 := h []
    have : s.app [] = s := by simp [DecoderState.app]
    rw [this] at h0
    refine ⟨h0, ?_⟩
    rintro rfl
    obtain ⟨q, ⟨k, hk⟩ | ⟨e, he, hq⟩⟩ := C129_missing s hwf
    · rw [h q] at hk
      cases hk
    · rw [h q] at hq
      exact he (by cases hq; rfl)
  · rintro ⟨h, he⟩ q
    rw [C129_final s (decode s).2 hwf e he (Prod.ext h rfl) q]

/-! An index beyond the table is final, a string that is too short is not. -/
example : decode { DecoderState.default with buf := [0x82, 0xbf] } =
    (.err .InvalidIndex, { DecoderState.default with buf := [0xbf], dst := [([0x3a, 0x6d, 0x65, 0x74, 0x68, 0x6f, 0x64], [0x47, 0x45, 0x54], 0)] }) := by
  decide +kernel
example : (decode { DecoderState.default with buf := [0, 1, 0x61, 2, 0x62] }).1 = .err .IntegerUnderflow ∧
    (decode { DecoderState.default with buf := [0, 1, 0x61, 2, 0x62, 0x63] }).1 = .ok 6 := by decide +kernel

end Verif.Props
