import Verif.Lemmas.HpackDefect
import Verif.Props.Hpack
/-! Property theorem C101: what each error of the HPACK decoder means. -/
namespace Verif.Props
open Verif Verif.Spec Verif.Hpack

theorem RepDefect.ne_nil {pads : List (List Bool)} {limit : Nat} {t : SpecTable} {bs : Bytes} {e : DecoderError}
    (h : RepDefect pads limit t bs e) : bs ≠ [] := by
  rintro hn
  cases h with
  | intTooLong h => simp at hn
  | index h => have := h.1.pos; simp only [List.append_eq_nil_iff] at hn; rw [hn.1] at this; simp at this
  | nameIndex m h0 h => have := h.1.pos; simp only [List.append_eq_nil_iff] at hn; rw [hn.1] at this; simp at this
  | size h => have := h.1.pos; simp only [List.append_eq_nil_iff] at hn; rw [hn.1] at this; simp at this
  | valueAfterIndex m h0 h => have := h.1.pos; simp only [List.append_eq_nil_iff] at hn; rw [hn.1] at this; simp at this
  | name m h => have := h.1.pos; simp only [List.append_eq_nil_iff] at hn; rw [hn.1] at this; simp at this
  | value m h => have := h.1.pos; simp only [List.append_eq_nil_iff] at hn; rw [hn.1] at this; simp at this

/-- C101. `decode` fails with the error `e` if and only if after some number of complete meaningful representations the input goes
on with a representation that has the defect that `e` stands for. -/
theorem C101_errors_exactly (s : DecoderState) (hwf : s.table.WF) (e : DecoderError) :
    (decode s).1 = .err e ↔
      ∃ used rest ws hs t', s.buf = used ++ rest ∧ Block lenientPads s.maxDynamicSize.toNat s.table.spec used ws hs t' ∧
        RepDefect lenientPads s.maxDynamicSize.toNat t' rest e := by
  constructor
  · intro h
    obtain ⟨s', ws, hs, r, h1, ⟨⟨used, hb, hblk⟩, _, h4, h5, h6⟩, h2⟩ := decode_spec s hwf
    rw [h1] at h
    subst h
    rcases h2 with ⟨h2, _⟩ | h2
    · simp at h2
    · cases h2 with
      | err e hne hd hno hc =>
        have := decodeOne_err h4 hne hd
        rw [h6] at this
        exact ⟨used, s'.buf, ws, hs, _, hb, hblk, this⟩
  · rintro ⟨used, rest, ws, hs, t', hb, hblk, hc⟩
    obtain ⟨t1, h1, h2, fuel', hf', h3⟩ := block_steps hblk s s.buf.length 0 rest hwf rfl rfl hb (Nat.le_refl _)
    rw [decode, h3]
    have hne := RepDefect.ne_nil hc
    have hcut := decodeOne_defect (s := { s with buf := rest, dst := s.dst ++ hs, table := t1 }) (e := e) h1 (by
      simp only; rw [h2]; exact hc)
    rw [decodeLoop_fail (s := { s with buf := rest, dst := s.dst ++ hs, table := t1 }) h1 hne hf' hcut (by simp)]

/-- An indexed header, then an index that is not in the table. -/
example : ∃ used rest ws hs t', [0x82, 0xbf] = used ++ rest ∧ Block lenientPads 4096 DecoderState.default.table.spec used ws hs t' ∧
    RepDefect lenientPads 4096 t' rest .InvalidIndex :=
  (C101_errors_exactly { DecoderState.default with buf := [0x82, 0xbf] } (Table.withDynamicSize_WF 4096) .InvalidIndex).mp (by decide +kernel)

theorem exactLoop_fail {s : DecoderState} (hne : s.buf ≠ []) {cap total : Nat} (hc : 0 < cap) {r : Res DecoderError Nat}
    (h : decodeOne s = (r, s)) (hr : ∀ n, r ≠ .ok n) : decodeExactLoop cap total s = (r, s) := by
  obtain ⟨cap, rfl⟩ : ∃ c, cap = c + 1 := ⟨cap - 1, by omega⟩
  have hemp : s.buf.isEmpty = false := by simpa using hne
  cases r with
  | ok n => exact absurd rfl (hr n)
  | err e => simp [decodeExactLoop, M.bind_apply, hne, h]
  | panic => simp [decodeExactLoop, M.bind_apply, hne, h]
  | hang => simp [decodeExactLoop, M.bind_apply, hne, h]

/-- C101. The same for `decode_exact`, which stops when the capacity is used up: the representations before the defect are fewer
than the capacity. -/
theorem C101_exact_errors (s : DecoderState) (hwf : s.table.WF) (cap : Nat) (e : DecoderError) :
    (decodeExact cap s).1 = .err e ↔
      ∃ used rest ws hs t', s.buf = used ++ rest ∧ Block lenientPads s.maxDynamicSize.toNat s.table.spec used ws hs t' ∧
        ws.length < cap ∧ RepDefect lenientPads s.maxDynamicSize.toNat t' rest e := by
  constructor
  · intro h
    obtain ⟨s', ws, hs, r, h1, ⟨⟨used, hb, hblk⟩, _, h4, h5, h6⟩, h2⟩ := decodeExactLoop_spec cap 0 s hwf
    rw [decodeExact, h1] at h
    subst h
    rcases h2 with ⟨h2, _⟩ | ⟨h2, hlt⟩
    · simp at h2
    · cases h2 with
      | err e hne hd hno hc =>
        have := decodeOne_err h4 hne hd
        rw [h6] at this
        exact ⟨used, s'.buf, ws, hs, _, hb, hblk, hlt, this⟩
  · rintro ⟨used, rest, ws, hs, t', hb, hblk, hlt, hc⟩
    obtain ⟨t1, h1, h2, h3⟩ := block_steps_exact hblk s cap 0 rest hwf rfl rfl hb (Nat.le_of_lt hlt)
    rw [decodeExact, h3]
    have hcut := decodeOne_defect (s := { s with buf := rest, dst := s.dst ++ hs, table := t1 }) (e := e) h1 (by
      simp only; rw [h2]; exact hc)
    rw [exactLoop_fail (s := { s with buf := rest, dst := s.dst ++ hs, table := t1 }) (RepDefect.ne_nil hc) (by omega) hcut (by simp)]

/-- C20 for `decode_exact`: it panics exactly if the input, after fewer representations than the capacity, ends inside or just before
an integer of the next one. -/
theorem C20_exact_panics (s : DecoderState) (hwf : s.table.WF) (cap : Nat) :
    (decodeExact cap s).1 = .panic ↔
      ∃ used rest ws hs t', s.buf = used ++ rest ∧ Block lenientPads s.maxDynamicSize.toNat s.table.spec used ws hs t' ∧
        ws.length < cap ∧ RepCut lenientPads t' rest := by
  constructor
  · intro h
    obtain ⟨s', ws, hs, r, h1, ⟨⟨used, hb, hblk⟩, _, h4, h5, h6⟩, h2⟩ := decodeExactLoop_spec cap 0 s hwf
    rw [decodeExact, h1] at h
    subst h
    rcases h2 with ⟨h2, _⟩ | ⟨h2, hlt⟩
    · simp at h2
    · cases h2 with
      | panic hne hd hno hc => exact ⟨used, s'.buf, ws, hs, _, hb, hblk, hlt, hc⟩
  · rintro ⟨used, rest, ws, hs, t', hb, hblk, hlt, hc⟩
    obtain ⟨t1, h1, h2, h3⟩ := block_steps_exact hblk s cap 0 rest hwf rfl rfl hb (Nat.le_of_lt hlt)
    rw [decodeExact, h3]
    have hne : rest ≠ [] := by
      rintro rfl
      rcases hc with ⟨b0, tl, h, _⟩ | ⟨m, i, b1, r, _, _, hw, _, h⟩ | ⟨m, b1, r, hw, _, h⟩ | ⟨m, n, b1, b2, r, hw, _, _, h⟩
      · simp at h
      · have := hw.1.pos; simp at h; rw [h.1] at this; simp at this
      · have := hw.1.pos; simp at h; rw [h.1] at this; simp at this
      · have := hw.1.pos; simp at h; rw [h.1] at this; simp at this
    have hcut := decodeOne_cut (s := { s with buf := rest, dst := s.dst ++ hs, table := t1 }) h1 (by
      simp only; rw [h2]; exact hc)
    rw [exactLoop_fail (s := { s with buf := rest, dst := s.dst ++ hs, table := t1 }) hne (by omega) hcut (by simp)]

/-- C101. `InvalidPrefix` is never reported. -/
theorem C101_never_prefix (s : DecoderState) (hwf : s.table.WF) : (decode s).1 ≠ .err .InvalidPrefix := by
  intro h
  obtain ⟨_, _, _, _, _, _, _, hd⟩ := (C101_errors_exactly s hwf _).mp h
  have strs : ∀ {bs : Bytes} {e : DecoderError}, StrDefect lenientPads bs e → e ≠ .InvalidPrefix := by
    intro bs e h; cases h <;> simp
  cases hd with
  | valueAfterIndex m h0 h hi hr => exact strs hr rfl
  | name m h hr => exact strs hr rfl
  | value m h h2 hr => exact strs hr rfl

/-! Every other error occurs: index 70 in an empty table, a size update to 4097, an index of six octets, a literal whose value has
only one of its five octets, and a literal whose value is Huffman-coded as eight bits that are no code. -/
example : (decode { DecoderState.default with buf := [0xC6] }).1 = .err .InvalidIndex := by decide +kernel
example : (decode { DecoderState.default with buf := [0x3F, 0xE2, 0x1F] }).1 = .err .InvalidMaxDynamicSize := by decide +kernel
example : (decode { DecoderState.default with buf := [0xFF, 0x80, 0x80, 0x80, 0x80, 0x01] }).1 = .err .IntegerOverflow := by decide +kernel
example : (decode { DecoderState.default with buf := [0x82, 0x02, 0x05, 0x61] }).1 = .err .IntegerUnderflow := by decide +kernel
example : (decode { DecoderState.default with buf := [0x02, 0x81, 0xFE] }).1 = .err .InvalidInput := by decide +kernel
example : RepDefect lenientPads 4096 DecoderState.default.table.spec [0x02, 0x05, 0x61] .IntegerUnderflow :=
  .valueAfterIndex (b := [0x02]) .without (i := 2) (by decide) ⟨Or.inl ⟨by decide, rfl⟩, by decide⟩ (by decide)
    (.cut (len := [0x05]) (v := 5) (Or.inl rfl) ⟨Or.inl ⟨by decide, rfl⟩, by decide⟩ (by decide))

/-! Concrete cases for C101 and C20: the second representation is at fault, and it matters whether there is capacity for it. -/
example : (∃ used rest ws hs t', ([0x82, 0xC6] : Bytes) = used ++ rest ∧ Block lenientPads 4096 DecoderState.default.table.spec used ws hs t' ∧
      ws.length < 2 ∧ RepDefect lenientPads 4096 t' rest .InvalidIndex) ∧
    ¬ ∃ used rest ws hs t', ([0x82, 0xC6] : Bytes) = used ++ rest ∧ Block lenientPads 4096 DecoderState.default.table.spec used ws hs t' ∧
      ws.length < 1 ∧ RepDefect lenientPads 4096 t' rest .InvalidIndex :=
  ⟨(C101_exact_errors { DecoderState.default with buf := [0x82, 0xC6] } (Table.withDynamicSize_WF 4096) 2 .InvalidIndex).mp (by decide +kernel),
    fun h => absurd ((C101_exact_errors { DecoderState.default with buf := [0x82, 0xC6] } (Table.withDynamicSize_WF 4096) 1 .InvalidIndex).mpr h) (by decide +kernel)⟩
example : ∃ used rest ws hs t', ([0x82, 0x7f] : Bytes) = used ++ rest ∧ Block lenientPads 4096 DecoderState.default.table.spec used ws hs t' ∧
      ws.length < 2 ∧ RepCut lenientPads t' rest :=
  (C20_exact_panics { DecoderState.default with buf := [0x82, 0x7f] } (Table.withDynamicSize_WF 4096) 2).mp (by decide +kernel)

end Verif.Props
