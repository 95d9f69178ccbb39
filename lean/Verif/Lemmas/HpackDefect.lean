import Verif.Spec.HpackDefect
import Verif.Lemmas.HpackBlock
/-! Which defect gives which error. -/
namespace Verif.Hpack
open Verif.Spec
open Verif.Huffman (Speed)

theorem decodeInteger_long {n : Nat} {buf : Bytes} (h1 : 1 ≤ n) (hn : n ≤ 8) (h : IntLong n buf) :
    decodeInteger buf n = .err .IntegerOverflow := by
  obtain ⟨b0, tl, rfl, hp, hl, hall⟩ := h
  have hm := mask_toNat hn
  have h2 := pow_le_256 hn
  unfold decodeInteger
  rw [if_neg (by omega)]
  simp only [and_mask hn, hm]
  rw [if_neg (by omega)]
  have := decodeIntegerLoop_bad (b0 :: tl) 5 1 (b0.toNat % 2 ^ n) (by omega) (by omega) (by omega)
    (by simp only [Nat.sub_self, Nat.pow_zero]; omega) (by simp) (by simpa using hall)
  simp only [Nat.sub_self, Nat.mul_zero, List.length_cons] at this
  rw [this, if_pos (by omega)]

theorem decodeString_long {buf : Bytes} {sp : Speed} (h : IntLong 7 buf) : decodeString buf sp = .err .IntegerOverflow := by
  have hd := decodeInteger_long (by decide) (by decide) h
  obtain ⟨b0, tl, rfl, _⟩ := h
  simp only [decodeString, hd, Res.bind_err]

theorem decodeString_defect {buf : Bytes} {sp : Speed} {e : DecoderError} (h : StrDefect lenientPads buf e) :
    decodeString buf sp = .err e := by
  cases h with
  | lengthTooLong h => exact decodeString_long h
  | @cut hi v len r hhi h hr =>
    have hd := decodeInteger_complete r (by decide) (by decide) (by rcases hhi with rfl | rfl <;> decide)
      (by rcases hhi with rfl | rfl <;> decide) h
    have hp := h.1.pos
    obtain ⟨b0, tl, hb⟩ : ∃ b0 tl, len = b0 :: tl := by
      cases len with
      | nil => simp at hp
      | cons b0 tl => exact ⟨b0, tl, rfl⟩
    subst hb
    have hl : (b0 :: tl ++ r).length = (b0 :: tl).length + r.length := List.length_append
    simp only [List.cons_append] at hd hl ⊢
    simp only [decodeString, hd, Res.bind_ok]
    rw [if_neg (by omega), if_pos (by omega)]
  | @badCode len q r h hq =>
    have hd := decodeInteger_complete (q ++ r) (by decide) (by decide) (by decide) (by decide) h
    obtain ⟨b0, tl, hb, hh⟩ := IntWire.head (by decide) (by decide) (by decide) h.1
    have hn : b0 &&& 128 = 128 := by
      rw [hiBits7] at hh
      by_cases hc : b0 &&& 128 = 128
      · exact hc
      · rw [if_neg hc] at hh; simp at hh
    subst hb
    have hl : (b0 :: tl ++ (q ++ r)).length = (b0 :: tl).length + (q.length + r.length) := by
      rw [List.length_append, List.length_append]
    have hdrop : List.take q.length (List.drop (b0 :: tl).length (b0 :: tl ++ (q ++ r))) = q := by
      rw [List.drop_left, List.take_left]
    rcases hdec : Huffman.decode q [] sp with ⟨res, s⟩
    have htot := Props.C15_total q [] sp
    rw [hdec] at htot
    simp only [List.cons_append] at hd hl hdrop ⊢
    simp only [decodeString, hd, Res.bind_ok]
    rw [if_neg (by omega), if_neg (by omega), if_pos (by simpa using hn), hdrop, hdec]
    rcases htot with htot | htot
    · simp only at htot
      subst htot
      obtain ⟨t, ht, hb⟩ := (Props.C06_accept_iff_listed q [] s sp).mp (by simpa using hdec)
      exact absurd hb (hq s t ht)
    · simp only at htot
      subst htot
      rfl

theorem decodeString_err {buf : Bytes} {sp : Speed} {e : DecoderError} (h : decodeString buf sp = .err e) :
    StrDefect lenientPads buf e := by
  rcases decodeInteger_cases buf 7 (by decide) (by decide) with
    ⟨rfl, _⟩ | ⟨b0, tl, hbuf, ⟨v, bs, rest, hb, hw, h'⟩ | ⟨ha, hb, hc, h'⟩ | ⟨ha, hb, hc, h'⟩⟩
  · simp [decodeString] at h
  · have hhi : hiBits 7 b0 = 0 ∨ hiBits 7 b0 = 128 := by
      rw [hiBits7]; split <;> simp
    by_cases hlen : v ≤ rest.length
    · have hsplit : rest = rest.take v ++ rest.drop v := (List.take_append_drop v rest).symm
      have htl : (rest.take v).length = v := by simp [hlen]
      by_cases hh : b0 &&& 128 = 128
      · rw [hiBits7, if_pos hh] at hw
        by_cases hq : ∃ s, ∃ t ∈ lenientPads, bytesBits (rest.take v) = codesOf s ++ t
        · exfalso
          obtain ⟨s, hq⟩ := hq
          have hsw : StrWireAs lenientPads 5 true s (bs ++ rest.take v) := ⟨bs, rest.take v, by rw [htl]; exact hw, hq, rfl⟩
          have := decodeString_complete (rest.drop v) sp hsw
          rw [List.append_assoc, ← hsplit, ← hb, h] at this
          simp at this
        · have hdef : StrDefect lenientPads (bs ++ (rest.take v ++ rest.drop v)) .InvalidInput :=
            .badCode (by rw [htl]; exact hw) (fun s t ht hc => hq ⟨s, t, ht, hc⟩)
          rw [← hsplit, ← hb] at hdef
          have := decodeString_defect (sp := sp) hdef
          rw [h] at this
          simp only [Res.err.injEq] at this
          subst this
          exact hdef
      · exfalso
        rw [hiBits7, if_neg hh] at hw
        have hsw : StrWireAs lenientPads 5 false (rest.take v) (bs ++ rest.take v) := ⟨bs, by rw [htl]; exact hw, rfl⟩
        have := decodeString_complete (rest.drop v) sp hsw
        rw [List.append_assoc, ← hsplit, ← hb, h] at this
        simp at this
    · have hdef : StrDefect lenientPads (bs ++ rest) .IntegerUnderflow := .cut hhi hw (by omega)
      rw [← hb] at hdef
      have := decodeString_defect (sp := sp) hdef
      rw [h] at this
      simp only [Res.err.injEq] at this
      subst this
      exact hdef
  · have hdef : IntLong 7 buf := ⟨b0, tl, hbuf, ha, hb, hc⟩
    have := decodeString_long (sp := sp) hdef
    rw [h] at this
    simp only [Res.err.injEq] at this
    subst this
    exact .lengthTooLong hdef
  · subst hbuf
    simp only [decodeString, h', Res.bind_panic] at h
    cases h

/-- The octet pattern tells the kind of the literal. -/
theorem literal_mode {b0 : UInt8} (h1 : b0.toNat < 128) (h2 : ¬ (32 ≤ b0.toNat ∧ b0.toNat < 64)) :
    ∃ m : Indexing, hiBits m.bits b0 = m.pattern ∧ m.bits = firstBits b0 := by
  by_cases h64 : 64 ≤ b0.toNat
  · refine ⟨.incremental, by simp only [hiBits, Indexing.bits, Indexing.pattern]; omega, ?_⟩
    unfold firstBits
    rw [if_neg (by omega), if_pos h64]; rfl
  · have hf : firstBits b0 = 4 := by
      unfold firstBits
      rw [if_neg (by omega), if_neg h64, if_neg (by omega)]
    by_cases h16 : 16 ≤ b0.toNat
    · exact ⟨.never, by simp only [hiBits, Indexing.bits, Indexing.pattern]; omega, by rw [hf]; rfl⟩
    · exact ⟨.without, by simp only [hiBits, Indexing.bits, Indexing.pattern]; omega, by rw [hf]; rfl⟩

/-- A defect makes one step fail with its error. -/
theorem decodeOne_defect {s : DecoderState} {e : DecoderError} (hwf : s.table.WF)
    (h : RepDefect lenientPads s.maxDynamicSize.toNat s.table.spec s.buf e) : decodeOne s = (.err e, s) := by
  generalize hbuf : s.buf = buf at h
  cases h with
  | @intTooLong b0 tl h =>
    by_cases h128 : 128 ≤ b0.toNat
    · have hf : firstBits b0 = 7 := by unfold firstBits; rw [if_pos h128]
      rw [hf, ← hbuf] at h
      rw [decodeOne_indexed hbuf h128, decodeIndexed_eq, decodeInteger_long (by decide) (by decide) h]
    by_cases h32 : 32 ≤ b0.toNat ∧ b0.toNat < 64
    · have hf : firstBits b0 = 5 := by unfold firstBits; rw [if_neg h128, if_neg (by omega), if_pos h32.1]
      rw [hf, ← hbuf] at h
      rw [decodeOne_update hbuf h32.1 h32.2, decUpdate_eq s hwf, decodeInteger_long (by decide) (by decide) h]
    obtain ⟨m, hm, hf⟩ := literal_mode (by omega) h32
    rw [← hf, ← hbuf] at h
    have hmp := mode_props m
    rw [decodeOne_literal hbuf hm, decodeLiteral_eq hwf hbuf hm, decodeInteger_long hmp.1 hmp.2.1 h]
  | @index i b r h hi =>
    have := decodeOne_wire (rep := .indexed i) hwf hbuf ⟨false, false, h⟩
    simpa only [Rep.apply, hi, Rep.isHeader, if_true] using this
  | @nameIndex m i b r h0 h hi =>
    have hmp := mode_props m
    obtain ⟨b0, tl, rfl, hh⟩ := IntWire.head hmp.2.1 hmp.2.2.1 hmp.2.2.2 h.1
    have hd := decodeInteger_complete r hmp.1 hmp.2.1 hmp.2.2.1 hmp.2.2.2 h
    have hb' : s.buf = b0 :: (tl ++ r) := by simpa using hbuf
    rw [decodeOne_literal hb' hh, decodeLiteral_eq hwf hb' hh]
    simp only [hbuf, hd, decodeName_index h0 (h.lt32 hmp.2.1), hi]
  | @size n b r h hn =>
    have := decodeOne_wire (rep := .sizeUpdate n) hwf hbuf ⟨false, false, h⟩
    have hap : Rep.apply s.maxDynamicSize.toNat s.table.spec (.sizeUpdate n) = none := by
      simp only [Rep.apply]; rw [if_neg (by omega)]
    simpa only [hap, Rep.isHeader, Bool.false_eq_true, if_false] using this
  | @valueAfterIndex m i b r _ h0 h hi hr =>
    have hmp := mode_props m
    obtain ⟨b0, tl, rfl, hh⟩ := IntWire.head hmp.2.1 hmp.2.2.1 hmp.2.2.2 h.1
    have hd := decodeInteger_complete r hmp.1 hmp.2.1 hmp.2.2.1 hmp.2.2.2 h
    have hb' : s.buf = b0 :: (tl ++ r) := by simpa using hbuf
    obtain ⟨en, hen⟩ := Option.isSome_iff_exists.mp hi
    rw [decodeOne_literal hb' hh, decodeLiteral_eq hwf hb' hh]
    simp only [hbuf, hd, decodeName_index h0 (h.lt32 hmp.2.1), hen, List.drop_left, decodeString_defect hr]
  | @name m b r _ h hr =>
    have hmp := mode_props m
    obtain ⟨b0, tl, rfl, hh⟩ := IntWire.head hmp.2.1 hmp.2.2.1 hmp.2.2.2 h.1
    have hd := decodeInteger_complete r hmp.1 hmp.2.1 hmp.2.2.1 hmp.2.2.2 h
    have hb' : s.buf = b0 :: (tl ++ r) := by simpa using hbuf
    rw [decodeOne_literal hb' hh, decodeLiteral_eq hwf hb' hh]
    simp only [decodeName_new, hbuf, hd, List.drop_left, decodeString_defect hr]
  | @value m n b b2 r _ h h2 hr =>
    obtain ⟨hu, h2⟩ := h2
    have hmp := mode_props m
    obtain ⟨b0, tl, rfl, hh⟩ := IntWire.head hmp.2.1 hmp.2.2.1 hmp.2.2.2 h.1
    have hd := decodeInteger_complete (b2 ++ r) hmp.1 hmp.2.1 hmp.2.2.1 hmp.2.2.2 h
    have hs := decodeString_complete r s.speed h2
    have hb' : s.buf = b0 :: (tl ++ (b2 ++ r)) := by simpa using hbuf
    rw [decodeOne_literal hb' hh, decodeLiteral_eq hwf hb' hh]
    simp only [decodeName_new, hbuf, hd, List.drop_left, hs]
    rw [show List.drop ((b0 :: tl).length + b2.length) (b0 :: tl ++ (b2 ++ r)) = r by
            rw [← List.append_assoc, ← List.length_append, List.drop_left]]
    simp only [decodeString_defect hr]

/-- A step that fails has met a defect. -/
theorem decodeOne_err {s : DecoderState} {e : DecoderError} (hwf : s.table.WF) (hne : s.buf ≠ []) (h : decodeOne s = (.err e, s)) :
    RepDefect lenientPads s.maxDynamicSize.toNat s.table.spec s.buf e := by
  -- it is enough to find some defect: its error is the one reported
  have found : ∀ {e'}, RepDefect lenientPads s.maxDynamicSize.toNat s.table.spec s.buf e' →
      RepDefect lenientPads s.maxDynamicSize.toNat s.table.spec s.buf e := by
    intro e' hd
    have := decodeOne_defect hwf hd
    rw [h] at this
    simp only [Prod.mk.injEq, Res.err.injEq, and_true] at this
    subst this
    exact hd
  have noWire : ∀ {rep : Rep} {bs rest : Bytes}, s.buf = bs ++ rest → RepWire lenientPads 5 rep bs →
      rep.apply s.maxDynamicSize.toNat s.table.spec = none := by
    intro rep bs rest hb hw
    have := decodeOne_wire hwf hb hw
    cases ha : rep.apply s.maxDynamicSize.toNat s.table.spec with
    | none => rfl
    | some p =>
      obtain ⟨hdr, st⟩ := p
      rw [ha] at this
      obtain ⟨t', _, _, h'⟩ := this
      rw [h] at h'
      simp at h'
  have noCut : ¬ RepCut lenientPads s.table.spec s.buf := by
    intro hc
    have := decodeOne_cut hwf hc
    rw [h] at this
    simp at this
  obtain ⟨b0, tl, hb⟩ : ∃ b0 tl, s.buf = b0 :: tl := by
    cases h : s.buf with
    | nil => exact absurd h hne
    | cons b0 tl => exact ⟨b0, tl, rfl⟩
  have intc : ∀ n, 1 ≤ n → n ≤ 8 →
      (∃ v bs rest, s.buf = bs ++ rest ∧ IntWireLim 5 n (hiBits n b0) v bs ∧ decodeInteger s.buf n = .ok (v, bs.length)) ∨
      IntLong n s.buf ∨ IntCut n s.buf := by
    intro n h1 hn
    rcases decodeInteger_cases s.buf n h1 hn with ⟨h, _⟩ | ⟨c0, ct, hc, h⟩
    · exact absurd h hne
    · have hcc := hb.symm.trans hc
      simp only [List.cons.injEq] at hcc
      obtain ⟨rfl, rfl⟩ := hcc
      rcases h with h | ⟨h1, h2, h3, h⟩ | ⟨h1, h2, h3, h⟩
      · exact Or.inl h
      · exact Or.inr (Or.inl ⟨b0, tl, hb, h1, h2, h3⟩)
      · exact Or.inr (Or.inr ⟨b0, tl, hb, h1, h2, h3⟩)
  have long : ∀ n, n = firstBits b0 → IntLong n s.buf → RepDefect lenientPads s.maxDynamicSize.toNat s.table.spec s.buf e := by
    intro n hn hl
    subst hn
    rw [hb] at hl found ⊢
    exact found (.intTooLong hl)
  by_cases h128 : 128 ≤ b0.toNat
  · rcases intc 7 (by decide) (by decide) with ⟨v, bs, rest, hbs, hw, _⟩ | h | h
    · have h7 : hiBits 7 b0 = 128 := by
        have := b0.toNat_lt
        simp only [hiBits]; omega
      rw [h7] at hw
      have hn := noWire (rep := .indexed v) hbs ⟨false, false, hw⟩
      have ha : s.table.spec.addr v = none := by
        simp only [Rep.apply] at hn
        cases ha : s.table.spec.addr v with
        | none => rfl
        | some p => rw [ha] at hn; simp at hn
      rw [hbs] at found ⊢
      exact found (.index hw ha)
    · exact long 7 (by unfold firstBits; rw [if_pos h128]) h
    · exact absurd (Or.inl ⟨b0, tl, hb, Or.inl ⟨h128, h⟩⟩) noCut
  by_cases h32 : 32 ≤ b0.toNat ∧ b0.toNat < 64
  · rcases intc 5 (by decide) (by decide) with ⟨v, bs, rest, hbs, hw, _⟩ | h | h
    · have h5 : hiBits 5 b0 = 32 := by simp only [hiBits]; omega
      rw [h5] at hw
      have hn := noWire (rep := .sizeUpdate v) hbs ⟨false, false, hw⟩
      have ha : s.maxDynamicSize.toNat < v := by
        simp only [Rep.apply] at hn
        rcases Nat.lt_or_ge s.maxDynamicSize.toNat v with h | h
        · exact h
        · rw [if_pos h] at hn; simp at hn
      rw [hbs] at found ⊢
      exact found (.size hw ha)
    · exact long 5 (by unfold firstBits; rw [if_neg h128, if_neg (by omega), if_pos h32.1]) h
    · exact absurd (Or.inl ⟨b0, tl, hb, Or.inr (Or.inr (Or.inl ⟨h32.1, h32.2, h⟩))⟩) noCut
  obtain ⟨m, hm, hf⟩ := literal_mode (b0 := b0) (by omega) h32
  have hmp := mode_props m
  have hone := decodeOne_literal hb hm
  rw [decodeLiteral_eq hwf hb hm, h] at hone
  rcases intc m.bits hmp.1 hmp.2.1 with ⟨v, b1, r1, hbs, hw, hd⟩ | h | h
  · rw [hm] at hw
    simp only [hd] at hone
    by_cases hv : v = 0
    · subst hv
      rw [decodeName_new, hbs] at hone
      simp only [List.drop_left] at hone
      rcases decodeString_cases r1 s.speed with ⟨nm, b2, r2, hb2, hw2, hs2⟩ | ⟨hc, _⟩ | ⟨_, e', he', hec⟩
      · simp only [hs2] at hone
        have hdrop : List.drop (b1.length + b2.length) (b1 ++ r1) = r2 := by
          rw [hb2, ← List.append_assoc, ← List.length_append, List.drop_left]
        rw [hdrop] at hone
        cases hs3 : decodeString r2 s.speed with
        | err e' =>
          rw [hbs, hb2] at found ⊢
          exact found (.value m hw hw2 (decodeString_err hs3))
        | ok p => simp only [hs3] at hone; simp at hone
        | panic => simp only [hs3] at hone; simp at hone
        | hang => simp only [hs3] at hone; simp at hone
      · exact absurd (Or.inr (Or.inr (Or.inl ⟨m, b1, r1, hw, hc, hbs⟩))) noCut
      · rw [hbs] at found ⊢
        exact found (.name m hw (decodeString_err he'))
    · rw [decodeName_index (by omega) (hw.lt32 hmp.2.1)] at hone
      cases ha : s.table.spec.addr v with
      | none =>
        rw [hbs] at found ⊢
        exact found (.nameIndex m (by omega) hw ha)
      | some en =>
        simp only [ha] at hone
        rw [hbs] at hone
        simp only [List.drop_left] at hone
        cases hs3 : decodeString r1 s.speed with
        | err e' =>
          rw [hbs] at found ⊢
          exact found (.valueAfterIndex m (by omega) hw (by rw [ha]; rfl) (decodeString_err hs3))
        | ok p => simp only [hs3] at hone; simp at hone
        | panic => simp only [hs3] at hone; simp at hone
        | hang => simp only [hs3] at hone; simp at hone
  · exact long m.bits hf h
  · exfalso
    simp only [decodeInteger_cut hmp.1 hmp.2.1 h] at hone
    simp at hone

end Verif.Hpack
