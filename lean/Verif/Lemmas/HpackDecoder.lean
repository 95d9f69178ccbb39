import Verif.Lemmas.HpackString
import Verif.Lemmas.HpackTable
import Verif.Hpack.Decoder
/-! One step of the decoder reads exactly one representation of RFC 7541. -/
namespace Verif.Hpack
open Verif.Spec
open Verif.Huffman (Speed)

/-- First octet of an integer. -/
theorem IntWire.head {n hi v : Nat} {bs : Bytes} (hn : n ≤ 8) (hhi : hi % 2 ^ n = 0) (hhl : hi < 256)
    (h : IntWire n hi v bs) : ∃ b0 tl, bs = b0 :: tl ∧ hiBits n b0 = hi := by
  have hp := Nat.two_pow_pos n
  have hadd : ∀ w, w < 2 ^ n → hiBits n (UInt8.ofNat (hi + w)) = hi := by
    intro w hw
    have := hiBits_add_lt hn (UInt8.ofNat hi) hw
    have e : (UInt8.ofNat hi).toNat = hi := UInt8.toNat_ofNat_of_lt' (by simp [UInt8.size]; omega)
    rw [hiBits, e, hhi] at this
    rw [hiBits, UInt8.toNat_ofNat_of_lt' (by simp [UInt8.size]; omega), Nat.add_mod, hhi, Nat.zero_add, Nat.mod_mod,
      Nat.mod_eq_of_lt hw]
    omega
  rcases h with ⟨hv, rfl⟩ | ⟨cs, _, _, rfl⟩
  · exact ⟨_, _, rfl, hadd v (by omega)⟩
  · exact ⟨_, _, rfl, hadd _ (by omega)⟩

/-- The mode of a literal is decided by its first octet. -/
theorem mode_range (m : Indexing) (b : UInt8) (h : hiBits m.bits b = m.pattern) :
    b.toNat < 128 ∧ (m = .incremental ↔ 64 ≤ b.toNat) ∧ (m = .never ↔ 16 ≤ b.toNat ∧ b.toNat < 32) ∧
      (m = .without ↔ b.toNat < 16) := by
  cases m <;> simp only [hiBits, Indexing.bits, Indexing.pattern] at h <;> simp <;> omega

theorem mode_props (m : Indexing) :
    1 ≤ m.bits ∧ m.bits ≤ 8 ∧ m.pattern % 2 ^ m.bits = 0 ∧ m.pattern < 256 := by cases m <;> decide

/-- The effect of a successful step. -/
def DecoderState.step (s : DecoderState) (rest : Bytes) (h : Option Field) (t : Table) : DecoderState :=
  { s with buf := rest, dst := s.dst ++ h.toList, table := t }

theorem ofNat32 {n : Nat} (h : n < 2 ^ 32) : (UInt32.ofNat n).toNat = n :=
  UInt32.toNat_ofNat_of_lt' (by simpa [UInt32.size] using h)

theorem decodeName_index {s : DecoderState} {i total : Nat} (hi : 0 < i) (h32 : i < 2 ^ 32) :
    decodeName s i total = match s.table.spec.addr i with
      | some h => .ok (h.1, total)
      | none => .err .InvalidIndex := by
  simp only [decodeName, if_neg (show ¬ i = 0 by omega), Table.get_spec, ofNat32 h32]
  cases s.table.spec.addr i <;> rfl

theorem decodeName_new {s : DecoderState} {total : Nat} :
    decodeName s 0 total = match decodeString (s.buf.drop total) s.speed with
    | .ok (name, n) => .ok (name, total + n)
    | .err e => .err e
    | .panic => .panic
    | .hang => .hang := by
  simp only [decodeName, if_true]
  cases decodeString (s.buf.drop total) s.speed <;> rfl

/-- `decodeLiteral` after its first octet is known, as a chain of results. -/
theorem decodeLiteral_eq {s : DecoderState} {b0 : UInt8} {tl : Bytes} {m : Indexing} (hwf : s.table.WF)
    (hb : s.buf = b0 :: tl) (hm : hiBits m.bits b0 = m.pattern) :
    decodeLiteral s = match decodeInteger s.buf m.bits with
      | .ok (i, t1) =>
        match decodeName s i t1 with
        | .ok (name, t2) =>
          match decodeString (s.buf.drop t2) s.speed with
          | .ok (value, t3) =>
            (.ok (t2 + t3), s.step (s.buf.drop (t2 + t3)) (some (name, value, m.flag))
              (if m = .incremental then
                match s.table.insert (ε := DecoderError) name value with | .ok t => t | _ => s.table
               else s.table))
          | .err e => (.err e, s)
          | .panic => (.panic, s)
          | .hang => (.hang, s)
        | .err e => (.err e, s)
        | .panic => (.panic, s)
        | .hang => (.hang, s)
      | .err e => (.err e, s)
      | .panic => (.panic, s)
      | .hang => (.hang, s) := by
  obtain ⟨hr, h1, h2, h3⟩ := mode_range m b0 hm
  have hbits : (if b0 &&& 64 = 64 then 6 else 4) = m.bits := by
    by_cases h64 : b0 &&& 64 = 64
    · rw [if_pos h64]
      rw [and64_iff] at h64
      rw [h1.mpr (by omega)]; rfl
    · rw [if_neg h64]
      rw [and64_iff] at h64
      cases m
      · exact absurd (h1.mp rfl) (by omega)
      · rfl
      · rfl
  unfold decodeLiteral
  simp only [M.bind_apply, M.get_apply]
  rw [hb]
  simp only [M.bind_apply, M.lift_apply, hbits]
  rw [← hb]
  cases hd : decodeInteger s.buf m.bits with
  | ok p =>
    obtain ⟨i, t1⟩ := p
    simp only
    cases hn : decodeName s i t1 with
    | ok q =>
      obtain ⟨name, t2⟩ := q
      simp only
      cases hs : decodeString (s.buf.drop t2) s.speed with
      | ok r =>
        obtain ⟨value, t3⟩ := r
        simp only [M.ite_apply]
        by_cases h64 : b0 &&& 64 = 64
        · rw [if_pos h64]
          rw [and64_iff] at h64
          have hmi := h1.mpr (by omega)
          obtain ⟨t', ht', _, _⟩ := Table.insert_spec (ε := DecoderError) s.table hwf name value
          subst hmi
          simp only [M.bind_apply, M.lift_apply, ht', M.modify_apply, M.pure_apply, if_true]
          rfl
        · rw [if_neg h64]
          rw [and64_iff] at h64
          have hmi : m ≠ .incremental := fun h => absurd (h1.mp h) (by omega)
          by_cases h16 : b0 &&& 16 = 16
          · rw [if_pos h16]
            rw [and16_iff] at h16
            have hr2 : b0.toNat < 32 := by
              cases m
              · exact absurd rfl hmi
              · have := h3.mp rfl; omega
              · have := h2.mp rfl; omega
            have hme := h2.mpr (by omega)
            subst hme
            simp only [M.modify_apply, M.pure_apply, if_neg hmi]
            rfl
          · rw [if_neg h16]
            rw [and16_iff] at h16
            have hme : m = .without := by
              cases m
              · exact absurd rfl hmi
              · rfl
              · have := h2.mp rfl; omega
            subst hme
            simp only [M.modify_apply, M.pure_apply, if_neg hmi]
            rfl
      | err e => rfl
      | panic => rfl
      | hang => rfl
    | err e => rfl
    | panic => rfl
    | hang => rfl
  | err e => rfl
  | panic => rfl
  | hang => rfl

/-- Dispatch on the first octet. -/
theorem decodeOne_literal {s : DecoderState} {b0 : UInt8} {tl : Bytes} {m : Indexing}
    (hb : s.buf = b0 :: tl) (hm : hiBits m.bits b0 = m.pattern) : decodeOne s = decodeLiteral s := by
  obtain ⟨hr, h1, h2, h3⟩ := mode_range m b0 hm
  unfold decodeOne
  simp only [M.bind_apply, M.get_apply, hb]
  rw [if_neg (by rw [and128_iff]; omega)]
  by_cases h64 : b0 &&& 64 = 64
  · rw [if_pos h64]
  · rw [if_neg h64, if_neg]
    · simp
    · rw [and32_iff]
      rw [and64_iff] at h64
      cases m
      · have := h1.mp rfl; omega
      · have := h3.mp rfl; omega
      · have := h2.mp rfl; omega

theorem decodeOne_indexed {s : DecoderState} {b0 : UInt8} {tl : Bytes}
    (hb : s.buf = b0 :: tl) (h : 128 ≤ b0.toNat) : decodeOne s = decodeIndexed s := by
  unfold decodeOne
  simp only [M.bind_apply, M.get_apply, hb]
  rw [if_pos ((and128_iff b0).mpr h)]

theorem decodeOne_update {s : DecoderState} {b0 : UInt8} {tl : Bytes}
    (hb : s.buf = b0 :: tl) (h : 32 ≤ b0.toNat) (h' : b0.toNat < 64) :
    decodeOne s = match decUpdateMaxDynamicSize s with
      | (.ok _, s') => (.ok 0, s')
      | (.err e, s') => (.err e, s')
      | (.panic, s') => (.panic, s')
      | (.hang, s') => (.hang, s') := by
  unfold decodeOne
  simp only [M.bind_apply, M.get_apply, hb]
  rw [if_neg (by rw [and128_iff]; omega), if_neg (by rw [and64_iff]; omega), if_pos (by rw [and32_iff]; omega)]
  rw [M.bind_apply]
  rcases decUpdateMaxDynamicSize s with ⟨r, s'⟩
  cases r <;> rfl

theorem decodeIndexed_eq (s : DecoderState) :
    decodeIndexed s = match decodeInteger s.buf 7 with
      | .ok (i, t) =>
        match s.table.spec.addr (UInt32.ofNat i).toNat with
        | none => (.err .InvalidIndex, s)
        | some (n, v) => (.ok t, s.step (s.buf.drop t) (some (n, v, 0)) s.table)
      | .err e => (.err e, s)
      | .panic => (.panic, s)
      | .hang => (.hang, s) := by
  unfold decodeIndexed
  simp only [M.bind_apply, M.get_apply, M.lift_apply]
  cases hd : decodeInteger s.buf 7 with
  | ok p =>
    obtain ⟨i, t⟩ := p
    simp only [Table.get_spec]
    cases ha : s.table.spec.addr (UInt32.ofNat i).toNat with
    | none => rfl
    | some e => rfl
  | err e => rfl
  | panic => rfl
  | hang => rfl

theorem decUpdate_eq (s : DecoderState) (hwf : s.table.WF) :
    decUpdateMaxDynamicSize s = match decodeInteger s.buf 5 with
      | .ok (n, t) =>
        if s.maxDynamicSize < UInt32.ofNat n then (.err .InvalidMaxDynamicSize, s)
        else (.ok t, s.step (s.buf.drop t) none
          (match s.table.updateMaxDynamicSize (ε := DecoderError) (UInt32.ofNat n) with | .ok t => t | _ => s.table))
      | .err e => (.err e, s)
      | .panic => (.panic, s)
      | .hang => (.hang, s) := by
  unfold decUpdateMaxDynamicSize
  simp only [M.bind_apply, M.get_apply, M.lift_apply]
  cases hd : decodeInteger s.buf 5 with
  | ok p =>
    obtain ⟨n, t⟩ := p
    simp only [gt_iff_lt, M.ite_apply]
    by_cases h : s.maxDynamicSize < UInt32.ofNat n
    · rw [if_pos h, if_pos h]; rfl
    · rw [if_neg h, if_neg h]
      obtain ⟨t', ht', _, _⟩ := Table.resize_spec (ε := DecoderError) s.table hwf (UInt32.ofNat n)
      simp only [M.bind_apply, M.lift_apply, ht', M.modify_apply, M.pure_apply, DecoderState.step, Option.toList_none,
        List.append_nil]
  | err e => rfl
  | panic => rfl
  | hang => rfl

/-- Completeness, also for representations without a meaning. -/
theorem decodeOne_wire {s : DecoderState} {rep : Rep} {bs rest : Bytes} (hwf : s.table.WF)
    (hb : s.buf = bs ++ rest) (hw : RepWire lenientPads 5 rep bs) :
    match rep.apply s.maxDynamicSize.toNat s.table.spec with
    | some (hdr, st) => ∃ t', t'.WF ∧ t'.spec = st ∧
        decodeOne s = (.ok (if rep.isHeader then bs.length else 0), s.step rest hdr t')
    | none => decodeOne s = (.err (if rep.isHeader then .InvalidIndex else .InvalidMaxDynamicSize), s) := by
  obtain ⟨hn, hv, hw⟩ := hw
  cases rep with
  | indexed i =>
    have hw : IntWireLim 5 7 128 i bs := hw
    obtain ⟨b0, tl, rfl, hh⟩ := IntWire.head (by decide) (by decide) (by decide) hw.1
    have hge : 128 ≤ b0.toNat := by simp only [hiBits] at hh; omega
    have hd := decodeInteger_complete rest (by decide) (by decide) (by decide) (by decide) hw
    rw [decodeOne_indexed hb hge, decodeIndexed_eq, hb, hd]
    simp only [ofNat32 (hw.lt32 (by decide)), Rep.apply]
    cases ha : s.table.spec.addr i with
    | none => rfl
    | some e =>
      simp only
      refine ⟨s.table, hwf, rfl, ?_⟩
      simp [Rep.isHeader]
  | literal m nm value =>
    have hmp := mode_props m
    cases nm with
    | index i =>
      obtain ⟨hi, b1, b2, h1, h2, rfl⟩ := hw
      obtain ⟨b0, tl, rfl, hh⟩ := IntWire.head hmp.2.1 hmp.2.2.1 hmp.2.2.2 h1.1
      have hb' : s.buf = b0 :: (tl ++ b2 ++ rest) := by simpa using hb
      have hd := decodeInteger_complete (b2 ++ rest) hmp.1 hmp.2.1 hmp.2.2.1 hmp.2.2.2 h1
      have hs := decodeString_complete rest s.speed h2
      have hbuf : s.buf = b0 :: tl ++ (b2 ++ rest) := by rw [hb]; simp
      rw [decodeOne_literal hb' hh, decodeLiteral_eq hwf hb' hh]
      simp only [hbuf, hd, decodeName_index hi (h1.lt32 hmp.2.1), Rep.apply, NameRef.resolve]
      cases ha : s.table.spec.addr i with
      | none => rfl
      | some e =>
        simp only [List.drop_left, hs, Option.map_some]
        by_cases hmi : m = .incremental
        · obtain ⟨t', ht', hwf', hsp'⟩ := Table.insert_spec (ε := DecoderError) s.table hwf e.1 value
          refine ⟨t', hwf', by rw [if_pos hmi]; exact hsp', ?_⟩
          simp only [if_pos hmi, ht', Rep.isHeader, if_true]
          rw [show List.drop ((b0 :: tl).length + b2.length) (b0 :: tl ++ (b2 ++ rest)) = rest by
            rw [← List.append_assoc, ← List.length_append, List.drop_left]]
          simp [Nat.add_assoc, Nat.add_comm]
        · refine ⟨s.table, hwf, by rw [if_neg hmi], ?_⟩
          simp only [if_neg hmi, Rep.isHeader, if_true]
          rw [show List.drop ((b0 :: tl).length + b2.length) (b0 :: tl ++ (b2 ++ rest)) = rest by
            rw [← List.append_assoc, ← List.length_append, List.drop_left]]
          simp [Nat.add_assoc, Nat.add_comm]
    | new name =>
      obtain ⟨b1, b2, b3, h1, h2, h3, rfl⟩ := hw
      obtain ⟨b0, tl, rfl, hh⟩ := IntWire.head hmp.2.1 hmp.2.2.1 hmp.2.2.2 h1.1
      have hb' : s.buf = b0 :: (tl ++ b2 ++ b3 ++ rest) := by simpa using hb
      have hd := decodeInteger_complete (b2 ++ (b3 ++ rest)) hmp.1 hmp.2.1 hmp.2.2.1 hmp.2.2.2 h1
      have hs2 := decodeString_complete (b3 ++ rest) s.speed h2
      have hs3 := decodeString_complete rest s.speed h3
      have hbuf : s.buf = b0 :: tl ++ (b2 ++ (b3 ++ rest)) := by rw [hb]; simp
      rw [decodeOne_literal hb' hh, decodeLiteral_eq hwf hb' hh]
      simp only [decodeName_new, hbuf, hd, Rep.apply, NameRef.resolve, List.drop_left, hs2]
      rw [show List.drop ((b0 :: tl).length + b2.length) (b0 :: tl ++ (b2 ++ (b3 ++ rest))) = b3 ++ rest by
            rw [← List.append_assoc, ← List.length_append, List.drop_left]]
      simp only [hs3]
      have hdrop : List.drop ((b0 :: tl).length + b2.length + b3.length) (b0 :: tl ++ (b2 ++ (b3 ++ rest))) = rest := by
        rw [← List.append_assoc, ← List.append_assoc, ← List.length_append, ← List.length_append, List.drop_left]
      rw [hdrop]
      by_cases hmi : m = .incremental
      · obtain ⟨t', ht', hwf', hsp'⟩ := Table.insert_spec (ε := DecoderError) s.table hwf name value
        refine ⟨t', hwf', by rw [if_pos hmi]; exact hsp', ?_⟩
        simp only [if_pos hmi, ht', Rep.isHeader, if_true]
        simp [Nat.add_assoc, Nat.add_comm, Nat.add_left_comm]
      · refine ⟨s.table, hwf, by rw [if_neg hmi], ?_⟩
        simp only [if_neg hmi, Rep.isHeader, if_true]
        simp [Nat.add_assoc, Nat.add_comm, Nat.add_left_comm]
  | sizeUpdate n =>
    have hw : IntWireLim 5 5 32 n bs := hw
    obtain ⟨b0, tl, rfl, hh⟩ := IntWire.head (by decide) (by decide) (by decide) hw.1
    have hge : 32 ≤ b0.toNat ∧ b0.toNat < 64 := by simp only [hiBits] at hh; omega
    have hd := decodeInteger_complete rest (by decide) (by decide) (by decide) (by decide) hw
    rw [decodeOne_update hb hge.1 hge.2, decUpdate_eq s hwf, hb, hd]
    simp only [UInt32.lt_iff_toNat_lt, ofNat32 (hw.lt32 (by decide)), Rep.apply]
    by_cases hle : n ≤ s.maxDynamicSize.toNat
    · rw [if_pos hle, if_neg (by omega)]
      obtain ⟨t', ht', hwf', hsp'⟩ := Table.resize_spec (ε := DecoderError) s.table hwf (UInt32.ofNat n)
      rw [ofNat32 (hw.lt32 (by decide))] at hsp'
      refine ⟨t', hwf', hsp', ?_⟩
      simp [ht', Rep.isHeader]
    · rw [if_neg hle, if_pos (by omega)]
      rfl

/-- A cut representation makes the decoder panic. -/
theorem decodeOne_cut {s : DecoderState} (hwf : s.table.WF) (h : RepCut lenientPads s.table.spec s.buf) :
    decodeOne s = (.panic, s) := by
  have strcut : ∀ {r : Bytes}, StrCut r → decodeString r s.speed = .panic := by
    intro r hr
    rcases decodeString_cases r s.speed with ⟨s', bs, rest, hb, hw, h'⟩ | ⟨_, h'⟩ | ⟨hn, _⟩
    · rcases hr with rfl | hr
      · rfl
      · have := decodeInteger_cut (by decide) (by decide) hr
        obtain ⟨b0, tl, rfl, _⟩ := hr
        simp only [decodeString, this, Res.bind_panic]
    · exact h'
    · exact absurd hr hn
  rcases h with ⟨b0, tl, hb, h⟩ | ⟨m, i, b1, r, hi, ha, h1, hc, hb⟩ | ⟨m, b1, r, h1, hc, hb⟩ | ⟨m, n, b1, b2, r, h1, ⟨hu, h2⟩, hc, hb⟩
  · rcases h with ⟨hr, h⟩ | ⟨hr1, hr2, h⟩ | ⟨hr1, hr2, h⟩ | ⟨hr, h⟩
    · rw [decodeOne_indexed hb hr, decodeIndexed_eq, decodeInteger_cut (by decide) (by decide) h]
    · have hm : hiBits Indexing.incremental.bits b0 = Indexing.incremental.pattern := by
        simp only [hiBits, Indexing.bits, Indexing.pattern]; omega
      rw [decodeOne_literal hb hm, decodeLiteral_eq hwf hb hm,
        show decodeInteger s.buf Indexing.incremental.bits = .panic from decodeInteger_cut (by decide) (by decide) h]
    · rw [decodeOne_update hb hr1 hr2, decUpdate_eq s hwf, decodeInteger_cut (by decide) (by decide) h]
    · by_cases h16 : b0.toNat < 16
      · have hm : hiBits Indexing.without.bits b0 = Indexing.without.pattern := by
          simp only [hiBits, Indexing.bits, Indexing.pattern]; omega
        rw [decodeOne_literal hb hm, decodeLiteral_eq hwf hb hm,
          show decodeInteger s.buf Indexing.without.bits = .panic from decodeInteger_cut (by decide) (by decide) h]
      · have hm : hiBits Indexing.never.bits b0 = Indexing.never.pattern := by
          simp only [hiBits, Indexing.bits, Indexing.pattern]; omega
        rw [decodeOne_literal hb hm, decodeLiteral_eq hwf hb hm,
          show decodeInteger s.buf Indexing.never.bits = .panic from decodeInteger_cut (by decide) (by decide) h]
  · have hmp := mode_props m
    obtain ⟨b0, tl, rfl, hh⟩ := IntWire.head hmp.2.1 hmp.2.2.1 hmp.2.2.2 h1.1
    have hd := decodeInteger_complete r hmp.1 hmp.2.1 hmp.2.2.1 hmp.2.2.2 h1
    have hb' : s.buf = b0 :: (tl ++ r) := by simpa using hb
    obtain ⟨e, he⟩ := Option.isSome_iff_exists.mp ha
    rw [decodeOne_literal hb' hh, decodeLiteral_eq hwf hb' hh]
    simp only [hb, hd, decodeName_index hi (h1.lt32 hmp.2.1), he, List.drop_left, strcut hc]
  · have hmp := mode_props m
    obtain ⟨b0, tl, rfl, hh⟩ := IntWire.head hmp.2.1 hmp.2.2.1 hmp.2.2.2 h1.1
    have hd := decodeInteger_complete r hmp.1 hmp.2.1 hmp.2.2.1 hmp.2.2.2 h1
    have hb' : s.buf = b0 :: (tl ++ r) := by simpa using hb
    rw [decodeOne_literal hb' hh, decodeLiteral_eq hwf hb' hh]
    simp only [decodeName_new, hb, hd, List.drop_left, strcut hc]
  · have hmp := mode_props m
    obtain ⟨b0, tl, rfl, hh⟩ := IntWire.head hmp.2.1 hmp.2.2.1 hmp.2.2.2 h1.1
    have hd := decodeInteger_complete (b2 ++ r) hmp.1 hmp.2.1 hmp.2.2.1 hmp.2.2.2 h1
    have hs := decodeString_complete r s.speed h2
    have hb' : s.buf = b0 :: (tl ++ (b2 ++ r)) := by simpa using hb
    rw [decodeOne_literal hb' hh, decodeLiteral_eq hwf hb' hh]
    simp only [decodeName_new, hb, hd, List.drop_left, hs]
    rw [show List.drop ((b0 :: tl).length + b2.length) (b0 :: tl ++ (b2 ++ r)) = r by
            rw [← List.append_assoc, ← List.length_append, List.drop_left]]
    simp only [strcut hc]

/-- Octets that start no representation and are not cut: an integer of more than five octets, a string longer than
the rest of the buffer, a bad Huffman string, or a bad name index before such a string. -/
theorem decodeOne_total {s : DecoderState} (hwf : s.table.WF) (hne : s.buf ≠ []) :
    (∃ rep bs rest, s.buf = bs ++ rest ∧ RepWire lenientPads 5 rep bs) ∨
    RepCut lenientPads s.table.spec s.buf ∨
    (∃ e, decodeOne s = (.err e, s) ∧
      (e = .IntegerOverflow ∨ e = .IntegerUnderflow ∨ e = .InvalidInput ∨ e = .InvalidIndex)) := by
  obtain ⟨b0, tl, hb⟩ : ∃ b0 tl, s.buf = b0 :: tl := by
    cases h : s.buf with
    | nil => exact absurd h hne
    | cons b0 tl => exact ⟨b0, tl, rfl⟩
  have intc : ∀ n, 1 ≤ n → n ≤ 8 →
      (∃ v bs rest, s.buf = bs ++ rest ∧ IntWireLim 5 n (hiBits n b0) v bs ∧
          decodeInteger s.buf n = .ok (v, bs.length)) ∨
      decodeInteger s.buf n = .err .IntegerOverflow ∨ IntCut n s.buf := by
    intro n h1 hn
    rcases decodeInteger_cases s.buf n h1 hn with ⟨h, _⟩ | ⟨c0, ct, hc, h⟩
    · exact absurd h hne
    · have hcc := hb.symm.trans hc
      simp only [List.cons.injEq] at hcc
      obtain ⟨rfl, rfl⟩ := hcc
      rcases h with h | ⟨_, _, _, h⟩ | ⟨h1, h2, h3, h⟩
      · exact Or.inl h
      · exact Or.inr (Or.inl h)
      · exact Or.inr (Or.inr ⟨b0, tl, hb, h1, h2, h3⟩)
  by_cases h128 : 128 ≤ b0.toNat
  · rcases intc 7 (by decide) (by decide) with ⟨v, bs, rest, hbs, hw, _⟩ | h | h
    · left
      refine ⟨.indexed v, bs, rest, hbs, false, false, ?_⟩
      have : hiBits 7 b0 = 128 := by
        have := b0.toNat_lt
        simp only [hiBits]; omega
      rw [this] at hw; exact hw
    · right; right
      exact ⟨_, by rw [decodeOne_indexed hb h128, decodeIndexed_eq, h], by simp⟩
    · right; left; left
      exact ⟨b0, tl, hb, Or.inl ⟨h128, h⟩⟩
  by_cases h32 : 32 ≤ b0.toNat ∧ b0.toNat < 64
  · rcases intc 5 (by decide) (by decide) with ⟨v, bs, rest, hbs, hw, _⟩ | h | h
    · left
      refine ⟨.sizeUpdate v, bs, rest, hbs, false, false, ?_⟩
      have : hiBits 5 b0 = 32 := by simp only [hiBits]; omega
      rw [this] at hw; exact hw
    · right; right
      exact ⟨_, by rw [decodeOne_update hb h32.1 h32.2, decUpdate_eq s hwf, h], by simp⟩
    · right; left; left
      exact ⟨b0, tl, hb, Or.inr (Or.inr (Or.inl ⟨h32.1, h32.2, h⟩))⟩
  obtain ⟨m, hm, hcut⟩ : ∃ m : Indexing, hiBits m.bits b0 = m.pattern ∧ (IntCut m.bits s.buf → FirstIntCut s.buf) := by
    by_cases h64 : 64 ≤ b0.toNat
    · refine ⟨.incremental, by simp only [hiBits, Indexing.bits, Indexing.pattern]; omega, fun h => ?_⟩
      exact ⟨b0, tl, hb, Or.inr (Or.inl ⟨h64, by omega, h⟩)⟩
    · by_cases h16 : 16 ≤ b0.toNat
      · refine ⟨.never, by simp only [hiBits, Indexing.bits, Indexing.pattern]; omega, fun h => ?_⟩
        exact ⟨b0, tl, hb, Or.inr (Or.inr (Or.inr ⟨by omega, h⟩))⟩
      · refine ⟨.without, by simp only [hiBits, Indexing.bits, Indexing.pattern]; omega, fun h => ?_⟩
        exact ⟨b0, tl, hb, Or.inr (Or.inr (Or.inr ⟨by omega, h⟩))⟩
  have hmp := mode_props m
  have hone := decodeOne_literal hb hm
  rw [decodeLiteral_eq hwf hb hm] at hone
  rcases intc m.bits hmp.1 hmp.2.1 with ⟨v, b1, r1, hbs, hw, hd⟩ | h | h
  · rw [hm] at hw
    simp only [hd] at hone
    by_cases hv : v = 0
    · subst hv
      rw [decodeName_new] at hone
      rw [hbs] at hone
      simp only [List.drop_left] at hone
      rcases decodeString_cases r1 s.speed with ⟨nm, b2, r2, hb2, ⟨hu2, hw2⟩, hs2⟩ | ⟨hc, _⟩ | ⟨_, e, he, hec⟩
      · simp only [hs2] at hone
        have hdrop : List.drop (b1.length + b2.length) (b1 ++ r1) = r2 := by
          rw [hb2, ← List.append_assoc, ← List.length_append, List.drop_left]
        rw [hdrop] at hone
        rcases decodeString_cases r2 s.speed with ⟨vl, b3, r3, hb3, ⟨hu3, hw3⟩, hs3⟩ | ⟨hc, _⟩ | ⟨_, e, he, hec⟩
        · left
          refine ⟨.literal m (.new nm) vl, b1 ++ (b2 ++ b3), r3, by rw [hbs, hb2, hb3]; simp, hu2, hu3, b1, b2, b3, hw, hw2, hw3, rfl⟩
        · right; left; right; right; right
          exact ⟨m, nm, b1, b2, r2, hw, ⟨hu2, hw2⟩, hc, by rw [hbs, hb2]⟩
        · right; right
          simp only [he] at hone
          exact ⟨e, hone, by rcases hec with h | h | h <;> simp [h]⟩
      · right; left; right; right; left
        exact ⟨m, b1, r1, hw, hc, hbs⟩
      · right; right
        simp only [he] at hone
        exact ⟨e, hone, by rcases hec with h | h | h <;> simp [h]⟩
    · rw [decodeName_index (by omega) (hw.lt32 hmp.2.1)] at hone
      cases ha : s.table.spec.addr v with
      | none =>
        right; right
        simp only [ha] at hone
        exact ⟨_, hone, by simp⟩
      | some e =>
        simp only [ha] at hone
        rw [hbs] at hone
        simp only [List.drop_left] at hone
        rcases decodeString_cases r1 s.speed with ⟨vl, b3, r3, hb3, ⟨hu3, hw3⟩, hs3⟩ | ⟨hc, _⟩ | ⟨_, e, he, hec⟩
        · left
          refine ⟨.literal m (.index v) vl, b1 ++ b3, r3, by rw [hbs, hb3]; simp, false, hu3, by omega, b1, b3, hw, hw3, rfl⟩
        · right; left; right; left
          exact ⟨m, v, b1, r1, by omega, by rw [ha]; rfl, hw, hc, hbs⟩
        · right; right
          simp only [he] at hone
          exact ⟨e, hone, by rcases hec with h | h | h <;> simp [h]⟩
  · right; right
    simp only [h] at hone
    exact ⟨_, hone, by simp⟩
  · right; left; left
    exact hcut h

theorem RepWireAs.pos {pads : List (List Bool)} {lim : Nat} {hn hv : Bool} {rep : Rep} {bs : Bytes}
    (h : RepWireAs pads lim hn hv rep bs) : 1 ≤ bs.length := by
  cases rep with
  | indexed i => exact IntWire.pos h.1
  | sizeUpdate n => exact IntWire.pos h.1
  | literal m nm v =>
    cases nm with
    | index i =>
      obtain ⟨_, b1, b2, h1, _, rfl⟩ := h
      have := IntWire.pos h1.1
      simp; omega
    | new n =>
      obtain ⟨b1, b2, b3, h1, _, _, rfl⟩ := h
      have := IntWire.pos h1.1
      simp; omega

/-- One step either reads a meaningful representation, or fails and changes nothing. -/
theorem decodeOne_cases {s : DecoderState} (hwf : s.table.WF) (hne : s.buf ≠ []) :
    (∃ rep bs rest hdr t', s.buf = bs ++ rest ∧ RepWire lenientPads 5 rep bs ∧
      rep.apply s.maxDynamicSize.toNat s.table.spec = some (hdr, t'.spec) ∧ t'.WF ∧
      decodeOne s = (.ok (if rep.isHeader then bs.length else 0), s.step rest hdr t')) ∨
    ((∀ rep bs rest, s.buf = bs ++ rest → RepWire lenientPads 5 rep bs →
        rep.apply s.maxDynamicSize.toNat s.table.spec = none) ∧
      ((∃ e, decodeOne s = (.err e, s) ∧ ¬ RepCut lenientPads s.table.spec s.buf) ∨
       (decodeOne s = (.panic, s) ∧ RepCut lenientPads s.table.spec s.buf))) := by
  have fail : ∀ r, decodeOne s = (r, s) → (∀ n, r ≠ .ok n) →
      ∀ rep bs rest, s.buf = bs ++ rest → RepWire lenientPads 5 rep bs →
        rep.apply s.maxDynamicSize.toNat s.table.spec = none := by
    intro r hr hnok rep bs rest hb hw
    have := decodeOne_wire hwf hb hw
    split at this
    · obtain ⟨t', _, _, h⟩ := this
      rw [hr] at h
      exact absurd (congrArg Prod.fst h) (hnok _)
    · assumption
  have nocut : ∀ e, decodeOne s = (.err e, s) → ¬ RepCut lenientPads s.table.spec s.buf := by
    intro e he hc
    rw [decodeOne_cut hwf hc] at he
    simp at he
  rcases decodeOne_total hwf hne with ⟨rep, bs, rest, hb, hw⟩ | hc | ⟨e, he, _⟩
  · have := decodeOne_wire hwf hb hw
    split at this
    · next hdr st ha =>
      obtain ⟨t', h1, h2, h3⟩ := this
      left
      exact ⟨rep, bs, rest, hdr, t', hb, hw, by rw [ha, h2], h1, h3⟩
    · right
      exact ⟨fail _ this (by simp), Or.inl ⟨_, this, nocut _ this⟩⟩
  · have := decodeOne_cut hwf hc
    right
    exact ⟨fail _ this (by simp), Or.inr ⟨this, hc⟩⟩
  · right
    exact ⟨fail _ he (by simp), Or.inl ⟨e, he, nocut _ he⟩⟩

end Verif.Hpack
