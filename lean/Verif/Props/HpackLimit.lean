import Verif.Props.HpackVerdict
import Verif.Props.HpackStream
/-! Property theorem C89: a decoder with a higher limit decodes whatever one with a lower limit does, in the same way. -/
namespace Verif.Props
open Verif Verif.Spec Verif.Hpack

theorem apply_mono {l l' : Nat} (hl : l ≤ l') {r : Rep} {t : SpecTable} {p} (h : r.apply l t = some p) : r.apply l' t = some p := by
  cases r with
  | indexed i => exact h
  | literal m nm v => exact h
  | sizeUpdate n =>
    simp only [Rep.apply] at h ⊢
    by_cases hn : n ≤ l
    · rw [if_pos hn] at h; rw [if_pos (Nat.le_trans hn hl)]; exact h
    · rw [if_neg hn] at h; cases h

theorem applyAll_mono {l l' : Nat} (hl : l ≤ l') : ∀ (rs : List Rep) (t : SpecTable) (p), applyAll l t rs = some p → applyAll l' t rs = some p := by
  intro rs
  induction rs with
  | nil => intro t p h; exact h
  | cons r rs ih =>
    intro t p h
    simp only [applyAll] at h ⊢
    cases ha : r.apply l t with
    | none => simp [ha] at h
    | some q =>
      rw [ha] at h
      rw [apply_mono hl ha]
      simp only at h ⊢
      cases hb : applyAll l q.2 rs with
      | none => simp [hb] at h
      | some x => rw [hb] at h; rw [ih _ _ hb]; exact h

theorem block_mono {l l' : Nat} (hl : l ≤ l') {pads : List (List Bool)} {t t' : SpecTable} {bs : Octets} {ws : List (Rep × Octets)} {hs : List Field}
    (h : Block pads l t bs ws hs t') : Block pads l' t bs ws hs t' := ⟨h.1, h.2.1, applyAll_mono hl _ _ _ h.2.2⟩

theorem strDefect_ne {pads : List (List Bool)} {bs : Octets} {e : DecoderError} (h : StrDefect pads bs e) : e ≠ .InvalidMaxDynamicSize := by
  cases h <;> simp

theorem repDefect_mono {l l' : Nat} {pads : List (List Bool)} {t : SpecTable} {bs : Octets} {e : DecoderError}
    (h : RepDefect pads l t bs e) (he : e ≠ .InvalidMaxDynamicSize) : RepDefect pads l' t bs e := by
  cases h with
  | intTooLong h => exact .intTooLong h
  | index h hi => exact .index h hi
  | nameIndex m h0 h hi => exact .nameIndex m h0 h hi
  | size h hn => exact absurd rfl he
  | valueAfterIndex m h0 h hi hr => exact .valueAfterIndex m h0 h hi hr
  | name m h hr => exact .name m h hr
  | value m h h2 hr => exact .value m h h2 hr

theorem blockEnd_mono {l l' : Nat} {t : SpecTable} {k : Nat} {bs : Octets} {r : Res DecoderError Nat} (h : BlockEnd l t k bs r)
    (hr : r ≠ .err .InvalidMaxDynamicSize) : BlockEnd l' t k bs r := by
  cases h with
  | complete => exact .complete
  | defect h => exact .defect (repDefect_mono h (by rintro rfl; exact hr rfl))
  | cut h => exact .cut h

/-- C89. A higher limit changes nothing for input that is not refused because of the limit, valid or not: same result, same headers, same
octets left, same table. -/
theorem C89_higher_limit (s s' : DecoderState) (hwf : s.table.WF) (r : Res DecoderError Nat) (limit : UInt32) (hl : s.maxDynamicSize ≤ limit)
    (h : decode s = (r, s')) (hr : r ≠ .err .InvalidMaxDynamicSize) :
    decode (s.setMaxDynamicSize limit) = (r, s'.setMaxDynamicSize limit) := by
  obtain ⟨used, ws, hs, h1, h2, h3, h4, h5, h6, h7⟩ := (C120_verdict s s' hwf r).mp h
  exact (C120_verdict (s.setMaxDynamicSize limit) (s'.setMaxDynamicSize limit) hwf r).mpr
    ⟨used, ws, hs, h1, block_mono (UInt32.le_iff_toNat_le.mp hl) h2, h3, h4, h5, rfl, blockEnd_mono h7 hr⟩

/-- C89. And a lower limit makes a difference in one way only: decoding stops at the first size update beyond it with `InvalidMaxDynamicSize`,
after having delivered the beginning of the same headers. -/
theorem C89_lower_limit (s s' : DecoderState) (hwf : s.table.WF) (r : Res DecoderError Nat) (limit : UInt32) (hl : limit ≤ s.maxDynamicSize)
    (h : decode s = (r, s')) :
    decode (s.setMaxDynamicSize limit) = (r, s'.setMaxDynamicSize limit) ∨
      ∃ s2 more n u rest, decode (s.setMaxDynamicSize limit) = (.err .InvalidMaxDynamicSize, s2) ∧ s'.dst = s2.dst ++ more ∧
        s2.buf = u ++ rest ∧ RepWire lenientPads 5 (.sizeUpdate n) u ∧ limit.toNat < n := by
  rcases hd : decode (s.setMaxDynamicSize limit) with ⟨r2, s2⟩
  have hback : (s.setMaxDynamicSize limit).setMaxDynamicSize s.maxDynamicSize = s := rfl
  by_cases hr : r2 = .err .InvalidMaxDynamicSize
  · right
    subst hr
    obtain ⟨used, ws, hs, h1, h2, h3, h4, h5, h6, h7⟩ := (C120_verdict (s.setMaxDynamicSize limit) s2 hwf _).mp hd
    have hblk : Block lenientPads s.maxDynamicSize.toNat s.table.spec used ws hs s2.table.spec := block_mono (UInt32.le_iff_toNat_le.mp hl) h2
    obtain ⟨t1, w1, w2, fuel', hf', hrun⟩ := block_steps hblk s s.buf.length 0 s2.buf hwf rfl rfl h1 (Nat.le_refl _)
    let x : DecoderState := { s with buf := s2.buf, dst := s.dst ++ hs, table := t1 }
    have hx := (decodeLoop_shift fuel' x.buf.length (headerOctets ws).length 0 x w1 hf' (Nat.le_refl _)).1
    obtain ⟨used', ws', hs', g1, g2, g3, _⟩ := (C120_verdict x (decode x).2 w1 (decode x).1).mp rfl
    have hdst : s'.dst = s2.dst ++ hs' := by
      have e1 : s' = (decode s).2 := by rw [h]
      have e2 : (decode s).2 = (decode x).2 := by
        show (decodeLoop s.buf.length 0 s).2 = (decodeLoop x.buf.length 0 x).2
        rw [hrun, Nat.zero_add]
        exact hx
      rw [e1, e2, g3, h3]
      rfl
    have hdef : ∃ n u rest, s2.buf = u ++ rest ∧ RepWire lenientPads 5 (.sizeUpdate n) u ∧ limit.toNat < n := by
      generalize s2.buf = q at h7
      cases h7 with
      | defect h7 =>
        generalize he : DecoderError.InvalidMaxDynamicSize = e at h7
        cases h7 with
        | intTooLong h => cases he
        | index h hi => cases he
        | nameIndex m h0 h hi => cases he
        | size h hn => exact ⟨_, _, _, rfl, ⟨false, false, h⟩, hn⟩
        | valueAfterIndex m h0 h hi hr => exact absurd he.symm (strDefect_ne hr)
        | name m h hr => exact absurd he.symm (strDefect_ne hr)
        | value m h h2 hr => exact absurd he.symm (strDefect_ne hr)
    obtain ⟨n, u, rest, k1, k2, k3⟩ := hdef
    exact ⟨s2, hs', n, u, rest, rfl, hdst, k1, k2, k3⟩
  · left
    have := C89_higher_limit (s.setMaxDynamicSize limit) s2 hwf r2 s.maxDynamicSize hl hd hr
    rw [hback, h] at this
    simp only [Prod.mk.injEq] at this
    obtain ⟨rfl, rfl⟩ := this
    obtain ⟨_, _, _, _, _, _, _, _, h6, _⟩ := (C120_verdict (s.setMaxDynamicSize limit) s2 hwf _).mp hd
    obtain ⟨a, b, c, d, e⟩ := s2
    simp only [DecoderState.setMaxDynamicSize] at h6 ⊢
    rw [h6]

/-! A block with a size update to 100 between two headers, for limits of 4096 and of 50; and a defective block. -/
example : (decode { DecoderState.default with buf := [0x82, 0x3F, 0x45, 0x84] }).1 = .ok 2 ∧
    (decode ({ DecoderState.default with buf := [0x82, 0x3F, 0x45, 0x84] }.setMaxDynamicSize 50)).1 = .err .InvalidMaxDynamicSize ∧
    (decode ({ DecoderState.default with buf := [0x82, 0x3F, 0x45, 0x84] }.setMaxDynamicSize 50)).2.dst.length = 1 := by decide +kernel
example : (decode { DecoderState.default with buf := [0x82, 0xC6] }).1 = .err .InvalidIndex ∧
    (decode ({ DecoderState.default with buf := [0x82, 0xC6] }.setMaxDynamicSize 5000)).1 = .err .InvalidIndex := by decide +kernel

end Verif.Props
