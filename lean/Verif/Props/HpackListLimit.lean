import Verif.Props.HpackMore
/-! Property theorem C143: a loop of `decode_exact` that enforces a limit on the size of the header list. -/
namespace Verif.Props
open Verif Verif.Spec Verif.Hpack

/-- The size of a header list, RFC 9113 6.5.2 (SETTINGS_MAX_HEADER_LIST_SIZE): names, values and 32 octets for each header. -/
def listSize (hs : List (Octets × Octets × UInt8)) : Nat := (hs.map fun h => h.1.length + h.2.1.length + 32).sum

/-- User code around /repo/hpack/src/decoder/mod.rs:138-165:
`while !buf.is_empty() { let mut one = Vec::with_capacity(1); decoder.decode_exact(&mut buf, &mut one)?; total += size(&one); dst.append(&mut one);
if total > limit { return Ok(false) } } Ok(true)`. Fuel: as many rounds as there are octets. -/
def readLimited (limit : Nat) : Nat → Nat → M DecoderState DecoderError Bool
  | fuel, total => fun s =>
    if s.buf.isEmpty then (.ok true, s)
    else
      match fuel with
      | 0 => (.hang, s)
      | fuel + 1 =>
        match decodeExact 1 { s with dst := [] } with
        | (.ok _, s') =>
          if total + listSize s'.dst > limit then (.ok false, { s' with dst := s.dst ++ s'.dst })
          else readLimited limit fuel (total + listSize s'.dst) { s' with dst := s.dst ++ s'.dst }
        | (.err e, s') => (.err e, { s' with dst := s.dst })
        | (.panic, s') => (.panic, { s' with dst := s.dst })
        | (.hang, s') => (.hang, { s' with dst := s.dst })

/-- `Ok(true)` for success, the same error otherwise. -/
def ended : Res DecoderError Nat → Res DecoderError Bool
  | .ok _ => .ok true
  | .err e => .err e
  | .panic => .panic
  | .hang => .hang

theorem listSize_append (a b : List Field) : listSize (a ++ b) = listSize a + listSize b := by simp [listSize]

theorem readLimited_spec (limit : Nat) : ∀ (fuel total k : Nat) (s : DecoderState), s.table.WF → s.buf.length ≤ fuel →
    ∃ hs, (decodeLoop fuel k s).2.dst = s.dst ++ hs ∧
      (total + listSize hs ≤ limit → readLimited limit fuel total s = (ended (decodeLoop fuel k s).1, (decodeLoop fuel k s).2)) ∧
      (total ≤ limit → limit < total + listSize hs → ∃ init h rest s1 fuel1 k1, hs = init ++ h :: rest ∧ total + listSize init ≤ limit ∧
        limit < total + listSize (init ++ [h]) ∧ readLimited limit fuel total s = (.ok false, s1) ∧ s1.dst = s.dst ++ (init ++ [h]) ∧
        s1.table.WF ∧ s1.buf.length ≤ fuel1 ∧ decodeLoop fuel k s = decodeLoop fuel1 k1 s1) := by
  intro fuel
  induction fuel with
  | zero =>
    intro total k s _ hf
    have hb : s.buf = [] := List.eq_nil_of_length_eq_zero (by omega)
    refine ⟨[], ?_, fun _ => ?_, fun h1 h2 => ?_⟩
    · rw [decodeLoop_nil _ _ hb]; simp
    · rw [decodeLoop_nil _ _ hb]; simp [readLimited, hb, ended]
    · simp [listSize] at h2; omega
  | succ fuel ih =>
    intro total k s hwf hf
    by_cases hne : s.buf = []
    · refine ⟨[], ?_, fun _ => ?_, fun h1 h2 => ?_⟩
      · rw [decodeLoop_nil _ _ hne]; simp
      · rw [decodeLoop_nil _ _ hne]; simp [readLimited, hne, ended]
      · simp [listSize] at h2; omega
    · have hemp : s.buf.isEmpty = false := by simpa using hne
      obtain ⟨s', ws, hs1, used, r, he, _, _, _, hlen, hd, hwf', _⟩ := C36_capacity { s with dst := [] } hwf 1
      replace hd : s'.dst = hs1 := by simpa using hd
      rw [readLimited, decodeLoop]
      simp only [hemp, Bool.false_eq_true, if_false, he]
      cases r with
      | err e =>
        refine ⟨[], by simp, fun _ => rfl, fun h1 h2 => ?_⟩
        simp [listSize] at h2; omega
      | panic =>
        refine ⟨[], by simp, fun _ => rfl, fun h1 h2 => ?_⟩
        simp [listSize] at h2; omega
      | hang =>
        refine ⟨[], by simp, fun _ => rfl, fun h1 h2 => ?_⟩
        simp [listSize] at h2; omega
      | ok n =>
        have hp : s'.buf.length < s.buf.length := C41_progress { s with dst := [] } s' hwf n hne he
        obtain ⟨hs2, e1, e2, e3⟩ := ih (total + listSize s'.dst) (k + n) { s' with dst := s.dst ++ s'.dst } hwf' (by show s'.buf.length ≤ fuel; omega)
        simp only
        refine ⟨s'.dst ++ hs2, by rw [e1, List.append_assoc], fun h => ?_, fun h1 h2 => ?_⟩
        · rw [listSize_append] at h
          rw [if_neg (by omega)]
          exact e2 (by omega)
        · rw [listSize_append] at h2
          by_cases hc : total + listSize s'.dst > limit
          · rw [if_pos hc]
            match hh : s'.dst with
            | [] => rw [hh] at hc; simp [listSize] at hc; omega
            | [h] =>
              refine ⟨[], h, hs2, { s' with dst := s.dst ++ [h] }, fuel, k + n, rfl, by simpa [listSize] using h1, ?_, rfl, rfl, hwf', ?_, rfl⟩
              · rw [hh] at hc; exact hc
              · show s'.buf.length ≤ fuel; omega
            | a :: b :: l =>
              rw [← hd, hh] at hlen; simp at hlen
          · rw [if_neg hc]
            obtain ⟨init, h, rest, s1, fuel1, k1, g1, g2, g3, g4, g5, g6, g7, g8⟩ := e3 (by omega) (by omega)
            refine ⟨s'.dst ++ init, h, rest, s1, fuel1, k1, by rw [g1, List.append_assoc], ?_, ?_, g4, ?_, g6, g7, g8⟩
            · rw [listSize_append]; omega
            · rw [List.append_assoc, listSize_append]; omega
            · rw [g5]; simp

/-- C143. If the headers that `decode` would deliver (before it succeeds or fails) fit the limit, the loop is `decode`: same headers, same table, same rest of
the buffer, same error. -/
theorem C143_within (s : DecoderState) (hwf : s.table.WF) (limit : Nat) (hs : List Field) (hd : (decode s).2.dst = s.dst ++ hs)
    (h : listSize hs ≤ limit) : readLimited limit s.buf.length 0 s = (ended (decode s).1, (decode s).2) := by
  obtain ⟨hs', e1, e2, _⟩ := readLimited_spec limit s.buf.length 0 0 s hwf (Nat.le_refl _)
  obtain rfl : hs = hs' := List.append_cancel_left (hd.symm.trans e1)
  exact e2 (by omega)

/-- C143. Otherwise the loop ends with `Ok(false)`, having kept the shortest beginning of the list that exceeds the limit: all headers but the last one fit. -/
theorem C143_exceeded (s : DecoderState) (hwf : s.table.WF) (limit : Nat) (hs : List Field) (hd : (decode s).2.dst = s.dst ++ hs)
    (h : limit < listSize hs) :
    ∃ init last rest s1, hs = init ++ last :: rest ∧ listSize init ≤ limit ∧ limit < listSize (init ++ [last]) ∧
      readLimited limit s.buf.length 0 s = (.ok false, s1) ∧ s1.dst = s.dst ++ init ++ [last] ∧ 32 * init.length ≤ limit := by
  obtain ⟨hs', e1, _, e3⟩ := readLimited_spec limit s.buf.length 0 0 s hwf (Nat.le_refl _)
  obtain rfl : hs = hs' := List.append_cancel_left (hd.symm.trans e1)
  obtain ⟨init, last, rest, s1, _, _, g1, g2, g3, g4, g5, _⟩ := e3 (Nat.zero_le _) (by omega)
  refine ⟨init, last, rest, s1, g1, by omega, by omega, g4, by rw [g5, List.append_assoc], ?_⟩
  have : ∀ l : List Field, 32 * l.length ≤ listSize l := by
    intro l
    induction l with
    | nil => simp
    | cons a l ih => simp only [listSize, List.map_cons, List.sum_cons, List.length_cons] at ih ⊢; omega
  have := this init
  omega

/-- C143. A list that is too long need not cost the connection: decoding what the loop left in the buffer (and throwing the headers away) ends where `decode` ends, with the
same table and the same verdict. -/
theorem C143_drop_rest (s s1 : DecoderState) (hwf : s.table.WF) (limit : Nat) (h : readLimited limit s.buf.length 0 s = (.ok false, s1)) :
    (decode s1).2 = (decode s).2 ∧ (match (decode s).1, (decode s1).1 with
      | .ok k, .ok k1 => k1 ≤ k
      | r, r1 => r = r1) := by
  obtain ⟨hs, e1, e2, e3⟩ := readLimited_spec limit s.buf.length 0 0 s hwf (Nat.le_refl _)
  have hgt : limit < 0 + listSize hs := by
    rcases Nat.lt_or_ge limit (0 + listSize hs) with h' | h'
    · exact h'
    · have := e2 h'
      rw [h] at this
      have := congrArg Prod.fst this
      cases hr : (decodeLoop s.buf.length 0 s).1 <;> rw [hr] at this <;> cases this
  obtain ⟨init, last, rest, s1', fuel1, k1, _, _, _, g4, _, g6, g7, g8⟩ := e3 (Nat.zero_le _) hgt
  obtain rfl : s1 = s1' := congrArg Prod.snd (h.symm.trans g4)
  obtain ⟨a, b⟩ := decodeLoop_shift fuel1 s1.buf.length k1 0 s1 g6 g7 (Nat.le_refl _)
  rw [Nat.add_zero] at a b
  unfold decode
  rw [g8]
  refine ⟨a.symm, ?_⟩
  rw [b]
  cases (decodeLoop s1.buf.length 0 s1).1 <;> simp

/-- Three headers of sizes 42, 44 and 38; limits 124, 123 and 80. -/
example : (readLimited 124 9 0 { DecoderState.default with buf := [0x82, 0x87, 0x84] }).1 = .ok true ∧
    (readLimited 123 9 0 { DecoderState.default with buf := [0x82, 0x87, 0x84] }).1 = .ok false ∧
    (readLimited 80 9 0 { DecoderState.default with buf := [0x82, 0x87, 0x84] }).2.buf = [0x84] ∧
    listSize (decode { DecoderState.default with buf := [0x82, 0x87, 0x84] }).2.dst = 124 := by decide +kernel

end Verif.Props
