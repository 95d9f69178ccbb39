import Verif.Lemmas.HpackInt
import Verif.Props.Huffman
/-! String literals of RFC 7541 5.2. -/
namespace Verif.Hpack
open Verif.Spec
open Verif.Huffman (Speed)

theorem hiBits7 (b : UInt8) : hiBits 7 b = if b &&& 128 = 128 then 128 else 0 := by
  revert b; exact forall_u8 (by decide +kernel)

theorem decodeString_complete {huff : Bool} {s bs : Bytes} (rest : Bytes) (sp : Speed)
    (h : StrWireAs lenientPads 5 huff s bs) : decodeString (bs ++ rest) sp = .ok (s, bs.length) := by
  have key : ∀ (hi : Nat) (len data : Bytes), (hi = 0 ∨ hi = 128) → IntWireLim 5 7 hi data.length len →
      decodeInteger (len ++ data ++ rest) 7 = .ok (data.length, len.length) ∧
      ∃ b0 tl, len ++ data ++ rest = b0 :: tl ∧ hiBits 7 b0 = hi := by
    intro hi len data hhi hw
    refine ⟨?_, ?_⟩
    · rw [List.append_assoc]
      exact decodeInteger_complete _ (by decide) (by decide) (by rcases hhi with rfl | rfl <;> rfl)
        (by rcases hhi with rfl | rfl <;> decide) hw
    · obtain ⟨⟨hv, rfl⟩ | ⟨cs, _, _, rfl⟩, _⟩ := hw
      · refine ⟨_, _, rfl, ?_⟩
        have hv' : data.length < 127 := hv
        rw [hiBits, UInt8.toNat_ofNat_of_lt' (by simp [UInt8.size]; omega)]
        omega
      · refine ⟨_, _, rfl, ?_⟩
        rcases hhi with rfl | rfl <;> decide
  cases huff with
  | false =>
    obtain ⟨len, hw, rfl⟩ := h
    obtain ⟨h1, b0, tl, h2, h3⟩ := key 0 len s (Or.inl rfl) hw
    rw [h2] at h1 ⊢
    rw [hiBits7] at h3
    have hn : ¬ (b0 &&& 128 = 128) := by intro hc; rw [if_pos hc] at h3; simp at h3
    simp only [decodeString, h1, Res.bind_ok]
    rw [← h2]
    rw [if_neg (by simp), if_neg (by simp), if_neg (by simpa using hn)]
    simp
  | true =>
    obtain ⟨len, q, hw, ht, rfl⟩ := h
    obtain ⟨h1, b0, tl, h2, h3⟩ := key 128 len q (Or.inr rfl) hw
    rw [h2] at h1 ⊢
    rw [hiBits7] at h3
    have hn : (b0 &&& 128 = 128) := by
      by_cases hc : b0 &&& 128 = 128
      · exact hc
      · rw [if_neg hc] at h3; simp at h3
    simp only [decodeString, h1, Res.bind_ok]
    rw [← h2]
    rw [if_neg (by simp), if_neg (by simp), if_pos (by simpa using hn)]
    have hdec := (Props.C06_accept_iff_listed q [] s sp).mpr ht
    have e : List.take q.length (List.drop len.length (len ++ q ++ rest)) = q := by simp
    rw [e, hdec]
    simp

/-- The ways `decodeString` can end. -/
theorem decodeString_cases (buf : Bytes) (sp : Speed) :
    (∃ s bs rest, buf = bs ++ rest ∧ StrWire lenientPads 5 s bs ∧ decodeString buf sp = .ok (s, bs.length)) ∨
    (StrCut buf ∧ decodeString buf sp = .panic) ∨
    (¬ StrCut buf ∧ ∃ e, decodeString buf sp = .err e ∧ (e = .IntegerOverflow ∨ e = .IntegerUnderflow ∨ e = .InvalidInput)) := by
  rcases decodeInteger_cases buf 7 (by decide) (by decide) with
    ⟨rfl, _⟩ | ⟨b0, tl, rfl, ⟨v, bs, rest, hb, hw, h'⟩ | ⟨ha, hb, hc, h'⟩ | ⟨ha, hb, hc, h'⟩⟩
  · right; left; exact ⟨Or.inl rfl, rfl⟩
  · have hnc : ¬ StrCut (b0 :: tl) := by
      rintro (h | h)
      · simp at h
      · rw [decodeInteger_cut (by decide) (by decide) h] at h'; simp at h'
    by_cases hlen : v ≤ rest.length
    · -- the whole string is there
      have hlens : (b0 :: tl).length = bs.length + rest.length := by rw [hb, List.length_append]
      have hsplit : rest = rest.take v ++ rest.drop v := (List.take_append_drop v rest).symm
      have htl : (rest.take v).length = v := by simp [hlen]
      rw [hiBits7] at hw
      by_cases hh : b0 &&& 128 = 128
      · rw [if_pos hh] at hw
        rcases hd : Huffman.decode (rest.take v) [] sp with ⟨r, s⟩
        have htot := Props.C15_total (rest.take v) [] sp
        rw [hd] at htot
        rcases htot with htot | htot
        · left
          simp only at htot
          subst htot
          have hp := (Props.C06_accept_iff_listed (rest.take v) [] s sp).mp (by simpa using hd)
          have hsw : StrWireAs lenientPads 5 true s (bs ++ rest.take v) := ⟨bs, rest.take v, by rw [htl]; exact hw, hp, rfl⟩
          refine ⟨s, bs ++ rest.take v, rest.drop v, by rw [hb, List.append_assoc, ← hsplit], ⟨_, hsw⟩, ?_⟩
          have := decodeString_complete (rest.drop v) sp hsw
          rwa [List.append_assoc, ← hsplit, ← hb] at this
        · right; right
          simp only at htot
          subst htot
          refine ⟨hnc, .InvalidInput, ?_, by simp⟩
          simp only [decodeString, h', Res.bind_ok]
          rw [if_neg (by omega), if_neg (by omega), if_pos (by simpa using hh), hb]
          simp only [List.drop_left, hd, DecoderError.ofHuffman]
      · rw [if_neg hh] at hw
        left
        have hsw : StrWireAs lenientPads 5 false (rest.take v) (bs ++ rest.take v) := ⟨bs, by rw [htl]; exact hw, rfl⟩
        refine ⟨rest.take v, bs ++ rest.take v, rest.drop v, by rw [hb, List.append_assoc, ← hsplit], ⟨_, hsw⟩, ?_⟩
        have := decodeString_complete (rest.drop v) sp hsw
        rwa [List.append_assoc, ← hsplit, ← hb] at this
    · right; right
      refine ⟨hnc, .IntegerUnderflow, ?_, by simp⟩
      have hlens : (b0 :: tl).length = bs.length + rest.length := by rw [hb, List.length_append]
      simp only [decodeString, h', Res.bind_ok]
      rw [if_neg (by omega), if_pos (by omega)]
  · right; right
    refine ⟨?_, .IntegerOverflow, by simp only [decodeString, h', Res.bind_err], by simp⟩
    rintro (h | h)
    · simp at h
    · rw [decodeInteger_cut (by decide) (by decide) h] at h'; simp at h'
  · right; left
    exact ⟨Or.inr ⟨b0, tl, rfl, ha, hb, hc⟩, by simp only [decodeString, h', Res.bind_panic]⟩

theorem decodeString_sound {buf s : Bytes} {sp : Speed} {t : Nat} (h : decodeString buf sp = .ok (s, t)) :
    ∃ bs rest, buf = bs ++ rest ∧ StrWire lenientPads 5 s bs ∧ t = bs.length := by
  rcases decodeString_cases buf sp with ⟨s', bs, rest, hb, hw, h'⟩ | ⟨_, h'⟩ | ⟨_, e, h', _⟩ <;> rw [h] at h'
  · simp only [Res.ok.injEq, Prod.mk.injEq] at h'
    obtain ⟨rfl, rfl⟩ := h'
    exact ⟨bs, rest, hb, hw, rfl⟩
  · simp at h'
  · simp at h'

/-! ### The encoder -/

theorem rfcPads_lenient {t : List Bool} (h : t ∈ rfcPads) : t ∈ lenientPads := by
  obtain ⟨k, hk, rfl⟩ := List.mem_map.mp h
  exact Huffman.padOnes_mem (List.mem_range.mp hk)

theorem encodeString_spec (data : Bytes) (huff : Bool) :
    (strLen huff data < 2 ^ 32 → ∃ bs, encodeString data huff = .ok bs ∧ StrWireAs rfcPads 6 huff data bs ∧
      (strLen huff data < 2 ^ 28 + 127 → StrWireAs rfcPads 5 huff data bs)) ∧
    (2 ^ 32 ≤ strLen huff data → encodeString data huff = .err .IntegerOverflow) := by
  have hint : ∀ (n : Nat) (f : UInt8), n < 2 ^ 32 → (f = 0 ∨ f = 0x80) →
      ∃ len, encodeInteger (UInt32.ofNat n) f 7 = .ok len ∧ IntWireLim 6 7 f.toNat n len ∧
        (n < 2 ^ 28 + 127 → IntWireLim 5 7 f.toNat n len) := by
    intro n f hn hf
    obtain ⟨bs, h1, h2, h3⟩ := encodeInteger_spec (UInt32.ofNat n) f 7 (by decide) (by decide)
    have hu : (UInt32.ofNat n).toNat = n := UInt32.toNat_ofNat_of_lt' (by simpa [UInt32.size] using hn)
    have hhi : hiBits 7 f = f.toNat := by rcases hf with rfl | rfl <;> rfl
    rw [hu, hhi] at h2
    rw [hu] at h3
    refine ⟨bs, h1, ⟨h2, ?_⟩, fun hlt => ⟨h2, ?_⟩⟩
    · rw [h3 5 (by decide)]; omega
    · rw [h3 4 (by decide)]; omega
  cases huff with
  | false =>
    simp only [strLen, Bool.false_eq_true, if_false]
    refine ⟨fun hlt => ?_, fun hge => ?_⟩
    · obtain ⟨len, h1, h2, h3⟩ := hint data.length 0 hlt (Or.inl rfl)
      refine ⟨len ++ data, ?_, ⟨len, h2, rfl⟩, fun h => ⟨len, h3 h, rfl⟩⟩
      simp only [encodeString, Bool.false_eq_true, if_false, Res.bind_ok]
      rw [if_neg (by omega), h1]; rfl
    · simp only [encodeString, Bool.false_eq_true, if_false, Res.bind_ok]
      rw [if_pos (by omega)]
  | true =>
    simp only [strLen, if_true]
    obtain ⟨q, he, hq⟩ := Huffman.encode_spec data []
    have hql : q.length = (codeLenSum data + 7) / 8 := by
      obtain ⟨q', he', hl, _⟩ := Props.C04_encode_length data []
      rw [he] at he'
      simp only [List.nil_append, Prod.mk.injEq, true_and] at he'
      rw [he']; exact hl
    obtain ⟨k, hk, hbits⟩ := hq
    have hpad : ∃ t ∈ rfcPads, bytesBits q = codesOf data ++ t :=
      ⟨_, List.mem_map.mpr ⟨k, List.mem_range.mpr hk, rfl⟩, hbits⟩
    rw [← hql]
    refine ⟨fun hlt => ?_, fun hge => ?_⟩
    · obtain ⟨len, h1, h2, h3⟩ := hint q.length 0x80 hlt (Or.inr rfl)
      refine ⟨len ++ q, ?_, ⟨len, q, h2, hpad, rfl⟩, fun h => ⟨len, q, h3 h, hpad, rfl⟩⟩
      simp only [encodeString, if_true, he, List.nil_append, Res.bind_ok]
      rw [if_neg (by omega), h1]; rfl
    · simp only [encodeString, if_true, he, List.nil_append, Res.bind_ok]
      rw [if_pos (by omega)]

theorem StrWireAs_lenient {lim : Nat} {huff : Bool} {s bs : Bytes} (h : StrWireAs rfcPads lim huff s bs) :
    StrWireAs lenientPads lim huff s bs := by
  cases huff with
  | false => exact h
  | true =>
    obtain ⟨len, q, h1, ⟨t, ht, h2⟩, h3⟩ := h
    exact ⟨len, q, h1, ⟨t, rfcPads_lenient ht, h2⟩, h3⟩

theorem StrWireAs.pos {pads : List (List Bool)} {lim : Nat} {huff : Bool} {s bs : Bytes}
    (h : StrWireAs pads lim huff s bs) : 1 ≤ bs.length := by
  cases huff with
  | false =>
    obtain ⟨len, h1, rfl⟩ := h
    have := h1.1.pos
    simp; omega
  | true =>
    obtain ⟨len, q, h1, _, rfl⟩ := h
    have := h1.1.pos
    simp; omega

end Verif.Hpack
