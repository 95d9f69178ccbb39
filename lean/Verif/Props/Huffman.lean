import Verif.Lemmas.HuffPad
import Verif.Lemmas.HuffGen
/-! Property theorems of the Huffman crate (C01-C11, C13-C16). `encode` and `decode` are the modelled API functions;
`code`, `codesOf`, `NoCode`, `IsHuffEnc`, `bytesBits`, `bitsVal` are specification vocabulary (`Verif/Spec`). -/
namespace Verif.Props
open Verif Verif.Spec Verif.Huffman

/-- C03. Encoding never fails and appends the RFC bit string (codes, then fewer than eight ones). -/
theorem C03_encode_bits (src dst : Bytes) : ∃ q, encode src dst = (.ok (), dst ++ q) ∧ IsHuffEnc src q :=
  encode_spec src dst

/-- C03, uniqueness: these bytes are the only ones with that description. -/
theorem C03_encoding_unique (src q q' : Bytes) (h : IsHuffEnc src q) (h' : IsHuffEnc src q') : q = q' := Huffman.IsHuffEnc.unique h h'

example (q : Bytes) (h : IsHuffEnc [97] q) : q = [0x1f] := C03_encoding_unique [97] q [0x1f] h ⟨3, by omega, by decide +kernel⟩

/-- C04. Length of the encoding. -/
theorem C04_encode_length (src dst : Bytes) :
    ∃ q, encode src dst = (.ok (), dst ++ q) ∧ q.length = (codeLenSum src + 7) / 8 ∧
      5 * src.length ≤ 8 * q.length ∧ 8 * q.length ≤ 30 * src.length + 7 := by
  obtain ⟨q, he, k, hk, hb⟩ := encode_spec src dst
  have hl := congrArg List.length hb
  simp only [bytesBits_length, List.length_append, codesOf_length, padOnes, List.length_replicate] at hl
  have hb := codeLenSum_bounds src
  exact ⟨q, he, by omega, by omega, by omega⟩

/-- C06. Exact acceptance. -/
theorem C06_accept_iff (src dst s : Bytes) (sp : Speed) :
    decode src dst sp = (.ok (), dst ++ s) ↔
      ∃ t, bytesBits src = codesOf s ++ t ∧ NoCode t ∧ bitsVal t ∈ [0, 1, 3, 7, 15, 31, 63, 127] := by
  obtain ⟨o, ⟨t, he, hb, hn⟩ | ⟨t, he, hb⟩⟩ := decode_spec src dst sp
  · constructor
    · intro h
      rw [he] at h
      simp only [Prod.mk.injEq, List.append_cancel_left_eq] at h
      obtain ⟨h1, rfl⟩ := h
      refine ⟨t, hb, hn, ?_⟩
      by_cases hm : bitsVal t ∈ padVals
      · exact hm
      · rw [if_neg hm] at h1; simp at h1
    · rintro ⟨t', hb', hn', hm⟩
      obtain ⟨rfl, rfl⟩ := codes_unique hn.noByte hn'.noByte (hb.symm.trans hb')
      rw [he, if_pos (show bitsVal t ∈ padVals from hm)]
  · constructor
    · intro h; rw [he] at h; simp at h
    · rintro ⟨t', hb', hn', hm⟩
      rw [List.append_assoc] at hb
      obtain ⟨rfl, rfl⟩ := codes_unique eos_noByte hn'.noByte (hb.symm.trans hb')
      exact absurd ⟨t, rfl⟩ (hn' 256 (Nat.le_refl _))

/-- C06, with the acceptable remainders listed. -/
theorem C06_accept_iff_listed (src dst s : Bytes) (sp : Speed) :
    decode src dst sp = (.ok (), dst ++ s) ↔ ∃ t ∈ lenientPads, bytesBits src = codesOf s ++ t := by
  rw [C06_accept_iff]
  constructor
  · rintro ⟨t, h1, h2, h3⟩; exact ⟨t, (pad_iff t).mp ⟨h2, h3⟩, h1⟩
  · rintro ⟨t, h1, h2⟩; have := (pad_iff t).mpr h1; exact ⟨t, h2, this.1, this.2⟩

/-- The decoder always ends in one of three ways, decided by the bits alone. -/
theorem C13_decode_outcome (src dst : Bytes) (sp : Speed) :
    ∃ s r, bytesBits src = codesOf s ++ r ∧ (∀ b : UInt8, ¬ IsPrefix (code b.toNat) r) ∧
      (decode src dst sp).2 = dst ++ s ∧
      ((decode src dst sp).1 = .ok () ∨ (decode src dst sp).1 = .err .InvalidInput) := by
  obtain ⟨o, ⟨t, he, hb, hn⟩ | ⟨t, he, hb⟩⟩ := decode_spec src dst sp
  · refine ⟨o, t, hb, fun b => hn _ (UInt8.toNat_le_256 b), by rw [he], ?_⟩
    rw [he]
    by_cases hm : bitsVal t ∈ padVals <;> simp [hm]
  · refine ⟨o, code 256 ++ t, by rw [hb, List.append_assoc], fun b => eos_noByte _ b.toNat_lt, by rw [he], ?_⟩
    rw [he]; simp

/-- C13. Only appends; the appended bytes are exactly the characters before the point where decoding stopped, i.e.
the remaining bits start with no octet's code. That description determines them. -/
theorem C13_appends_decoded (src dst s : Bytes) (r : List Bool) (sp : Speed)
    (hb : bytesBits src = codesOf s ++ r) (hr : ∀ b : UInt8, ¬ IsPrefix (code b.toNat) r) :
    (decode src dst sp).2 = dst ++ s := by
  obtain ⟨s', r', hb', hr', hd, _⟩ := C13_decode_outcome src dst sp
  have conv : ∀ {x : List Bool}, (∀ b : UInt8, ¬ IsPrefix (code b.toNat) x) → ∀ a, a < 256 → ¬ IsPrefix (code a) x := by
    intro x hx a ha
    have := hx (UInt8.ofNat a)
    rwa [UInt8.toNat_ofNat_of_lt' ha] at this
  obtain ⟨rfl, rfl⟩ := codes_unique (conv hr') (conv hr) (hb'.symm.trans hb)
  exact hd

/-- A character and eleven ones, which are no padding: the character is delivered although the input is refused. -/
example : (decode [0x07, 0xff] [9] .FourBits).2 = [9, 48] := by decide +kernel
example : ∃ r, bytesBits [0x07, 0xff] = codesOf [48] ++ r ∧ ∀ b : UInt8, ¬ IsPrefix (code b.toNat) r :=
  ⟨List.replicate 11 true, by decide +kernel, by
    rintro b ⟨u, hu⟩
    have : ∀ n : Fin 256, (code n.val).length ≤ 11 → (code n.val) ≠ List.replicate (code n.val).length true := by decide +kernel
    have hl : (code b.toNat).length ≤ 11 := by have := congrArg List.length hu; simp at this; omega
    refine this ⟨b.toNat, b.toNat_lt⟩ hl (List.eq_replicate_iff.mpr ⟨rfl, fun x hx => ?_⟩)
    have : x ∈ List.replicate 11 true := by rw [hu]; exact List.mem_append_left _ hx
    exact List.eq_of_mem_replicate this⟩

/-- C01. Round trip at every speed, whatever is in the destination vectors. -/
theorem C01_round_trip (s d1 d2 : Bytes) (sp : Speed) :
    ∃ q, encode s d1 = (.ok (), d1 ++ q) ∧ decode q d2 sp = (.ok (), d2 ++ s) := by
  obtain ⟨q, he, k, hk, hb⟩ := encode_spec s d1
  exact ⟨q, he, (C06_accept_iff_listed q d2 s sp).mpr ⟨_, padOnes_mem hk, hb⟩⟩

/-- C02. The speed does not matter, neither for the verdict nor for what is left in `dst`. -/
theorem C02_speed_independent (src dst : Bytes) (sp sp' : Speed) : decode src dst sp = decode src dst sp' := by
  obtain ⟨o, ⟨t, he, hb, hn⟩ | ⟨t, he, hb⟩⟩ := decode_spec src dst sp <;>
  obtain ⟨o', ⟨t', he', hb', hn'⟩ | ⟨t', he', hb'⟩⟩ := decode_spec src dst sp'
  · obtain ⟨rfl, rfl⟩ := codes_unique hn.noByte hn'.noByte (hb.symm.trans hb')
    rw [he, he']
  · rw [List.append_assoc] at hb'
    obtain ⟨rfl, rfl⟩ := codes_unique hn.noByte eos_noByte (hb.symm.trans hb')
    exact absurd ⟨t', rfl⟩ (hn 256 (Nat.le_refl _))
  · rw [List.append_assoc] at hb
    obtain ⟨rfl, rfl⟩ := codes_unique eos_noByte hn'.noByte (hb.symm.trans hb')
    exact absurd ⟨t, rfl⟩ (hn' 256 (Nat.le_refl _))
  · rw [List.append_assoc] at hb hb'
    obtain ⟨rfl, h⟩ := codes_unique eos_noByte eos_noByte (hb.symm.trans hb')
    rw [he, he']

/-- C02. `DecoderSpeed::known` lists every speed, once: trying all of them never gives a different result. -/
theorem C02_known_speeds (src dst : Bytes) (sp : Speed) :
    sp ∈ Speed.known ∧ Speed.known.Nodup ∧ ∀ sp' ∈ Speed.known, decode src dst sp' = decode src dst sp :=
  ⟨by cases sp <;> decide, by decide, fun sp' _ => C02_speed_independent src dst sp' sp⟩

/-- C05. Injectivity. -/
theorem C05_injective (s t : Bytes) (h : encode s [] = encode t []) : s = t := by
  obtain ⟨q, he, hd⟩ := C01_round_trip s [] [] .OneBit
  obtain ⟨q', he', hd'⟩ := C01_round_trip t [] [] .OneBit
  rw [he, he'] at h
  simp only [List.nil_append, Prod.mk.injEq, true_and] at h
  subst h
  rw [hd] at hd'
  simpa using hd'

example : encode [97] [] ≠ encode [98] [] := fun h => absurd (C05_injective _ _ h) (by decide)

/-- The RFC condition on the padding, and the decoder's claim to enforce it (C07, full statement). -/
def PaddingStrict : Prop :=
  ∀ (src s : Bytes) (sp : Speed), decode src [] sp = (.ok (), s) →
    ∃ k, k < 8 ∧ bytesBits src = codesOf s ++ padOnes k

/-- C07 is false of the code: `[0x00]` (the code of "0" padded with zeros) is accepted at every speed. -/
theorem C07_padding_strict_false : ¬ PaddingStrict := by
  intro h
  obtain ⟨k, hk, hb⟩ := h [0x00] [48] .OneBit (by decide +kernel)
  have h1 : bytesBits [0x00] = codesOf [48] ++ [false, false, false] := by decide +kernel
  rw [h1] at hb
  have := List.append_cancel_left hb
  match k, this with
  | 0, h => simp [padOnes] at h
  | k + 1, h => simp [padOnes, List.replicate_succ] at h

/-- C07. An accepted padding is shorter than an octet and one of nineteen bit strings; what the RFC asks for in addition is
that it consists of ones only. -/
theorem C07_padding (src s : Bytes) (sp : Speed) (h : decode src [] sp = (.ok (), s)) :
    ∃ t ∈ lenientPads, t.length < 8 ∧ bytesBits src = codesOf s ++ t := by
  obtain ⟨t, ht, hb⟩ := (C06_accept_iff_listed src [] s sp).mp (by simpa using h)
  exact ⟨t, ht, by have := lenientPads_length ht; omega, hb⟩

/-- "0" with three zeros as padding: accepted, and the padding is one of the list. -/
example : ∃ t ∈ lenientPads, t.length < 8 ∧ bytesBits [0x00] = codesOf [48] ++ t := C07_padding [0x00] [48] .FiveBits (by decide +kernel)

/-- C07. Exactly the nineteen paddings are accepted: whatever bits follow the codes of `s`, the result is `s` if and only if
they are one of the list. The list holds the eight paddings of the RFC and eleven others. -/
theorem C07_padding_exact (src s : Bytes) (t : List Bool) (sp : Speed) (h : bytesBits src = codesOf s ++ t) :
    (decode src [] sp = (.ok (), s) ↔ t ∈ lenientPads) ∧ (∀ k < 8, padOnes k ∈ lenientPads) ∧
    lenientPads.length = 19 ∧ lenientPads.Nodup := by
  refine ⟨?_, by decide, by decide, by decide⟩
  have e := C06_accept_iff_listed src [] s sp
  rw [List.nil_append] at e
  rw [e]
  constructor
  · rintro ⟨t', ht', hb⟩
    rwa [List.append_cancel_left (h.symm.trans hb)]
  · intro ht
    exact ⟨t, ht, h⟩

example : decode [0x07] [] .FiveBits = (.ok (), [48]) ↔ [true, true, true] ∈ lenientPads :=
  (C07_padding_exact [0x07] [48] [true, true, true] .FiveBits (by decide +kernel)).1

/-- C08. EOS at a code boundary is rejected and the characters before it are in `dst`. -/
theorem C08_eos_rejected (src dst s : Bytes) (r : List Bool) (sp : Speed)
    (h : bytesBits src = codesOf s ++ code 256 ++ r) : decode src dst sp = (.err .InvalidInput, dst ++ s) := by
  obtain ⟨o, ⟨t, he, hb, hn⟩ | ⟨t, he, hb⟩⟩ := decode_spec src dst sp
  · rw [List.append_assoc] at h
    obtain ⟨rfl, rfl⟩ := codes_unique hn.noByte eos_noByte (hb.symm.trans h)
    exact absurd ⟨r, rfl⟩ (hn 256 (Nat.le_refl _))
  · rw [List.append_assoc] at hb h
    obtain ⟨rfl, _⟩ := codes_unique eos_noByte eos_noByte (hb.symm.trans h)
    exact he

/-- EOS after "a". -/
example : decode [0x1f, 0xff, 0xff, 0xff, 0xff] [7] .ThreeBits = (.err .InvalidInput, [7, 97]) :=
  C08_eos_rejected _ [7] [97] [true, true, true, true, true] .ThreeBits (by decide +kernel)

theorem table_entry_code {a l c : Nat} (h : ENCODE_TABLE[a]? = some (l, c)) : a ≤ 256 ∧ code a = natBits l c ∧ c < 2 ^ l := by
  have ha : a ≤ 256 := by
    obtain ⟨h1, _⟩ := List.getElem?_eq_some_iff.mp h
    have : ENCODE_TABLE.length = 257 := by decide +kernel
    omega
  obtain ⟨l', c', h1, h2, h3, _⟩ := encTable_entry ha
  rw [h] at h1
  injection h1 with h1
  injection h1 with h1 h1'
  subst h1 h1'
  exact ⟨ha, h2, h3⟩

/-- C09. The crate's table (rows of length and value) has 257 codes, none of which loses bits, is prefix-free ... -/
theorem C09_prefix_free (a b la ca lb cb : Nat) (ha : ENCODE_TABLE[a]? = some (la, ca)) (hb : ENCODE_TABLE[b]? = some (lb, cb)) :
    (a ≤ 256 ∧ ca < 2 ^ la) ∧ (IsPrefix (natBits la ca) (natBits lb cb) → a = b) := by
  obtain ⟨h1, h2, h3⟩ := table_entry_code ha
  obtain ⟨h4, h5, _⟩ := table_entry_code hb
  refine ⟨⟨h1, h3⟩, fun h => ?_⟩
  rw [← h2, ← h5] at h
  exact code_prefix_free h1 h4 h

example : ENCODE_TABLE[48]? = some (5, 0) ∧ ENCODE_TABLE[38]? = some (8, 0xf8) ∧ natBits 8 0xf8 = [true, true, true, true, true, false, false, false] := by
  decide +kernel

/-- ... and complete: thirty bits always start with exactly one code of the table. -/
theorem C09_complete (bs : List Bool) (h : 30 ≤ bs.length) :
    ∃ a l c : Nat, (ENCODE_TABLE[a]? = some (l, c) ∧ IsPrefix (natBits l c) bs) ∧
      ∀ b l' c' : Nat, ENCODE_TABLE[b]? = some (l', c') → IsPrefix (natBits l' c') bs → b = a := by
  obtain ⟨a, ha, hp⟩ := code_complete h
  obtain ⟨l, c, h1, h2, _⟩ := encTable_entry ha
  refine ⟨a, l, c, ⟨h1, h2 ▸ hp⟩, fun b l' c' hb hp' => ?_⟩
  obtain ⟨h4, h5, _⟩ := table_entry_code hb
  rw [← h5] at hp'
  exact code_front_unique h4 ha hp' hp

example : ∃ a l c : Nat, (ENCODE_TABLE[a]? = some (l, c) ∧ IsPrefix (natBits l c) (List.replicate 30 true)) ∧
    ∀ b l' c' : Nat, ENCODE_TABLE[b]? = some (l', c') → IsPrefix (natBits l' c') (List.replicate 30 true) → b = a :=
  C09_complete _ (by decide)

/-- C10. The shipped decoding tables are the output of `flatten`. -/
theorem C10_tables_are_flatten (sp : Speed) : flatten ENCODE_TABLE sp = .ok (tableOf sp.toNat) := by
  cases sp
  · exact flatten_table1
  · exact flatten_table2
  · exact flatten_table3
  · exact flatten_table4
  · exact flatten_table5

/-- C11. The shipped encoding table is what `parse` reads from the RFC text. -/
theorem C11_table_is_parse : parse ASSET = .ok ENCODE_TABLE := parse_asset

/-- C11. The entry of symbol `a` is the length and the value of the binary column (the specification's `code a`). -/
theorem C11_columns_agree (a : Nat) (ha : a ≤ 256) :
    ENCODE_TABLE[a]? = some ((code a).length, bitsVal (code a)) := by
  obtain ⟨l, c, h1, h2, h3, _⟩ := encTable_entry ha
  rw [h1, h2, natBits_length, bitsVal_natBits, Nat.mod_eq_of_lt h3]

example : ENCODE_TABLE[256]? = some ((code 256).length, bitsVal (code 256)) := C11_columns_agree 256 (by decide)

/-- C11. The specification's codes are the binary column of the asset. -/
theorem C11_binary_column : binaryColumns (splitLines [] ASSET) = .ok rfcCodes := asset_binary

/-- C14. An accepted input and the encoding of its result have the same length and agree up to the padding (fewer than
eight bits); they are equal exactly when the padding is all ones. -/
theorem C14_canonical (src s : Bytes) (sp : Speed) (h : decode src [] sp = (.ok (), s)) :
    ∃ q t, encode s [] = (.ok (), q) ∧ q.length = src.length ∧ t.length < 8 ∧
      bytesBits src = codesOf s ++ t ∧ bytesBits q = codesOf s ++ padOnes t.length ∧
      (src = q ↔ t = padOnes t.length) := by
  obtain ⟨t, ht, hl, hb⟩ := C07_padding src s sp h
  obtain ⟨q, he, k, hk, hq⟩ := encode_spec s []
  have l1 := congrArg List.length hb
  have l2 := congrArg List.length hq
  simp only [bytesBits_length, List.length_append, padOnes, List.length_replicate] at l1 l2
  have hkt : k = t.length := by omega
  subst hkt
  refine ⟨q, t, by simpa using he, by omega, hl, hb, hq, ?_⟩
  constructor
  · rintro rfl
    exact List.append_cancel_left (hb.symm.trans hq)
  · intro ht'
    apply bytesBits_inj
    rw [hb, hq, ← ht']

/-- C15. The decoder returns: no panic, no endless loop. -/
theorem C15_total (src dst : Bytes) (sp : Speed) :
    (decode src dst sp).1 = .ok () ∨ (decode src dst sp).1 = .err .InvalidInput := by
  obtain ⟨s, r, _, _, _, h⟩ := C13_decode_outcome src dst sp
  exact h

/-- C15. Internal buffers stay small after every byte. -/
theorem C15_buffers_bounded (src dst : Bytes) (sp : Speed) (r : Reader)
    (h : readLoop src (Reader.new sp.toNat dst) = (.ok (), r)) : r.buf < 2 ^ 5 ∧ r.tail < 2 ^ 30 :=
  readLoop_bounds src dst sp r h

/-- C16. Bounded expansion, also when the input is rejected. -/
theorem C16_expansion (src dst : Bytes) (sp : Speed) :
    ∃ s, (decode src dst sp).2 = dst ++ s ∧ 5 * s.length ≤ 8 * src.length := by
  obtain ⟨s, r, hb, _, hd, _⟩ := C13_decode_outcome src dst sp
  refine ⟨s, hd, ?_⟩
  have hl := congrArg List.length hb
  simp only [bytesBits_length, List.length_append, codesOf_length] at hl
  have := (codeLenSum_bounds s).1
  omega

/-! ### The hypotheses are satisfiable -/

/-- "Hello world!" and its encoding. -/
def helloBytes : Bytes := [72, 101, 108, 108, 111, 32, 119, 111, 114, 108, 100, 33]
def helloCoded : Bytes := [198, 90, 40, 58, 158, 15, 101, 18, 127, 31]
example : encode helloBytes [7] = (.ok (), 7 :: helloCoded) := by decide +kernel
example : IsHuffEnc helloBytes helloCoded := ⟨5, by omega, by decide +kernel⟩
example : decode helloCoded [9] .FiveBits = (.ok (), 9 :: helloBytes) := by decide +kernel
example : decode helloCoded [] .TwoBits = (.ok (), helloBytes) := by decide +kernel
/-- C08: EOS after "a": 00011 + thirty ones + padding. -/
example : bytesBits [0x1f, 0xff, 0xff, 0xff, 0xff] = codesOf [97] ++ code 256 ++ [true, true, true, true, true] := by
  decide +kernel
example : decode [0x1f, 0xff, 0xff, 0xff, 0xff] [] .ThreeBits = (.err .InvalidInput, [97]) := by decide +kernel
/-- C13: a rejected input whose first character is delivered ("0" then bits 111 1111 1111: too long padding). -/
example : bytesBits [0x07, 0xff] = codesOf [48] ++ List.replicate 11 true := by decide +kernel
example : decode [0x07, 0xff] [] .FourBits = (.err .InvalidInput, [48]) := by decide +kernel
/-- C14: an accepted input that is not canonical. -/
example : decode [0x00] [] .FiveBits = (.ok (), [48]) := by decide +kernel
example : encode [48] [] = (.ok (), [0x07]) := by decide +kernel
example : (readLoop helloCoded (Reader.new 5 [])).1 = .ok () := by decide +kernel

/-! Concrete cases for C14 and C15: an accepted input that is not the encoding, and a reader in the middle of its work. -/
example : ∃ q t, encode [48] [] = (.ok (), q) ∧ q.length = 1 ∧ bytesBits [0x00] = codesOf [48] ++ t ∧ ([0x00] = q ↔ t = padOnes t.length) := by
  obtain ⟨q, t, h1, h2, _, h3, _, h4⟩ := C14_canonical [0x00] [48] .FiveBits (by decide +kernel)
  exact ⟨q, t, h1, h2, h3, h4⟩
example : ∃ r, readLoop helloCoded (Reader.new Speed.FiveBits.toNat []) = (.ok (), r) ∧ r.buf < 2 ^ 5 ∧ r.tail < 2 ^ 30 := by
  have h1 : (readLoop helloCoded (Reader.new Speed.FiveBits.toNat [])).1 = .ok () := by decide +kernel
  generalize hx : readLoop helloCoded (Reader.new Speed.FiveBits.toNat []) = x at h1 ⊢
  obtain ⟨a, r⟩ := x
  cases h1
  exact ⟨r, rfl, C15_buffers_bounded helloCoded [] .FiveBits r hx⟩

end Verif.Props
