import Verif.Props.Huffman
/-! C71: what the Huffman decoder does on truncated and extended input. -/
namespace Verif.Props
open Verif Verif.Spec Verif.Huffman

/-- Every bit string is a sequence of octet codes followed by bits that start with no octet's code. -/
theorem huff_greedy (l : List Bool) : ∃ s r, l = codesOf s ++ r ∧ ∀ b : UInt8, ¬ IsPrefix (code b.toNat) r := by
  by_cases h : ∃ b : UInt8, IsPrefix (code b.toNat) l
  · obtain ⟨b, r, hr⟩ := h
    have hpos : 0 < (code b.toNat).length := by have := code_length_ge (UInt8.toNat_le_256 b); omega
    have : r.length < l.length := by rw [hr, List.length_append]; omega
    obtain ⟨s, r', h1, h2⟩ := huff_greedy r
    exact ⟨b :: s, r', by rw [codesOf_cons, List.append_assoc, ← h1, hr], h2⟩
  · exact ⟨[], l, rfl, fun b hb => h ⟨b, hb⟩⟩
termination_by l.length

/-- C71. Input that arrives later only adds output: what `decode` appends for `src` is the beginning of what it appends for
`src ++ x`, whether either call succeeds or not, at any speed. -/
theorem C71_prefix (src x dst dst' : Bytes) (sp sp' : Speed) :
    ∃ o o', (decode src dst sp).2 = dst ++ o ∧ (decode (src ++ x) dst' sp').2 = dst' ++ (o ++ o') := by
  obtain ⟨o, r, hb, hr, hd, _⟩ := C13_decode_outcome src dst sp
  obtain ⟨s, r', h1, h2⟩ := huff_greedy (r ++ bytesBits x)
  refine ⟨o, s, hd, C13_appends_decoded (src ++ x) dst' (o ++ s) r' sp' ?_ h2⟩
  rw [bytesBits_append, hb, codesOf_append, List.append_assoc, h1, List.append_assoc]

/-- C71. A truncated encoding: whatever part of the encoding of `s` is decoded, only a beginning of `s` comes out. -/
theorem C71_truncated (s q x : Bytes) (dst : Bytes) (sp : Speed) (h : encode s [] = (.ok (), q ++ x)) :
    ∃ o o', s = o ++ o' ∧ (decode q dst sp).2 = dst ++ o := by
  obtain ⟨q', he, hq⟩ := C01_round_trip s [] [] sp
  rw [h, List.nil_append] at he
  simp only [Prod.mk.injEq, true_and] at he
  obtain ⟨o, o', h1, h2⟩ := C71_prefix q x dst [] sp sp
  rw [he, hq] at h2
  exact ⟨o, o', by simpa using h2, h1⟩

example : encode [119, 119, 119] [] = (.ok (), [241, 227] ++ [199]) ∧ (decode [241, 227] [9] .FourBits) = (.ok (), [9, 119, 119]) := by
  decide +kernel

/-- C71. The last octets of an encoding matter: removing at least one octet always loses at least one character, so a truncated
encoding is never taken for the whole. -/
theorem C71_truncated_loses (s q x : Bytes) (dst : Bytes) (sp : Speed) (h : encode s [] = (.ok (), q ++ x)) (hx : x ≠ []) :
    (decode q dst sp).2 ≠ dst ++ s := by
  intro hd
  obtain ⟨q', he, k, hk, hb⟩ := encode_spec s []
  rw [h, List.nil_append] at he
  simp only [Prod.mk.injEq, true_and] at he
  obtain ⟨o, r, hb', hr, hd', _⟩ := C13_decode_outcome q dst sp
  rw [hd', List.append_cancel_left_eq] at hd
  subst hd
  have h1 := congrArg List.length hb
  have h2 := congrArg List.length hb'
  rw [← he] at h1
  simp only [bytesBits_length, List.length_append, padOnes, List.length_replicate] at h1 h2
  have : 0 < x.length := List.length_pos_iff.mpr hx
  omega

/-- C71. Concatenation: if the codes of `s` end at an octet boundary (no padding), encoding `s ++ t` is encoding `s` and then `t`. -/
theorem C71_concat (s t dst : Bytes) (h : codeLenSum s % 8 = 0) :
    encode (s ++ t) dst = encode t (encode s dst).2 := by
  obtain ⟨q, he, k, hk, hb⟩ := encode_spec (s ++ t) dst
  obtain ⟨q1, he1, k1, hk1, hb1⟩ := encode_spec s dst
  obtain ⟨q2, he2, k2, hk2, hb2⟩ := encode_spec t (dst ++ q1)
  rw [he, he1, he2, List.append_assoc]
  have h1 := congrArg List.length hb1
  simp only [bytesBits_length, List.length_append, codesOf_length, padOnes, List.length_replicate] at h1
  have hk0 : k1 = 0 := by omega
  subst hk0
  rw [Huffman.IsHuffEnc.unique (s := s ++ t) (q := q) (q' := q1 ++ q2) ⟨k, hk, hb⟩
    ⟨k2, hk2, by rw [bytesBits_append, hb1, hb2, codesOf_append]; simp [padOnes]⟩]

example : codeLenSum [48, 97, 97, 97, 97, 97, 97, 97] % 8 = 0 := by decide +kernel

/-- A bit string that commutes with a non-empty block of ones consists of ones. -/
private theorem all_ones {k : Nat} (hk : 0 < k) {u : List Bool} (h : padOnes k ++ u = u ++ padOnes k) : ∀ b ∈ u, b = true := by
  have key : ∀ i (hi : i < u.length), u[i] = true := by
    intro i
    induction i using Nat.strongRecOn with
    | ind i ih =>
      intro hi
      have h1 : (padOnes k ++ u)[i]? = (u ++ padOnes k)[i]? := by rw [h]
      rw [List.getElem?_append_left (l₁ := u) hi] at h1
      by_cases hik : i < k
      · rw [List.getElem?_append_left (by simpa [padOnes] using hik), padOnes, List.getElem?_replicate, if_pos hik,
          List.getElem?_eq_getElem hi, Option.some.injEq] at h1
        exact h1.symm
      · rw [List.getElem?_append_right (by simp [padOnes]; omega), padOnes, List.length_replicate,
          List.getElem?_eq_getElem (by omega), List.getElem?_eq_getElem hi, Option.some.injEq] at h1
        rw [← h1]; exact ih (i - k) (by omega) (by omega)
  intro b hb
  obtain ⟨i, hi, rfl⟩ := List.mem_iff_getElem.mp hb
  exact key i hi

/-- Every octet's code contains a zero (only the EOS code is all ones). -/
private theorem code_has_zero (b : UInt8) : ∃ x ∈ code b.toNat, x = false := by
  have : ∀ a, a < 256 → ∃ x ∈ code a, x = false := by decide +kernel
  exact this _ b.toNat_lt

/-- C71. Otherwise the two encodings cannot be joined: encoding `s` and then `t` (not empty) is never the encoding
of `s ++ t`. -/
theorem C71_concat_only (s t : Bytes) (ht : t ≠ []) (h : codeLenSum s % 8 ≠ 0) :
    encode (s ++ t) [] ≠ encode t (encode s []).2 := by
  obtain ⟨q, he, k, hk, hb⟩ := encode_spec (s ++ t) []
  obtain ⟨q1, he1, k1, hk1, hb1⟩ := encode_spec s []
  obtain ⟨q2, he2, k2, hk2, hb2⟩ := encode_spec t ([] ++ q1)
  rw [he, he1, he2]
  intro hc
  simp only [List.nil_append, Prod.mk.injEq, true_and] at hc
  subst hc
  have hl := congrArg List.length hb
  have hl1 := congrArg List.length hb1
  have hl2 := congrArg List.length hb2
  simp only [bytesBits_length, List.length_append, codesOf_length, padOnes, List.length_replicate, codesOf_append] at hl hl1 hl2
  rw [bytesBits_append, hb1, hb2, codesOf_append, List.append_assoc, List.append_assoc, List.append_cancel_left_eq,
    show padOnes k = padOnes k1 ++ padOnes k2 by rw [padOnes, padOnes, padOnes, List.replicate_append_replicate]; congr 1; omega,
    ← List.append_assoc, ← List.append_assoc, List.append_cancel_right_eq] at hb
  have hall := all_ones (k := k1) (by omega) hb
  cases t with
  | nil => exact ht rfl
  | cons b t =>
    obtain ⟨x, hx, hf⟩ := code_has_zero b
    exact absurd (hall x (by rw [codesOf_cons, List.mem_append]; exact .inl hx)) (by simp [hf])

/-- A bit string that is continued by itself after a non-empty block of ones consists of ones. -/
private theorem all_ones' {k : Nat} (hk : 0 < k) {u r p : List Bool} (h : padOnes k ++ (u ++ r) = u ++ p) : ∀ b ∈ u, b = true := by
  have key : ∀ i (hi : i < u.length), u[i] = true := by
    intro i
    induction i using Nat.strongRecOn with
    | ind i ih =>
      intro hi
      have h1 : (padOnes k ++ (u ++ r))[i]? = (u ++ p)[i]? := by rw [h]
      rw [List.getElem?_append_left (l₁ := u) (l₂ := p) hi] at h1
      by_cases hik : i < k
      · rw [List.getElem?_append_left (by simpa [padOnes] using hik), padOnes, List.getElem?_replicate, if_pos hik,
          List.getElem?_eq_getElem hi, Option.some.injEq] at h1
        exact h1.symm
      · rw [List.getElem?_append_right (by simp [padOnes]; omega), padOnes, List.length_replicate,
          List.getElem?_append_left (by omega), List.getElem?_eq_getElem (by omega), List.getElem?_eq_getElem hi,
          Option.some.injEq] at h1
        rw [← h1]; exact ih (i - k) (by omega) (by omega)
  intro b hb
  obtain ⟨i, hi, rfl⟩ := List.mem_iff_getElem.mp hb
  exact key i hi

/-- C71. Two encodings one after the other, read in one call: the result is the two texts one after the other if and only if the second
is empty or the codes of the first end at an octet boundary. -/
theorem C71_join_decode (s t : Bytes) (sp : Speed) :
    decode (encode t (encode s []).2).2 [] sp = (.ok (), s ++ t) ↔ t = [] ∨ codeLenSum s % 8 = 0 := by
  obtain ⟨q1, he1, k1, hk1, hb1⟩ := encode_spec s []
  obtain ⟨q2, he2, k2, hk2, hb2⟩ := encode_spec t ([] ++ q1)
  have hl1 := congrArg List.length hb1
  simp only [bytesBits_length, List.length_append, codesOf_length, padOnes, List.length_replicate] at hl1
  rw [he1, he2]
  simp only [List.nil_append]
  have hiff := C06_accept_iff_listed (q1 ++ q2) [] (s ++ t) sp
  simp only [List.nil_append] at hiff
  rw [hiff]
  constructor
  · rintro ⟨p, _, hb⟩
    rw [bytesBits_append, hb1, hb2, codesOf_append, List.append_assoc, List.append_assoc, List.append_cancel_left_eq] at hb
    by_cases hm : codeLenSum s % 8 = 0
    · exact Or.inr hm
    · have hall := all_ones' (k := k1) (by omega) hb
      cases t with
      | nil => exact Or.inl rfl
      | cons b t =>
        obtain ⟨x, hx, hf⟩ := code_has_zero b
        exact absurd (hall x (by rw [codesOf_cons, List.mem_append]; exact .inl hx)) (by simp [hf])
  · have hpad : ∀ k < 8, padOnes k ∈ lenientPads := by decide
    rintro (rfl | hm)
    · have hl2 := congrArg List.length hb2
      simp only [bytesBits_length, List.length_append, codesOf_length, padOnes, List.length_replicate, codeLenSum, List.map_nil,
        List.sum_nil] at hl2
      have : q2 = [] := by cases q2 with
        | nil => rfl
        | cons a l => simp at hl2; omega
      subst this
      exact ⟨padOnes k1, hpad _ hk1, by rw [List.append_nil, List.append_nil, hb1]⟩
    · have : k1 = 0 := by omega
      subst this
      exact ⟨padOnes k2, hpad _ hk2, by rw [bytesBits_append, hb1, hb2, codesOf_append]; simp [padOnes]⟩

/-! "0" and "0" joined are read as something else than "00"; "00000000" (eight codes of five bits) and "0" are read well. -/
example : (decode (encode [48] (encode [48] []).2).2 [] .FiveBits).2 ≠ [48, 48] := by decide +kernel
example : decode (encode [48] (encode [48, 48, 48, 48, 48, 48, 48, 48] []).2).2 [] .FiveBits =
    (.ok (), [48, 48, 48, 48, 48, 48, 48, 48, 48]) := by decide +kernel

end Verif.Props
