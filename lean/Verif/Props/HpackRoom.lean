import Verif.Props.HpackExtra
/-! C114: how much room the output of the HPACK encoder needs, and when Huffman coding pays. -/
namespace Verif.Props
open Verif Verif.Spec Verif.Hpack

theorem intLen_six {n v : Nat} (_h4 : 4 ≤ n) (hv : v < 2 ^ 32) : intLen n v ≤ 6 := by
  unfold intLen
  split
  · omega
  · have := (groups_le 4 (v - (2 ^ n - 1))).mpr (by have : 128 ^ 5 = 2 ^ 35 := by decide
                                                    omega)
    omega

theorem intLen_mono {n a b : Nat} (h : a ≤ b) : intLen n a ≤ intLen n b := by
  unfold intLen
  split
  · split <;> omega
  · rw [if_neg (by omega)]
    have := groups_mono (a := a - (2 ^ n - 1)) (b := b - (2 ^ n - 1)) (by omega)
    omega

/-- The most octets the data of a string can take. -/
def roomFor (huff : Bool) (s : Bytes) : Nat := if huff then (30 * s.length + 7) / 8 else s.length

theorem strLen_room (huff : Bool) (s : Bytes) : strLen huff s ≤ roomFor huff s := by
  have := (Huffman.codeLenSum_bounds s).2
  unfold strLen roomFor
  cases huff
  · simp
  · simp only [if_true]; omega

theorem strOctets_room {huff : Bool} {s : Bytes} (h : strLen huff s < 2 ^ 32) : strOctets huff s ≤ 6 + roomFor huff s := by
  have := strLen_room huff s
  have := intLen_six (n := 7) (by decide) h
  unfold strOctets
  omega

theorem ok_fits {s s' : EncoderState} (hwf : s.table.WF) {input : EncoderInput} {rep : Rep} (hc : Chosen s.table.spec input rep)
    (h : encode input s = (.ok (), s')) : RepFits (2 ^ 32) (huffName input) (huffValue input) rep := by
  have hs := encode_spec s hwf input rep 0 hc
  cases ha : rep.apply 0 s.table.spec with
  | none => rw [ha] at hs; simp only at hs; rw [h] at hs; cases hs
  | some x =>
    rw [ha] at hs
    simp only at hs
    refine Classical.byContradiction fun hn => ?_
    obtain ⟨_, _, _, _, h1, _⟩ := hs.2 hn
    rw [h] at h1
    cases h1

/-- C114. Room for a literal: a successful call appends at most 13 octets and the data of the two strings, at most 30/8 of
their lengths where Huffman coding is asked for, with every other flag and whatever the table. -/
theorem C114_literal_room (s s' : EncoderState) (hwf : s.table.WF) (n v : Bytes) (f : UInt8)
    (h : encode (.Literal n v f) s = (.ok (), s')) :
    s'.dst.length ≤ s.dst.length + 13 +
      (if f.toNat.testBit 0 then (30 * n.length + 7) / 8 else n.length) + (if f.toNat.testBit 1 then (30 * v.length + 7) / 8 else v.length) := by
  obtain ⟨rep, hc⟩ := Chosen.exists s.table hwf (.Literal n v f)
  have hl := encode_length hwf hc h
  have hfit := ok_fits hwf hc h
  show s'.dst.length ≤ s.dst.length + 13 + roomFor (f.toNat.testBit 0) n + roomFor (f.toNat.testBit 1) v
  have hmode : 4 ≤ (flagMode f).bits := by cases flagMode f <;> decide
  have hnew : ∀ r, r = Rep.literal (flagMode f) (.new n) v → RepFits (2 ^ 32) (f.toNat.testBit 0) (f.toNat.testBit 1) r →
      repOctets (f.toNat.testBit 0) (f.toNat.testBit 1) r ≤ 13 + roomFor (f.toNat.testBit 0) n + roomFor (f.toNat.testBit 1) v := by
    rintro r rfl ⟨h1, h2⟩
    have := strOctets_room h1
    have := strOctets_room h2
    simp only [repOctets]
    omega
  cases hc with
  | literal _ _ _ hf => have := hnew _ rfl hfit; rw [hl]; exact Nat.le_trans (Nat.add_le_add_left this _) (by omega)
  | bestFull _ _ _ hf i hi =>
    have hlt := (hwf.addr_lt hi.1.choose_spec.1).2
    have := intLen_six (n := 7) (v := i) (by decide) (by omega)
    rw [hl]
    simp only [repOctets]
    omega
  | bestName _ _ _ hf hn i hi =>
    have hlt := (hwf.addr_lt hi.1.choose_spec.1).2
    have h1 := intLen_six (n := (flagMode f).bits) (v := i) hmode (by omega)
    have h2 := strOctets_room (huff := f.toNat.testBit 1) hfit
    rw [hl]
    simp only [repOctets]
    show s.dst.length + (intLen (flagMode f).bits i + strOctets (f.toNat.testBit 1) v) ≤ _
    omega
  | bestNew _ _ _ hf hn => have := hnew _ rfl hfit; rw [hl]; exact Nat.le_trans (Nat.add_le_add_left this _) (by omega)

example : (encode (.Literal [97] [98] 0x7) EncoderState.default).2.dst.length ≤ 0 + 13 + (30 * 1 + 7) / 8 + (30 * 1 + 7) / 8 :=
  C114_literal_room EncoderState.default _ (Table.withDynamicSize_WF 4096) [97] [98] 0x7 rfl

/-- C114. Room for a field with an indexed name, for an indexed field and for a size update. -/
theorem C114_indexed_room (s s' : EncoderState) (hwf : s.table.WF) (i : UInt32) (v : Bytes) (f : UInt8) :
    (encode (.IndexedName i v f) s = (.ok (), s') →
      s'.dst.length ≤ s.dst.length + 12 + (if f.toNat.testBit 1 then (30 * v.length + 7) / 8 else v.length)) ∧
    (encode (.Indexed i) s = (.ok (), s') → s'.dst.length ≤ s.dst.length + 6) ∧
    (encUpdateMaxDynamicSize i s = (.ok (), s') → s'.dst.length ≤ s.dst.length + 6) := by
  refine ⟨?_, ?_, ?_⟩
  · intro h
    have hc : Chosen s.table.spec (.IndexedName i v f) _ := .indexedName i v f
    have hl := encode_length hwf hc h
    have hfit := ok_fits hwf hc h
    have hmode : 4 ≤ (flagMode f).bits := by cases flagMode f <;> decide
    have h1 := intLen_six (n := (flagMode f).bits) (v := i.toNat) hmode i.toNat_lt
    have h2 := strOctets_room (huff := f.toNat.testBit 1) hfit
    show s'.dst.length ≤ s.dst.length + 12 + roomFor (f.toNat.testBit 1) v
    rw [hl]
    show s.dst.length + (intLen (flagMode f).bits i.toNat + strOctets (f.toNat.testBit 1) v) ≤ _
    omega
  · intro h
    have hl := encode_length hwf (.indexed i) h
    have h1 := intLen_six (n := 7) (v := i.toNat) (by decide) i.toNat_lt
    rw [hl]
    exact Nat.add_le_add_left h1 _
  · intro h
    have hl := (C86_update_size s s' i h).1
    have h1 := intLen_six (n := 5) (v := i.toNat) (by decide) i.toNat_lt
    rw [hl]
    exact Nat.add_le_add_left h1 _

example : (encode (.IndexedName 32 [98] 0x6) EncoderState.default).2.dst.length ≤ 0 + 12 + (30 * 1 + 7) / 8 :=
  (C114_indexed_room EncoderState.default _ (Table.withDynamicSize_WF 4096) 32 [98] 0x6).1 rfl

theorem strOctets_cmp (s : Bytes) : (strOctets true s ≤ strOctets false s ↔ codeLenSum s ≤ 8 * s.length) ∧
    (strOctets true s < strOctets false s ↔ codeLenSum s ≤ 8 * (s.length - 1) ∧ s ≠ []) := by
  have e1 : strLen true s = (codeLenSum s + 7) / 8 := rfl
  have e2 : strLen false s = s.length := rfl
  have hne : s ≠ [] ↔ 1 ≤ s.length := by cases s <;> simp
  rw [hne]
  unfold strOctets
  rw [e1, e2]
  generalize hq : (codeLenSum s + 7) / 8 = q
  have hq' : 8 * q ≤ codeLenSum s + 7 ∧ codeLenSum s ≤ 8 * q := by omega
  refine ⟨⟨fun h => ?_, fun h => ?_⟩, ⟨fun h => ?_, fun h => ?_⟩⟩
  · have : q ≤ s.length := Nat.le_of_not_lt fun hlt => by
      have := intLen_mono (n := 7) (Nat.le_of_lt hlt); omega
    omega
  · have := intLen_mono (n := 7) (a := q) (b := s.length) (by omega)
    omega
  · have : q < s.length := Nat.lt_of_not_le fun hle => by
      have := intLen_mono (n := 7) hle; omega
    omega
  · have := intLen_mono (n := 7) (a := q) (b := s.length) (by omega)
    omega

/-- C114. When the flag HUFFMAN_VALUE pays: the same literal (without BEST_FORMAT), encoded in the same state with and without
the flag. With it the output is not longer exactly if the code lengths of the value sum up to at most eight bits an octet,
and shorter exactly if they sum up to at least one octet less. -/
theorem C114_huffman_value_pays (s s1 s2 : EncoderState) (hwf : s.table.WF) (n v : Bytes) (f : UInt8)
    (h4 : f.toNat.testBit 4 = false) (h1 : f.toNat.testBit 1 = false)
    (e1 : encode (.Literal n v f) s = (.ok (), s1)) (e2 : encode (.Literal n v (f ||| 0x2)) s = (.ok (), s2)) :
    (s2.dst.length ≤ s1.dst.length ↔ codeLenSum v ≤ 8 * v.length) ∧
    (s2.dst.length < s1.dst.length ↔ codeLenSum v ≤ 8 * (v.length - 1) ∧ v ≠ []) := by
  have hbits : ∀ f : UInt8, (f ||| 0x2).toNat.testBit 0 = f.toNat.testBit 0 ∧ (f ||| 0x2).toNat.testBit 1 = true ∧
      (f ||| 0x2).toNat.testBit 4 = f.toNat.testBit 4 ∧ flagMode (f ||| 0x2) = flagMode f := forall_u8 (by decide +kernel)
  obtain ⟨b0, b1, b4, bm⟩ := hbits f
  have l1 := encode_length hwf (.literal n v f h4) e1
  have l2 := encode_length hwf (.literal n v (f ||| 0x2) (by rw [b4]; exact h4)) e2
  have x1 : s1.dst.length = s.dst.length + (1 + strOctets (f.toNat.testBit 0) n + strOctets false v) := by
    rw [l1]; simp only [repOctets, huffName, huffValue, flagsOf, h1]
  have x2 : s2.dst.length = s.dst.length + (1 + strOctets (f.toNat.testBit 0) n + strOctets true v) := by
    rw [l2]; simp only [repOctets, huffName, huffValue, flagsOf, b0, b1]
  have := strOctets_cmp v
  rw [x1, x2, ← this.1, ← this.2]
  omega

/-- C114. The same for HUFFMAN_NAME. -/
theorem C114_huffman_name_pays (s s1 s2 : EncoderState) (hwf : s.table.WF) (n v : Bytes) (f : UInt8)
    (h4 : f.toNat.testBit 4 = false) (h0 : f.toNat.testBit 0 = false)
    (e1 : encode (.Literal n v f) s = (.ok (), s1)) (e2 : encode (.Literal n v (f ||| 0x1)) s = (.ok (), s2)) :
    (s2.dst.length ≤ s1.dst.length ↔ codeLenSum n ≤ 8 * n.length) ∧
    (s2.dst.length < s1.dst.length ↔ codeLenSum n ≤ 8 * (n.length - 1) ∧ n ≠ []) := by
  have hbits : ∀ f : UInt8, (f ||| 0x1).toNat.testBit 1 = f.toNat.testBit 1 ∧ (f ||| 0x1).toNat.testBit 0 = true ∧
      (f ||| 0x1).toNat.testBit 4 = f.toNat.testBit 4 ∧ flagMode (f ||| 0x1) = flagMode f := forall_u8 (by decide +kernel)
  obtain ⟨b0, b1, b4, bm⟩ := hbits f
  have l1 := encode_length hwf (.literal n v f h4) e1
  have l2 := encode_length hwf (.literal n v (f ||| 0x1) (by rw [b4]; exact h4)) e2
  have x1 : s1.dst.length = s.dst.length + (1 + strOctets false n + strOctets (f.toNat.testBit 1) v) := by
    rw [l1]; simp only [repOctets, huffName, huffValue, flagsOf, h0]
  have x2 : s2.dst.length = s.dst.length + (1 + strOctets true n + strOctets (f.toNat.testBit 1) v) := by
    rw [l2]; simp only [repOctets, huffName, huffValue, flagsOf, b0, b1]
  have := strOctets_cmp n
  rw [x1, x2, ← this.1, ← this.2]
  omega

theorem codeLenSum_text (v : Bytes) (h : ∀ b ∈ v, (code b.toNat).length ≤ 8) : codeLenSum v ≤ 8 * v.length := by
  induction v with
  | nil => simp [codeLenSum]
  | cons b v ih =>
    have h1 := h b (by simp)
    have h2 := ih (fun c hc => h c (by simp [hc]))
    simp only [codeLenSum, List.map_cons, List.sum_cons, List.length_cons] at *
    omega

/-- C114. Letters, digits and the usual punctuation of headers (octets whose code has at most eight bits) never make a literal longer when
they are Huffman-coded. -/
theorem C114_text_pays (s s1 s2 : EncoderState) (hwf : s.table.WF) (n v : Bytes) (f : UInt8) (h4 : f.toNat.testBit 4 = false)
    (e1 : encode (.Literal n v f) s = (.ok (), s1)) :
    ((∀ b ∈ v, (code b.toNat).length ≤ 8) → encode (.Literal n v (f ||| 0x2)) s = (.ok (), s2) → s2.dst.length ≤ s1.dst.length) ∧
    ((∀ b ∈ n, (code b.toNat).length ≤ 8) → encode (.Literal n v (f ||| 0x1)) s = (.ok (), s2) → s2.dst.length ≤ s1.dst.length) := by
  refine ⟨fun h e2 => ?_, fun h e2 => ?_⟩
  · cases h1 : f.toNat.testBit 1 with
    | false => exact (C114_huffman_value_pays s s1 s2 hwf n v f h4 h1 e1 e2).1.mpr (codeLenSum_text v h)
    | true =>
      have e : f ||| 0x2 = f := by
        have := (show ∀ g : Fin 256, g.val.testBit 1 = true → UInt8.ofNat g.val ||| 0x2 = UInt8.ofNat g.val by decide +kernel) ⟨f.toNat, f.toNat_lt⟩ h1
        simpa using this
      rw [e, e1] at e2; cases e2; exact Nat.le_refl _
  · cases h1 : f.toNat.testBit 0 with
    | false => exact (C114_huffman_name_pays s s1 s2 hwf n v f h4 h1 e1 e2).1.mpr (codeLenSum_text n h)
    | true =>
      have e : f ||| 0x1 = f := by
        have := (show ∀ g : Fin 256, g.val.testBit 0 = true → UInt8.ofNat g.val ||| 0x1 = UInt8.ofNat g.val by decide +kernel) ⟨f.toNat, f.toNat_lt⟩ h1
        simpa using this
      rw [e, e1] at e2; cases e2; exact Nat.le_refl _

/-- The characters that qualify: all letters and digits and the usual punctuation, for instance. -/
example : (∀ b ∈ "Content-Type: text/html; charset=utf-8".toUTF8.toList, (code b.toNat).length ≤ 8) ∧ (code 88).length = 8 ∧ (code 10).length = 30 := by
  decide +kernel

theorem codeLenSum_feeds (k : Nat) : codeLenSum (List.replicate k (10 : UInt8)) = 30 * k := by
  induction k with
  | zero => rfl
  | succ k ih =>
    rw [List.replicate_succ]
    simp only [codeLenSum, List.map_cons, List.sum_cons] at ih ⊢
    rw [ih]
    have : (code (10 : UInt8).toNat).length = 30 := by decide +kernel
    omega

/-- C114. The worst case is reached: line feeds have codes of 30 bits, so the data of a Huffman-coded value of `k` of them takes the whole
room. The other octets of the field are one for the kind, one for the empty name and those of the length of the value. -/
theorem C114_room_reached (k : Nat) (s s' : EncoderState) (hwf : s.table.WF) (h : encode (.Literal [] (List.replicate k 10) 0x2) s = (.ok (), s')) :
    s'.dst.length = s.dst.length + 2 + intLen 7 ((30 * k + 7) / 8) + (30 * k + 7) / 8 := by
  have hc : Chosen s.table.spec (.Literal [] (List.replicate k 10) 0x2) (.literal (flagMode 0x2) (.new []) (List.replicate k 10)) :=
    .literal _ _ _ (by decide)
  rw [encode_length hwf hc h]
  have hs : strLen true (List.replicate k 10) = (30 * k + 7) / 8 := by
    show (codeLenSum _ + 7) / 8 = _
    rw [codeLenSum_feeds]
  have hb : huffName (.Literal [] (List.replicate k 10) 0x2) = false ∧ huffValue (.Literal [] (List.replicate k 10) 0x2) = true :=
    ⟨(by decide : Nat.testBit (2 : UInt8).toNat 0 = false), (by decide : Nat.testBit (2 : UInt8).toNat 1 = true)⟩
  rw [hb.1, hb.2]
  show s.dst.length + (1 + strOctets false [] + strOctets true (List.replicate k 10)) = _
  have h0 : strOctets false ([] : Bytes) = 1 := by decide
  unfold strOctets at h0 ⊢
  rw [h0, hs]
  omega

example : (encode (.Literal [] (List.replicate 100 10) 0x2) EncoderState.default).1 = .ok () ∧
    (encode (.Literal [] (List.replicate 100 10) 0x2) EncoderState.default).2.dst.length = 2 + 3 + 375 := by decide +kernel

-- "custom-key" gets shorter, two line feeds get longer; both calls succeed.
example : (encode (.Literal [99, 117, 115, 116, 111, 109, 45, 107, 101, 121] [10, 10] 0) { table := Table.default, dst := [] }).2.dst.length = 15 ∧
    (encode (.Literal [99, 117, 115, 116, 111, 109, 45, 107, 101, 121] [10, 10] 1) { table := Table.default, dst := [] }).2.dst.length = 13 ∧
    (encode (.Literal [99, 117, 115, 116, 111, 109, 45, 107, 101, 121] [10, 10] 2) { table := Table.default, dst := [] }).2.dst.length = 21 ∧
    (encode (.Literal [99, 117, 115, 116, 111, 109, 45, 107, 101, 121] [10, 10] 2) { table := Table.default, dst := [] }).1 = .ok () := by
  decide +kernel

end Verif.Props
