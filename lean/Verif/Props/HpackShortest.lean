import Verif.Props.HpackBest
import Verif.Props.HpackRoom
/-! Property theorem C134: with BEST_FORMAT the encoder writes the shortest form there is. -/
namespace Verif.Props
open Verif Verif.Spec Verif.Hpack

theorem intLen7_two {v : Nat} (hv : v ≤ 254) : intLen 7 v ≤ 2 := by
  unfold intLen
  split
  · omega
  · have : groups (v - (2 ^ 7 - 1)) ≤ 0 + 1 := (groups_le 0 _).mpr (by omega)
    omega

theorem lowest_le {t : SpecTable} {P : Octets × Octets → Prop} {i j : Nat} {e : Octets × Octets} (h : LowestAt t P i)
    (hj : t.addr j = some e) (hp : P e) : i ≤ j := by
  apply Classical.byContradiction
  intro hn
  exact h.2 j (by omega) e hj hp

theorem rep_rival {limit : Nat} {t t' : SpecTable} {rep : Rep} {n v : Octets} {fl : UInt8}
    (hm : rep.apply limit t = some (some (n, v, fl), t')) :
    (∃ i, rep = .indexed i ∧ t.addr i = some (n, v)) ∨ (∃ m i e, rep = .literal m (.index i) v ∧ t.addr i = some e ∧ e.1 = n) ∨
      ∃ m, rep = .literal m (.new n) v := by
  cases rep with
  | indexed i =>
    simp only [Rep.apply] at hm
    split at hm
    · simp only [Option.some.injEq, Prod.mk.injEq] at hm
      obtain ⟨⟨rfl, rfl, _⟩, _⟩ := hm
      exact .inl ⟨i, rfl, by assumption⟩
    · cases hm
  | sizeUpdate k => simp only [Rep.apply] at hm; split at hm <;> simp at hm
  | literal m r x =>
    simp only [Rep.apply] at hm
    split at hm
    · rename_i n' hr
      simp only [Option.some.injEq, Prod.mk.injEq] at hm
      obtain ⟨⟨rfl, rfl, _⟩, _⟩ := hm
      cases r with
      | index i =>
        simp only [NameRef.resolve, Option.map_eq_some_iff] at hr
        obtain ⟨e, he, hn⟩ := hr
        exact .inr (.inl ⟨m, i, e, rfl, he, hn⟩)
      | new k => simp only [NameRef.resolve, Option.some.injEq] at hr; subst hr; exact .inr (.inr ⟨m, rfl⟩)
    · cases hm

/-- C134. With BEST_FORMAT no form is shorter: whatever octets RFC 7541 allows that mean the same header with the same kind of literal and the
same choice of Huffman coding (an index, a literal with any index for the name, a literal with the name; integers of any length), the
encoder appends no more. The name must not be empty, and the table must have at most 193 entries, or at most 16337 if the value is not
empty either. -/
theorem C134_shortest (s s' : EncoderState) (hwf : s.table.WF) (n v : Bytes) (f : UInt8) (hb : f.toNat.testBit 4 = true) (hn : n ≠ [])
    (hl : s.table.dynamicLen ≤ 193 ∨ (v ≠ [] ∧ s.table.dynamicLen ≤ 16337)) (h : encode (.Literal n v f) s = (.ok (), s'))
    (pads : List (List Bool)) (lim limit : Nat) (rep : Rep) (bs : Octets) (fl : UInt8) (t' : SpecTable)
    (hm : rep.apply limit s.table.spec = some (some (n, v, fl), t')) (hk : ∀ m r x, rep = .literal m r x → m = flagMode f)
    (hw : RepWireAs pads lim (f.toNat.testBit 0) (f.toNat.testBit 1) rep bs) :
    s'.dst.length ≤ s.dst.length + bs.length := by
  obtain ⟨rep0, hc⟩ := Chosen.exists s.table hwf (.Literal n v f)
  rw [encode_length hwf hc h]
  refine Nat.add_le_add_left (Nat.le_trans ?_ (repOctets_le hw)) _
  simp only [huffName, huffValue, flagsOf]
  have hnm := strOctets_two (f.toNat.testBit 0) hn
  have hv1 : 1 ≤ strOctets (f.toNat.testBit 1) v := by have := intLen_pos 7 (strLen (f.toNat.testBit 1) v); unfold strOctets; omega
  have hlen : s.table.spec.entries.length ≤ 193 ∨ (v ≠ [] ∧ s.table.spec.entries.length ≤ 16337) := hl
  have hlen' : s.table.spec.entries.length ≤ 16337 := by rcases hlen with h | h <;> omega
  have hbits : ∀ m : Indexing, 4 ≤ m.bits := by intro m; cases m <;> decide
  cases hc with
  | literal _ _ _ h => rw [hb] at h; cases h
  | bestFull _ _ _ _ i h0 =>
    obtain ⟨e, he, hp⟩ := h0.1
    have ha := addr_le he
    have h3 : intLen 7 i ≤ 3 := intLen_small (by decide) (by omega)
    rcases rep_rival hm with ⟨j, rfl, hj⟩ | ⟨m, j, e', rfl, hj, hn'⟩ | ⟨m, rfl⟩
    · exact intLen_mono (lowest_le h0 hj rfl)
    · simp only [repOctets]
      have := intLen_pos m.bits j
      rcases hlen with h | ⟨hv, _⟩
      · have := intLen7_two (v := i) (by omega); omega
      · have := strOctets_two (f.toNat.testBit 1) hv; omega
    · simp only [repOctets]; omega
  | bestName _ _ _ _ hno i h0 =>
    obtain ⟨e, he, hp⟩ := h0.1
    have ha := addr_le he
    rcases rep_rival hm with ⟨j, rfl, hj⟩ | ⟨m, j, e', rfl, hj, hn'⟩ | ⟨m, rfl⟩
    · exact absurd hj (hno j)
    · rw [hk m _ _ rfl]
      simp only [repOctets]
      have := intLen_mono (n := (flagMode f).bits) (lowest_le h0 hj hn')
      omega
    · rw [hk m _ _ rfl]
      simp only [repOctets]
      have : intLen (flagMode f).bits i ≤ 3 := intLen_small (hbits _) (by omega)
      omega
  | bestNew _ _ _ _ hno =>
    rcases rep_rival hm with ⟨j, rfl, hj⟩ | ⟨m, j, e', rfl, hj, hn'⟩ | ⟨m, rfl⟩
    · exact absurd rfl (hno j _ hj)
    · exact absurd hn' (hno j _ hj)
    · simp only [repOctets]; omega

/-- C134. In particular with any table of at most 6207 octets (the default is 4096): only the name must not be empty. -/
theorem C134_small_table (s s' : EncoderState) (hwf : s.table.WF) (hs : s.getMaxDynamicSize.toNat ≤ 6207) (n v : Bytes) (f : UInt8)
    (hb : f.toNat.testBit 4 = true) (hn : n ≠ []) (h : encode (.Literal n v f) s = (.ok (), s'))
    (pads : List (List Bool)) (lim limit : Nat) (rep : Rep) (bs : Octets) (fl : UInt8) (t' : SpecTable)
    (hm : rep.apply limit s.table.spec = some (some (n, v, fl), t')) (hk : ∀ m r x, rep = .literal m r x → m = flagMode f)
    (hw : RepWireAs pads lim (f.toNat.testBit 0) (f.toNat.testBit 1) rep bs) :
    s'.dst.length ≤ s.dst.length + bs.length := by
  refine C134_shortest s s' hwf n v f hb hn (.inl ?_) h pads lim limit rep bs fl t' hm hk hw
  have h3 : s.table.dynamic.size = tableSize s.table.dynamic.inner := hwf.1
  have h4 : tableSize s.table.dynamic.inner ≤ s.table.dynamic.maxSize.toNat := hwf.2
  have h5 : 32 * s.table.dynamic.inner.length ≤ tableSize s.table.dynamic.inner := by
    generalize s.table.dynamic.inner = l
    induction l with
    | nil => simp
    | cons e l ih => simp only [List.length_cons, tableSize_cons, entrySize]; omega
  have h6 : s.table.dynamic.maxSize.toNat ≤ 6207 := hs
  show s.table.dynamic.inner.length ≤ 193
  omega

/-- C134: the bound of 193 entries is sharp for empty values. With 194 entries there can be a form with two octets, while the encoder
writes three. -/
theorem C134_empty_value :
    let s : EncoderState := { table := Table.ofEntries (List.replicate 193 ([0x61], []) ++ [([0x3a, 0x6d, 0x65, 0x74, 0x68, 0x6f, 0x64], [])]) 8000, dst := [] }
    let rep : Rep := .literal .without (.index 2) []
    s.table.WF ∧ s.table.dynamicLen = 194 ∧ (encode (.Literal [0x3a, 0x6d, 0x65, 0x74, 0x68, 0x6f, 0x64] [] 0x10) s).2.dst.length = 3 ∧
      RepWireAs rfcPads 5 false false rep [0x02, 0x00] ∧
      (rep.apply 8000 s.table.spec).map (·.1) = some (some ([0x3a, 0x6d, 0x65, 0x74, 0x68, 0x6f, 0x64], [], 0)) := by
  refine ⟨⟨rfl, ?_⟩, rfl, ?_, ?_, ?_⟩
  · decide +kernel
  · decide +kernel
  · exact ⟨by decide, [2], [0], ⟨.inl ⟨by decide, by decide⟩, by decide⟩, ⟨[0], ⟨.inl ⟨by decide, by decide⟩, by decide⟩, rfl⟩, rfl⟩
  · decide +kernel

/-- C134: the kind of literal must be the same, too. A name at index 22 takes two octets as a literal without indexing and one as a
literal with indexing. -/
theorem C134_other_kind :
    let rep : Rep := .literal .incremental (.index 22) [0x61]
    (encode (.Literal [0x61, 0x6c, 0x6c, 0x6f, 0x77] [0x61] 0x10) EncoderState.default).2.dst.length = 4 ∧
      RepWireAs rfcPads 5 false false rep [0x56, 0x01, 0x61] ∧
      (rep.apply 4096 ⟨[], 4096⟩).map (·.1) = some (some ([0x61, 0x6c, 0x6c, 0x6f, 0x77], [0x61], 4)) := by
  refine ⟨by decide +kernel, ⟨by decide, [0x56], [0x01, 0x61], ⟨.inl ⟨by decide, by decide⟩, by decide⟩, ⟨[1], ⟨.inl ⟨by decide, by decide⟩, by decide⟩, rfl⟩, rfl⟩, by decide +kernel⟩

/- C134: a concrete case. `:method: GET` in the initial state is one octet, `0x82`; the rival is the literal with the name at index 2, with
five octets. -/
example : (encode (.Literal [0x3a, 0x6d, 0x65, 0x74, 0x68, 0x6f, 0x64] [0x47, 0x45, 0x54] 0x10) EncoderState.default).2.dst = [0x82] ∧
    (encode (.Literal [0x3a, 0x6d, 0x65, 0x74, 0x68, 0x6f, 0x64] [0x47, 0x45, 0x54] 0x10) EncoderState.default).2.dst.length ≤ 0 + 5 := by
  refine ⟨by decide +kernel, ?_⟩
  refine C134_small_table EncoderState.default _ (Table.withDynamicSize_WF 4096) (by decide) [0x3a, 0x6d, 0x65, 0x74, 0x68, 0x6f, 0x64]
    [0x47, 0x45, 0x54] 0x10 (by decide) (by simp) (Prod.ext (by decide +kernel) rfl) rfcPads 5 4096
    (.literal .without (.index 2) [0x47, 0x45, 0x54]) [0x02, 0x03, 0x47, 0x45, 0x54] 0 ⟨[], 4096⟩ rfl ?_ ?_
  · intro m r x h; cases h; decide
  · exact ⟨by decide, [2], [0x03, 0x47, 0x45, 0x54], ⟨.inl ⟨by decide, by decide⟩, by decide⟩, ⟨[3], ⟨.inl ⟨by decide, by decide⟩, by decide⟩, rfl⟩, rfl⟩

end Verif.Props
