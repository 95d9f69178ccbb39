import Verif.Hpack.Encoder
import Verif.Lemmas.HpackString
import Verif.Lemmas.HpackTable
import Verif.Spec.HpackEncode
/-! The encoder writes the documented representation. -/
namespace Verif.Hpack
open Verif.Spec

theorem flag1_iff : ∀ f : UInt8, (decide (f &&& 0x1 = 0x1)) = f.toNat.testBit 0 := forall_u8 (by decide +kernel)
theorem flag2_iff : ∀ f : UInt8, (decide (f &&& 0x2 = 0x2)) = f.toNat.testBit 1 := forall_u8 (by decide +kernel)
theorem flag4_iff : ∀ f : UInt8, (f &&& 0x4 = 0x4) ↔ f.toNat.testBit 2 = true := forall_u8 (by decide +kernel)
theorem flag8_iff : ∀ f : UInt8, (f &&& 0x8 = 0x8) ↔ f.toNat.testBit 3 = true := forall_u8 (by decide +kernel)
theorem flag16_iff : ∀ f : UInt8, (f &&& 0x10 = 0x10) ↔ f.toNat.testBit 4 = true := forall_u8 (by decide +kernel)

theorem pushBytes_ok (bs : Bytes) (s : EncoderState) :
    pushBytes (.ok bs) s = (.ok (), { s with dst := s.dst ++ bs }) := rfl
theorem pushBytes_err (e : EncoderError) (s : EncoderState) : pushBytes (.err e) s = (.err e, s) := rfl

/-- Integers as the encoder writes them: at most six octets, five if the value is small. -/
theorem encInt (v : UInt32) (f : UInt8) (n : Nat) (h1 : 1 ≤ n) (hn : n ≤ 8) (hf : f.toNat % 2 ^ n = 0) :
    ∃ bs, encodeInteger v f n = .ok bs ∧ IntWireLim 6 n f.toNat v.toNat bs ∧
      (v.toNat < 2 ^ 28 + 2 ^ n - 1 → IntWireLim 5 n f.toNat v.toNat bs) ∧
      (2 ^ 28 + 2 ^ n - 1 ≤ v.toNat → bs.length = 6) := by
  obtain ⟨bs, he, hw, hl⟩ := encodeInteger_spec v f n h1 hn
  have hh : hiBits n f = f.toNat := by rw [hiBits, hf]; simp
  rw [hh] at hw
  have hp := Nat.two_pow_pos n
  have h6 : bs.length ≤ 6 := by rw [hl 5 (by decide)]; have := v.toNat_lt; omega
  refine ⟨bs, he, ⟨hw, h6⟩, fun h => ⟨hw, ?_⟩, fun h => ?_⟩
  · rw [hl 4 (by decide)]; omega
  · have : ¬ bs.length ≤ 5 := fun hh => absurd ((hl 4 (by decide)).mp hh) (by omega)
    omega

/-- Indices in use are small. -/
theorem Table.WF.addr_lt {t : Table} (h : t.WF) {i : Nat} {e : Entry} (ha : t.spec.addr i = some e) :
    0 < i ∧ i < 2 ^ 28 := by
  have hl := h.length_le
  have hal := t.all_length
  cases i with
  | zero => simp [SpecTable.addr] at ha
  | succ i =>
    rw [addr_eq_all] at ha
    have : i < t.all.length := by
      rcases Nat.lt_or_ge i t.all.length with h | h
      · exact h
      · rw [List.getElem?_eq_none h] at ha; simp at ha
    omega

theorem encodeIndexed_spec (s : EncoderState) (hwf : s.table.WF) (i : UInt32) :
    match s.table.spec.addr i.toNat with
    | none => encodeIndexed i s = (.err .InvalidIndex, s)
    | some _ => ∃ bs, encodeIndexed i s = (.ok (), { s with dst := s.dst ++ bs }) ∧ IntWireLim 5 7 128 i.toNat bs := by
  unfold encodeIndexed
  simp only [M.bind_apply, M.get_apply, Table.get_spec]
  cases ha : s.table.spec.addr i.toNat with
  | none => simp
  | some e =>
    have hlt := (hwf.addr_lt ha).2
    obtain ⟨bs, he, _, h5, _⟩ := encInt i 0x80 7 (by decide) (by decide) (by decide)
    exact ⟨bs, by simp only [he, pushBytes_ok], h5 (by omega)⟩

theorem _root_.Verif.Spec.IntWireLim.mono {l l' n hi v : Nat} {bs : Bytes} (hl : l ≤ l') (h : IntWireLim l n hi v bs) :
    IntWireLim l' n hi v bs := ⟨h.1, Nat.le_trans h.2 hl⟩

/-- The table after a literal of the given kind. -/
def SpecTable.lit (t : SpecTable) (m : Indexing) (n v : Octets) : SpecTable :=
  if m = .incremental then t.insert (n, v) else t

theorem encodeIndexedName_spec (s : EncoderState) (hwf : s.table.WF) (i : UInt32) (v : Bytes) (f : UInt8) :
    match s.table.spec.addr i.toNat with
    | none => encodeIndexedName i v f s = (.err .InvalidIndex, s)
    | some e =>
      (strLen (f.toNat.testBit 1) v < 2 ^ 32 → ∃ bs t', t'.WF ∧ t'.spec = SpecTable.lit s.table.spec (flagMode f) e.1 v ∧
        encodeIndexedName i v f s = (.ok (), { s with dst := s.dst ++ bs, table := t' }) ∧
        RepWireAs rfcPads 6 false (f.toNat.testBit 1) (.literal (flagMode f) (.index i.toNat) v) bs ∧
        (strLen (f.toNat.testBit 1) v < 2 ^ 28 + 127 →
          RepWireAs rfcPads 5 false (f.toNat.testBit 1) (.literal (flagMode f) (.index i.toNat) v) bs)) ∧
      (2 ^ 32 ≤ strLen (f.toNat.testBit 1) v → ∃ bs t', t'.WF ∧ t'.spec = SpecTable.lit s.table.spec (flagMode f) e.1 v ∧
        encodeIndexedName i v f s = (.err .IntegerOverflow, { s with dst := s.dst ++ bs, table := t' }) ∧
        RepUntilTooLong rfcPads false (f.toNat.testBit 1) (.literal (flagMode f) (.index i.toNat) v) bs) := by
  unfold encodeIndexedName
  simp only [M.bind_apply, M.get_apply, Table.get_spec]
  cases ha : s.table.spec.addr i.toNat with
  | none => simp
  | some e =>
    have hlt := (hwf.addr_lt ha)
    obtain ⟨hok, herr⟩ := encodeString_spec v (f.toNat.testBit 1)
    -- the first octets
    have first : ∃ b1 t', t'.WF ∧ t'.spec = SpecTable.lit s.table.spec (flagMode f) e.1 v ∧
        IntWireLim 5 (flagMode f).bits (flagMode f).pattern i.toNat b1 ∧
        (if f &&& 0x4 = 0x4 then do
            encInsert e.1 v
            pushBytes (encodeInteger i 0x40 6)
          else if f &&& 0x8 = 0x8 then pushBytes (encodeInteger i 0x10 4)
          else pushBytes (encodeInteger i 0x0 4)) s = (.ok (), { s with dst := s.dst ++ b1, table := t' }) := by
      by_cases h4 : f &&& 0x4 = 0x4
      · have hm : flagMode f = .incremental := by rw [flagMode, if_pos ((flag4_iff f).mp h4)]
        obtain ⟨t', ht', hwf', hsp'⟩ := Table.insert_spec (ε := EncoderError) s.table hwf e.1 v
        obtain ⟨b1, he, _, h5, _⟩ := encInt i 0x40 6 (by decide) (by decide) (by decide)
        refine ⟨b1, t', hwf', by rw [hm, SpecTable.lit, if_pos rfl, hsp'], by rw [hm]; exact h5 (by omega), ?_⟩
        rw [if_pos h4]
        simp only [encInsert, M.bind_apply, M.get_apply, M.lift_apply, ht', M.modify_apply, he, pushBytes_ok]
      · have h4' : ¬ f.toNat.testBit 2 = true := fun h => h4 ((flag4_iff f).mpr h)
        rw [if_neg h4]
        by_cases h8 : f &&& 0x8 = 0x8
        · have hm : flagMode f = .never := by rw [flagMode, if_neg h4', if_pos ((flag8_iff f).mp h8)]
          obtain ⟨b1, he, _, h5, _⟩ := encInt i 0x10 4 (by decide) (by decide) (by decide)
          refine ⟨b1, s.table, hwf, by rw [hm]; rfl, by rw [hm]; exact h5 (by omega), ?_⟩
          rw [if_pos h8, he, pushBytes_ok]
        · have h8' : ¬ f.toNat.testBit 3 = true := fun h => h8 ((flag8_iff f).mpr h)
          have hm : flagMode f = .without := by rw [flagMode, if_neg h4', if_neg h8']
          obtain ⟨b1, he, _, h5, _⟩ := encInt i 0x0 4 (by decide) (by decide) (by decide)
          refine ⟨b1, s.table, hwf, by rw [hm]; rfl, by rw [hm]; exact h5 (by omega), ?_⟩
          rw [if_neg h8, he, pushBytes_ok]
    obtain ⟨b1, t', hwf', hsp', hw1, hrun⟩ := first
    simp only
    rw [M.bind_of_ok hrun]
    simp only [flag2_iff]
    refine ⟨fun hs => ?_, fun hs => ?_⟩
    · obtain ⟨b2, he2, hw2, hw5⟩ := hok hs
      refine ⟨b1 ++ b2, t', hwf', hsp', by rw [he2, pushBytes_ok]; simp, ?_, fun h => ?_⟩
      · exact ⟨hlt.1, b1, b2, IntWireLim.mono (by decide) hw1, hw2, rfl⟩
      · exact ⟨hlt.1, b1, b2, hw1, hw5 h, rfl⟩
    · rw [herr hs]
      exact ⟨b1, t', hwf', hsp', rfl, hs, hw1⟩

theorem encodeLiteral_spec (s : EncoderState) (hwf : s.table.WF) (n v : Bytes) (f : UInt8) :
    (RepFits (2 ^ 32) (f.toNat.testBit 0) (f.toNat.testBit 1) (.literal (flagMode f) (.new n) v) →
      ∃ bs t', t'.WF ∧ t'.spec = SpecTable.lit s.table.spec (flagMode f) n v ∧
        encodeLiteral n v f s = (.ok (), { s with dst := s.dst ++ bs, table := t' }) ∧
        RepWireAs rfcPads 6 (f.toNat.testBit 0) (f.toNat.testBit 1) (.literal (flagMode f) (.new n) v) bs ∧
        (RepFits (2 ^ 28 + 127) (f.toNat.testBit 0) (f.toNat.testBit 1) (.literal (flagMode f) (.new n) v) →
          RepWireAs rfcPads 5 (f.toNat.testBit 0) (f.toNat.testBit 1) (.literal (flagMode f) (.new n) v) bs)) ∧
    (¬ RepFits (2 ^ 32) (f.toNat.testBit 0) (f.toNat.testBit 1) (.literal (flagMode f) (.new n) v) →
      ∃ bs t', t'.WF ∧ t'.spec = SpecTable.lit s.table.spec (flagMode f) n v ∧
        encodeLiteral n v f s = (.err .IntegerOverflow, { s with dst := s.dst ++ bs, table := t' }) ∧
        RepUntilTooLong rfcPads (f.toNat.testBit 0) (f.toNat.testBit 1) (.literal (flagMode f) (.new n) v) bs) := by
  unfold encodeLiteral
  obtain ⟨hokn, herrn⟩ := encodeString_spec n (f.toNat.testBit 0)
  obtain ⟨hokv, herrv⟩ := encodeString_spec v (f.toNat.testBit 1)
  have first : ∃ b1 t', t'.WF ∧ t'.spec = SpecTable.lit s.table.spec (flagMode f) n v ∧
      IntWireLim 5 (flagMode f).bits (flagMode f).pattern 0 b1 ∧
      (if f &&& 0x4 = 0x4 then do
          M.modify fun s => { s with dst := s.dst ++ [0x40] }
          encInsert n v
        else if f &&& 0x8 = 0x8 then M.modify fun s => { s with dst := s.dst ++ [0x10] }
        else M.modify fun s => { s with dst := s.dst ++ [0x0] }) s
        = (.ok (), { s with dst := s.dst ++ b1, table := t' }) := by
    have w : ∀ m : Indexing, IntWireLim 5 m.bits m.pattern 0 [UInt8.ofNat m.pattern] := by
      intro m
      refine ⟨Or.inl ⟨?_, rfl⟩, by simp⟩
      cases m <;> decide
    by_cases h4 : f &&& 0x4 = 0x4
    · have hm : flagMode f = .incremental := by rw [flagMode, if_pos ((flag4_iff f).mp h4)]
      obtain ⟨t', ht', hwf', hsp'⟩ := Table.insert_spec (ε := EncoderError) s.table hwf n v
      refine ⟨[0x40], t', hwf', by rw [hm, SpecTable.lit, if_pos rfl, hsp'], by rw [hm]; exact w _, ?_⟩
      rw [if_pos h4]
      simp only [encInsert, M.bind_apply, M.get_apply, M.lift_apply, ht', M.modify_apply]
    · have h4' : ¬ f.toNat.testBit 2 = true := fun h => h4 ((flag4_iff f).mpr h)
      rw [if_neg h4]
      by_cases h8 : f &&& 0x8 = 0x8
      · have hm : flagMode f = .never := by rw [flagMode, if_neg h4', if_pos ((flag8_iff f).mp h8)]
        refine ⟨[0x10], s.table, hwf, by rw [hm]; rfl, by rw [hm]; exact w _, ?_⟩
        rw [if_pos h8]; rfl
      · have h8' : ¬ f.toNat.testBit 3 = true := fun h => h8 ((flag8_iff f).mpr h)
        have hm : flagMode f = .without := by rw [flagMode, if_neg h4', if_neg h8']
        refine ⟨[0x0], s.table, hwf, by rw [hm]; rfl, by rw [hm]; exact w _, ?_⟩
        rw [if_neg h8]; rfl
  obtain ⟨b1, t', hwf', hsp', hw1, hrun⟩ := first
  rw [M.bind_of_ok hrun]
  simp only [M.bind_apply, flag1_iff, flag2_iff, RepFits]
  refine ⟨fun ⟨hn, hv⟩ => ?_, fun hno => ?_⟩
  · obtain ⟨b2, he2, hw2, hw25⟩ := hokn hn
    obtain ⟨b3, he3, hw3, hw35⟩ := hokv hv
    refine ⟨b1 ++ (b2 ++ b3), t', hwf', hsp', ?_, ?_, fun ⟨h2, h3⟩ => ?_⟩
    · simp only [he2, he3, pushBytes_ok]; simp
    · exact ⟨b1, b2, b3, IntWireLim.mono (by decide) hw1, hw2, hw3, rfl⟩
    · exact ⟨b1, b2, b3, hw1, hw25 h2, hw35 h3, rfl⟩
  · by_cases hn : strLen (f.toNat.testBit 0) n < 2 ^ 32
    · obtain ⟨b2, he2, hw2, _⟩ := hokn hn
      have hv : 2 ^ 32 ≤ strLen (f.toNat.testBit 1) v := by
        rcases Nat.lt_or_ge (strLen (f.toNat.testBit 1) v) (2 ^ 32) with h | h
        · exact absurd ⟨hn, h⟩ hno
        · exact h
      simp only [he2, pushBytes_ok, herrv hv, pushBytes_err]
      exact ⟨b1 ++ b2, t', hwf', hsp', by simp, Or.inr ⟨hv, b1, b2, hw1, hw2, rfl⟩⟩
    · simp only [herrn (by omega), pushBytes_err]
      exact ⟨b1, t', hwf', hsp', rfl, Or.inl ⟨by omega, hw1⟩⟩

/-- `find` in terms of addresses. -/
theorem Table.find_spec (t : Table) (hwf : t.WF) (n v : Bytes) :
    (∃ i, t.find n v = some (some (i, true)) ∧ LowestAt t.spec (· = (n, v)) i) ∨
    ((∀ j, t.spec.addr j ≠ some (n, v)) ∧ ∃ i, t.find n v = some (some (i, false)) ∧ LowestAt t.spec (·.1 = n) i) ∨
    ((∀ j e, t.spec.addr j = some e → e.1 ≠ n) ∧ t.find n v = some none) := by
  have low : ∀ k, ∀ (P : Entry → Prop), (∃ e, t.all[k]? = some e ∧ P e) →
      (∀ j, j < k → ∀ e, t.all[j]? = some e → ¬ P e) → LowestAt t.spec P (k + 1) := by
    rintro k P ⟨e, he, hP⟩ hl
    refine ⟨⟨e, by rw [addr_eq_all]; exact he, hP⟩, ?_⟩
    intro j hj e' he'
    cases j with
    | zero => simp [SpecTable.addr] at he'
    | succ j =>
      rw [addr_eq_all] at he'
      exact hl j (by omega) e' he'
  have mem : ∀ j e, t.spec.addr j = some e → e ∈ t.all := by
    intro j e he
    cases j with
    | zero => simp [SpecTable.addr] at he
    | succ j => rw [addr_eq_all] at he; exact List.mem_of_getElem? he
  simp only [Table.find, Table.iter_spec t hwf, Option.map_some]
  rcases findLoop_spec n v 0 none t.all with ⟨k, h1, h2, h3⟩ | ⟨h1, ⟨_, h, _⟩ | ⟨_, k, v', h2, h3, h4⟩ | ⟨_, h2, h3⟩⟩
  · left
    refine ⟨0 + k + 1, by rw [h3], ?_⟩
    rw [Nat.zero_add]
    exact low k _ ⟨_, h1, rfl⟩ (fun j hj e he hc => h2 j hj (by rw [he, hc]))
  · simp at h
  · right; left
    refine ⟨fun j hj => h1 (mem _ _ hj), 0 + k + 1, by rw [h4], ?_⟩
    rw [Nat.zero_add]
    exact low k _ ⟨_, h2, rfl⟩ (fun j hj e he hc => h3 j e.2 hj (by rw [he, ← hc]))
  · right; right
    refine ⟨fun j e he hc => h2 e.2 ?_, by rw [h3]⟩
    rw [← hc]; exact mem _ _ he

/-- Some representation is always chosen. -/
theorem _root_.Verif.Spec.Chosen.exists (t : Table) (hwf : t.WF) (input : EncoderInput) : ∃ rep, Chosen t.spec input rep := by
  cases input with
  | Indexed i => exact ⟨_, .indexed i⟩
  | IndexedName i v f => exact ⟨_, .indexedName i v f⟩
  | Literal n v f =>
    by_cases hf : f.toNat.testBit 4 = true
    · rcases t.find_spec hwf n v with ⟨i, _, h⟩ | ⟨hn, i, _, h⟩ | ⟨hn, _⟩
      · exact ⟨_, .bestFull n v f hf i h⟩
      · exact ⟨_, .bestName n v f hf hn i h⟩
      · exact ⟨_, .bestNew n v f hf hn⟩
    · exact ⟨_, .literal n v f (by simpa using hf)⟩

theorem _root_.Verif.Spec.LowestAt.unique {t : SpecTable} {P : Octets × Octets → Prop} {i j : Nat} (hi : LowestAt t P i)
    (hj : LowestAt t P j) : i = j := by
  obtain ⟨⟨e, he, hP⟩, hl⟩ := hi
  obtain ⟨⟨e', he', hP'⟩, hl'⟩ := hj
  rcases Nat.lt_trichotomy i j with h | h | h
  · exact absurd hP (hl' i h e he)
  · exact h
  · exact absurd hP' (hl j h e' he')

/-- The choice is unique. -/
theorem _root_.Verif.Spec.Chosen.unique {t : SpecTable} {input : EncoderInput} {r r' : Rep} (h : Chosen t input r)
    (h' : Chosen t input r') : r = r' := by
  cases h with
  | indexed i => cases h'; rfl
  | indexedName i v f => cases h'; rfl
  | literal n v f hf =>
    cases h' with
    | literal _ _ _ _ => rfl
    | bestFull _ _ _ hf' => rw [hf] at hf'; simp at hf'
    | bestName _ _ _ hf' => rw [hf] at hf'; simp at hf'
    | bestNew _ _ _ hf' => rfl
  | bestFull n v f hf i hl =>
    cases h' with
    | literal _ _ _ hf' => rw [hf] at hf'; simp at hf'
    | bestFull _ _ _ hf' i' hl' => rw [hl.unique hl']
    | bestName _ _ _ hf' hn i' hl' =>
      obtain ⟨⟨e, he, rfl⟩, _⟩ := hl
      exact absurd he (hn i)
    | bestNew _ _ _ hf' hn =>
      obtain ⟨⟨e, he, rfl⟩, _⟩ := hl
      exact absurd rfl (hn i _ he)
  | bestName n v f hf hn i hl =>
    cases h' with
    | literal _ _ _ hf' => rw [hf] at hf'; simp at hf'
    | bestFull _ _ _ hf' i' hl' =>
      obtain ⟨⟨e, he, rfl⟩, _⟩ := hl'
      exact absurd he (hn i')
    | bestName _ _ _ hf' hn' i' hl' => rw [hl.unique hl']
    | bestNew _ _ _ hf' hn' =>
      obtain ⟨⟨e, he, hP⟩, _⟩ := hl
      exact absurd hP (hn' i _ he)
  | bestNew n v f hf hn =>
    cases h' with
    | literal _ _ _ hf' => rfl
    | bestFull _ _ _ hf' i' hl' =>
      obtain ⟨⟨e, he, rfl⟩, _⟩ := hl'
      exact absurd rfl (hn i' _ he)
    | bestName _ _ _ hf' hn' i' hl' =>
      obtain ⟨⟨e, he, hP⟩, _⟩ := hl'
      exact absurd hP (hn i' _ he)
    | bestNew _ _ _ _ _ => rfl

/-- The table change of a representation does not depend on the limit, except for size updates. -/
theorem encode_spec (s : EncoderState) (hwf : s.table.WF) (input : EncoderInput) (rep : Rep) (limit : Nat)
    (hc : Chosen s.table.spec input rep) :
    match rep.apply limit s.table.spec with
    | none => encode input s = (.err .InvalidIndex, s)
    | some (_, st) =>
      (RepFits (2 ^ 32) (huffName input) (huffValue input) rep → ∃ bs t', t'.WF ∧ t'.spec = st ∧
        encode input s = (.ok (), { s with dst := s.dst ++ bs, table := t' }) ∧
        RepWireAs rfcPads 6 (huffName input) (huffValue input) rep bs ∧
        (RepFits (2 ^ 28 + 127) (huffName input) (huffValue input) rep →
          RepWireAs rfcPads 5 (huffName input) (huffValue input) rep bs)) ∧
      (¬ RepFits (2 ^ 32) (huffName input) (huffValue input) rep → ∃ bs t', t'.WF ∧ t'.spec = st ∧
        encode input s = (.err .IntegerOverflow, { s with dst := s.dst ++ bs, table := t' }) ∧
        RepUntilTooLong rfcPads (huffName input) (huffValue input) rep bs) := by
  have hindexed : ∀ (i : UInt32), encode input s = encodeIndexed i s →
      match (Rep.indexed i.toNat).apply limit s.table.spec with
    | none => encode input s = (.err .InvalidIndex, s)
    | some (_, st) =>
      (RepFits (2 ^ 32) (huffName input) (huffValue input) (Rep.indexed i.toNat) → ∃ bs t', t'.WF ∧ t'.spec = st ∧
        encode input s = (.ok (), { s with dst := s.dst ++ bs, table := t' }) ∧
        RepWireAs rfcPads 6 (huffName input) (huffValue input) (Rep.indexed i.toNat) bs ∧
        (RepFits (2 ^ 28 + 127) (huffName input) (huffValue input) (Rep.indexed i.toNat) →
          RepWireAs rfcPads 5 (huffName input) (huffValue input) (Rep.indexed i.toNat) bs)) ∧
      (¬ RepFits (2 ^ 32) (huffName input) (huffValue input) (Rep.indexed i.toNat) → ∃ bs t', t'.WF ∧ t'.spec = st ∧
        encode input s = (.err .IntegerOverflow, { s with dst := s.dst ++ bs, table := t' }) ∧
        RepUntilTooLong rfcPads (huffName input) (huffValue input) (Rep.indexed i.toNat) bs) := by
    intro i he
    have h := encodeIndexed_spec s hwf i
    simp only [Rep.apply]
    cases ha : s.table.spec.addr i.toNat with
    | none => simp only [ha] at h; simp only [he, h]
    | some e =>
      simp only [ha] at h
      obtain ⟨bs, h1, h2⟩ := h
      refine ⟨fun _ => ⟨bs, s.table, hwf, rfl, by rw [he, h1], IntWireLim.mono (by decide) h2, fun _ => h2⟩, ?_⟩
      intro hno; exact absurd trivial hno
  have hname : ∀ (i : UInt32) (v : Bytes) (f : UInt8), flagsOf input = f → encode input s = encodeIndexedName i v f s →
      match (Rep.literal (flagMode f) (.index i.toNat) v).apply limit s.table.spec with
    | none => encode input s = (.err .InvalidIndex, s)
    | some (_, st) =>
      (RepFits (2 ^ 32) (huffName input) (huffValue input) (Rep.literal (flagMode f) (.index i.toNat) v) → ∃ bs t', t'.WF ∧ t'.spec = st ∧
        encode input s = (.ok (), { s with dst := s.dst ++ bs, table := t' }) ∧
        RepWireAs rfcPads 6 (huffName input) (huffValue input) (Rep.literal (flagMode f) (.index i.toNat) v) bs ∧
        (RepFits (2 ^ 28 + 127) (huffName input) (huffValue input) (Rep.literal (flagMode f) (.index i.toNat) v) →
          RepWireAs rfcPads 5 (huffName input) (huffValue input) (Rep.literal (flagMode f) (.index i.toNat) v) bs)) ∧
      (¬ RepFits (2 ^ 32) (huffName input) (huffValue input) (Rep.literal (flagMode f) (.index i.toNat) v) → ∃ bs t', t'.WF ∧ t'.spec = st ∧
        encode input s = (.err .IntegerOverflow, { s with dst := s.dst ++ bs, table := t' }) ∧
        RepUntilTooLong rfcPads (huffName input) (huffValue input) (Rep.literal (flagMode f) (.index i.toNat) v) bs) := by
    intro i v f hf he
    have h := encodeIndexedName_spec s hwf i v f
    simp only [Rep.apply, NameRef.resolve]
    cases ha : s.table.spec.addr i.toNat with
    | none => simp only [ha] at h; simp only [Option.map_none, he, h]
    | some e =>
      simp only [ha] at h
      simp only [Option.map_some, huffName, huffValue, hf, RepFits, he]
      obtain ⟨h1, h2⟩ := h
      refine ⟨fun hs => ?_, fun hs => h2 (by omega)⟩
      obtain ⟨bs, t', hwf', hsp', hr, hw6, hw5⟩ := h1 hs
      exact ⟨bs, t', hwf', hsp', hr, hw6, hw5⟩
  have hlit : ∀ (n v : Bytes) (f : UInt8), flagsOf input = f → encode input s = encodeLiteral n v f s →
      match (Rep.literal (flagMode f) (.new n) v).apply limit s.table.spec with
    | none => encode input s = (.err .InvalidIndex, s)
    | some (_, st) =>
      (RepFits (2 ^ 32) (huffName input) (huffValue input) (Rep.literal (flagMode f) (.new n) v) → ∃ bs t', t'.WF ∧ t'.spec = st ∧
        encode input s = (.ok (), { s with dst := s.dst ++ bs, table := t' }) ∧
        RepWireAs rfcPads 6 (huffName input) (huffValue input) (Rep.literal (flagMode f) (.new n) v) bs ∧
        (RepFits (2 ^ 28 + 127) (huffName input) (huffValue input) (Rep.literal (flagMode f) (.new n) v) →
          RepWireAs rfcPads 5 (huffName input) (huffValue input) (Rep.literal (flagMode f) (.new n) v) bs)) ∧
      (¬ RepFits (2 ^ 32) (huffName input) (huffValue input) (Rep.literal (flagMode f) (.new n) v) → ∃ bs t', t'.WF ∧ t'.spec = st ∧
        encode input s = (.err .IntegerOverflow, { s with dst := s.dst ++ bs, table := t' }) ∧
        RepUntilTooLong rfcPads (huffName input) (huffValue input) (Rep.literal (flagMode f) (.new n) v) bs) := by
    intro n v f hf he
    have h := encodeLiteral_spec s hwf n v f
    simp only [Rep.apply, NameRef.resolve, huffName, huffValue, hf, he]
    exact h
  have h32 : ∀ {i : Nat} {P : Entry → Prop}, LowestAt s.table.spec P i → (UInt32.ofNat i).toNat = i := by
    rintro i P ⟨⟨e, he, _⟩, _⟩
    have := (hwf.addr_lt he).2
    exact UInt32.toNat_ofNat_of_lt' (by simp [UInt32.size]; omega)
  cases hc with
  | indexed i => exact hindexed i rfl
  | indexedName i v f => exact hname i v f rfl rfl
  | literal n v f hf =>
    refine hlit n v f rfl ?_
    simp only [encode]
    rw [if_neg (by rw [flag16_iff, hf]; simp)]
  | bestFull n v f hf i hl =>
    have hi := h32 hl
    rw [← hi] at hl ⊢
    refine hindexed (UInt32.ofNat i) ?_
    simp only [encode]
    rw [if_pos ((flag16_iff f).mpr hf)]
    simp only [M.bind_apply, M.get_apply]
    rcases s.table.find_spec hwf n v with ⟨j, hj, hlj⟩ | ⟨hn, _⟩ | ⟨hn, _⟩
    · rw [hi] at hl
      simp only [hj, hl.unique hlj]
    · obtain ⟨⟨e, he, rfl⟩, _⟩ := hl
      exact absurd he (hn _)
    · obtain ⟨⟨e, he, rfl⟩, _⟩ := hl
      exact absurd rfl (hn _ _ he)
  | bestName n v f hf hn i hl =>
    have hi := h32 hl
    rw [← hi] at hl ⊢
    refine hname (UInt32.ofNat i) v f rfl ?_
    simp only [encode]
    rw [if_pos ((flag16_iff f).mpr hf)]
    simp only [M.bind_apply, M.get_apply]
    rcases s.table.find_spec hwf n v with ⟨j, hj, hlj⟩ | ⟨_, j, hj, hlj⟩ | ⟨hn', _⟩
    · obtain ⟨⟨e, he, rfl⟩, _⟩ := hlj
      exact absurd he (hn _)
    · rw [hi] at hl
      simp only [hj, hl.unique hlj]
    · obtain ⟨⟨e, he, hP⟩, _⟩ := hl
      exact absurd hP (hn' _ _ he)
  | bestNew n v f hf hn =>
    refine hlit n v f rfl ?_
    simp only [encode]
    rw [if_pos ((flag16_iff f).mpr hf)]
    simp only [M.bind_apply, M.get_apply]
    rcases s.table.find_spec hwf n v with ⟨j, hj, hlj⟩ | ⟨_, j, hj, hlj⟩ | ⟨hn', hj⟩
    · obtain ⟨⟨e, he, rfl⟩, _⟩ := hlj
      exact absurd rfl (hn _ _ he)
    · obtain ⟨⟨e, he, hP⟩, _⟩ := hlj
      exact absurd hP (hn _ _ he)
    · simp only [hj]

theorem encUpdate_spec (s : EncoderState) (hwf : s.table.WF) (n : UInt32) :
    ∃ bs t', t'.WF ∧ t'.spec = s.table.spec.resize n.toNat ∧
      encUpdateMaxDynamicSize n s = (.ok (), { s with dst := s.dst ++ bs, table := t' }) ∧
      IntWireLim 6 5 32 n.toNat bs ∧ (n.toNat < 2 ^ 28 + 31 → IntWireLim 5 5 32 n.toNat bs) ∧
      (2 ^ 28 + 31 ≤ n.toNat → bs.length = 6) := by
  obtain ⟨t', ht', hwf', hsp'⟩ := Table.resize_spec (ε := EncoderError) s.table hwf n
  obtain ⟨bs, he, h6, h5, h7⟩ := encInt n 0x20 5 (by decide) (by decide) (by decide)
  refine ⟨bs, t', hwf', hsp', ?_, h6, fun h => h5 (by omega), fun h => h7 (by omega)⟩
  simp only [encUpdateMaxDynamicSize, M.bind_apply, M.get_apply, M.lift_apply, ht', M.modify_apply, he, pushBytes_ok]

end Verif.Hpack
