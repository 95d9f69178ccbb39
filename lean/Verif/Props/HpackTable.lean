import Verif.Lemmas.HpackEncoder
/-! Property theorems about HPACK integers, strings and tables (C17-C19, C21-C26).

`encodeInteger`, `decodeInteger`, `encodeString`, `decodeString` and the functions of `Table` are the modelled code.
`IntWire`, `StrWireAs`, `tableSize`, `rfcStatic`, ... are specification vocabulary (`Verif/Spec/Hpack.lean`). -/
namespace Verif.Props
open Verif Verif.Spec Verif.Hpack
open Verif.Huffman (Speed)

/-! ### Integers and strings -/

/-- C17. Other prefix sizes than 1 to 8 are refused by both sides, whatever the value, the flags and the octets. -/
theorem C17_invalid_prefix (v : UInt32) (f : UInt8) (n : Nat) (hn : n = 0 ∨ 8 < n) (buf : Bytes) :
    encodeInteger v f n = .err .InvalidPrefix ∧ decodeInteger buf n = .err .InvalidPrefix := by
  have h : n < 1 ∨ n > 8 := by omega
  exact ⟨if_pos h, if_pos h⟩

/-- C17. Integers below `2^28 + 2^n - 1` are read back, whatever follows; the flag bits above the prefix appear
unchanged in the first octet, whatever they are. -/
theorem C17_integer_round_trip (v : UInt32) (f : UInt8) (n : Nat) (h1 : 1 ≤ n) (h8 : n ≤ 8)
    (hv : v.toNat < 2 ^ 28 + 2 ^ n - 1) :
    ∃ b0 bs, encodeInteger v f n = .ok (b0 :: bs) ∧ b0.toNat / 2 ^ n = f.toNat / 2 ^ n ∧
      ∀ rest, decodeInteger (b0 :: bs ++ rest) n = .ok (v.toNat, (b0 :: bs).length) := by
  have hp := Nat.two_pow_pos n
  obtain ⟨bs, he, hw, hl⟩ := encodeInteger_spec v f n h1 h8
  have hhl : hiBits n f < 256 := Nat.lt_of_le_of_lt (Nat.sub_le _ _) f.toNat_lt
  have hw5 : IntWireLim 5 n (hiBits n f) v.toNat bs := ⟨hw, by rw [hl 4 (by decide)]; omega⟩
  have hdec := fun rest => decodeInteger_complete rest h1 h8 (hiBits_mod n f) hhl hw5
  have hdiv : ∀ w, w < 2 ^ n → (UInt8.ofNat (hiBits n f + w)).toNat / 2 ^ n = f.toNat / 2 ^ n := by
    intro w hw
    have := hiBits_add_lt h8 f hw
    rw [UInt8.toNat_ofNat_of_lt' (by simp [UInt8.size]; omega)]
    have e : hiBits n f = 2 ^ n * (f.toNat / 2 ^ n) := by
      have := Nat.div_add_mod f.toNat (2 ^ n)
      unfold hiBits; omega
    rw [e, Nat.mul_add_div hp, Nat.div_eq_of_lt hw]; rfl
  rcases hw with ⟨hv', rfl⟩ | ⟨cs, _, _, rfl⟩
  · exact ⟨_, _, he, hdiv _ (by omega), hdec⟩
  · exact ⟨_, _, he, hdiv _ (by omega), hdec⟩

example : (300 : UInt32).toNat < 2 ^ 28 + 2 ^ 5 - 1 := by decide

/-- C18. Larger integers get six octets and are rejected, whatever follows. -/
theorem C18_integer_too_large (v : UInt32) (f : UInt8) (n : Nat) (h1 : 1 ≤ n) (h8 : n ≤ 8)
    (hv : 2 ^ 28 + 2 ^ n - 1 ≤ v.toNat) :
    ∃ bs, encodeInteger v f n = .ok bs ∧ bs.length = 6 ∧
      ∀ rest, decodeInteger (bs ++ rest) n = .err .IntegerOverflow := by
  have hp := Nat.two_pow_pos n
  obtain ⟨bs, he, hw, hl⟩ := encodeInteger_spec v f n h1 h8
  have h6 : bs.length ≤ 6 := by rw [hl 5 (by decide)]; have := v.toNat_lt; omega
  have h5 : ¬ bs.length ≤ 5 := fun hh => absurd ((hl 4 (by decide)).mp hh) (by omega)
  refine ⟨bs, he, by omega, ?_⟩
  rcases hw with ⟨_, rfl⟩ | ⟨cs, hc, _, rfl⟩
  · simp at h5
  · intro rest
    simp only [List.length_cons] at h5
    refine decodeInteger_over h1 h8 ?_ (by simp; omega) (hc.take 4 (by omega) rest)
    have := hiBits_add_lt h8 f (v := 2 ^ n - 1) (by omega)
    rw [UInt8.toNat_ofNat_of_lt' (by simp [UInt8.size]; omega), Nat.add_mod, hiBits_mod, Nat.zero_add, Nat.mod_mod,
      Nat.mod_eq_of_lt (by omega)]

example : 2 ^ 28 + 2 ^ 5 - 1 ≤ (4294967295 : UInt32).toNat := by decide

/-- C19. What the decoder reads is an RFC 5.1 representation of the value it returns, of at most five octets; its
first octet has the same bits above the prefix as the buffer. -/
theorem C19_integer_sound (buf : Bytes) (n v t : Nat) (h1 : 1 ≤ n) (h8 : n ≤ 8)
    (h : decodeInteger buf n = .ok (v, t)) :
    ∃ b0 bs rest, buf = bs ++ rest ∧ buf.head? = some b0 ∧ t = bs.length ∧ t ≤ 5 ∧
      IntWire n (2 ^ n * (b0.toNat / 2 ^ n)) v bs ∧ v < 2 ^ 28 + 2 ^ n - 1 := by
  obtain ⟨b0, bs, rest, h1, h2, h3, h4⟩ := decodeInteger_sound h1 h8 h
  have e : hiBits n b0 = 2 ^ n * (b0.toNat / 2 ^ n) := by
    have := Nat.div_add_mod b0.toNat (2 ^ n)
    unfold hiBits; omega
  have hp := Nat.two_pow_pos n
  rw [e] at h4
  have := IntWireLim.bound h4
  exact ⟨b0, bs, rest, h1, h2, h3, by rw [h3]; exact h4.2, h4.1, by omega⟩

/-- C19, converse: every representation of at most five octets is read. -/
theorem C19_integer_complete (n hi v : Nat) (bs rest : Bytes) (h1 : 1 ≤ n) (h8 : n ≤ 8) (hh : hi % 2 ^ n = 0)
    (hl : hi < 256) (hw : IntWire n hi v bs) (h5 : bs.length ≤ 5) :
    decodeInteger (bs ++ rest) n = .ok (v, bs.length) :=
  decodeInteger_complete rest h1 h8 hh hl ⟨hw, h5⟩

/-- RFC 7541 C.1.2: 1337 with a five-bit prefix. -/
example : decodeInteger [31, 154, 10] 5 = .ok (1337, 3) := by decide
example : encodeInteger 1337 0 5 = .ok [31, 154, 10] := by decide

/-- C62. The encoder writes the shortest representation. -/
theorem C62_integer_shortest (v : UInt32) (f : UInt8) (n : Nat) (h1 : 1 ≤ n) (h8 : n ≤ 8) :
    ∃ bs, encodeInteger v f n = .ok bs ∧ IntWire n (2 ^ n * (f.toNat / 2 ^ n)) v.toNat bs ∧
      ∀ hi bs', IntWire n hi v.toNat bs' → bs.length ≤ bs'.length := by
  have hp := Nat.two_pow_pos n
  obtain ⟨bs, he, hw, hl⟩ := encodeInteger_spec v f n h1 h8
  have e : hiBits n f = 2 ^ n * (f.toNat / 2 ^ n) := by
    have := Nat.div_add_mod f.toNat (2 ^ n)
    unfold hiBits; omega
  rw [e] at hw
  refine ⟨bs, he, hw, ?_⟩
  rintro hi bs' (⟨hv, rfl⟩ | ⟨cs, hc, hv, rfl⟩)
  · rcases hw with ⟨_, rfl⟩ | ⟨cs, _, hv', rfl⟩
    · simp
    · omega
  · have hpos := hc.pos
    have hlt := contVal_lt cs
    simp only [List.length_cons]
    rw [hl cs.length hpos]
    omega

/-- C21. String literals are read back, whatever follows, in both forms and at every speed of the Huffman decoder. -/
theorem C21_string_round_trip (s : Bytes) (huff : Bool) (h : strLen huff s < 2 ^ 28 + 127) :
    ∃ bs, encodeString s huff = .ok bs ∧ ∀ rest sp, decodeString (bs ++ rest) sp = .ok (s, bs.length) := by
  obtain ⟨bs, he, _, h5⟩ := (encodeString_spec s huff).1 (by omega)
  exact ⟨bs, he, fun rest sp => decodeString_complete rest sp (StrWireAs_lenient (h5 h))⟩

/-- C21. What is written is the RFC 5.2 form that was asked for. -/
theorem C21_string_wire (s : Bytes) (huff : Bool) (h : strLen huff s < 2 ^ 32) :
    ∃ bs, encodeString s huff = .ok bs ∧ StrWireAs rfcPads 6 huff s bs := by
  obtain ⟨bs, he, h6, _⟩ := (encodeString_spec s huff).1 h
  exact ⟨bs, he, h6⟩

example : strLen true [119, 119, 119] < 2 ^ 28 + 127 ∧ strLen false [119] < 2 ^ 28 + 127 := by decide +kernel

/-! ### Tables -/

/-- Operations on a table. -/
inductive TableOp where
  | insert (name value : Bytes)
  | resize (max : UInt32)

/-- A history of operations. -/
def runTable : Table → List TableOp → Res Unit Table
  | t, [] => .ok t
  | t, .insert n v :: ops => (t.insert n v).bind (fun t => runTable t ops)
  | t, .resize m :: ops => (t.updateMaxDynamicSize m).bind (fun t => runTable t ops)

/-- Every table in a history satisfies the invariant, and the history never gets stuck. -/
theorem runTable_WF (t : Table) (h : t.WF) (ops : List TableOp) : ∃ t', runTable t ops = .ok t' ∧ t'.WF := by
  induction ops generalizing t with
  | nil => exact ⟨t, rfl, h⟩
  | cons op ops ih =>
    cases op with
    | insert n v =>
      obtain ⟨t1, h1, h2, _⟩ := t.insert_spec (ε := Unit) h n v
      obtain ⟨t', h3, h4⟩ := ih t1 h2
      exact ⟨t', by simp only [runTable, h1]; exact h3, h4⟩
    | resize m =>
      obtain ⟨t1, h1, h2, _⟩ := t.resize_spec (ε := Unit) h m
      obtain ⟨t', h3, h4⟩ := ih t1 h2
      exact ⟨t', by simp only [runTable, h1]; exact h3, h4⟩

/-- C22. After any history: eviction has terminated without a panic, the reported size is the sum of the entry sizes
and is at most the reported maximum. -/
theorem C22_size_accounting (m : UInt32) (ops : List TableOp) :
    ∃ t, runTable (Table.withDynamicSize m) ops = .ok t ∧
      t.dynamicSize.toNat = tableSize t.spec.entries ∧ t.dynamicSize.toNat ≤ t.maxDynamicSize.toNat ∧
      t.dynamicLen = t.spec.entries.length ∧ t.len = 61 + t.spec.entries.length := by
  obtain ⟨t, h1, h2⟩ := runTable_WF _ (Table.withDynamicSize_WF m) ops
  have e : t.dynamicSize.toNat = tableSize t.dynamic.inner := by
    have h3 : t.dynamic.size = tableSize t.dynamic.inner := h2.1
    have := t.dynamic.maxSize.toNat_lt
    have := h2.2
    rw [Table.dynamicSize, UInt32.toNat_ofNat_of_lt' (by simp [UInt32.size]; omega), h3]
  refine ⟨t, h1, e, by rw [e]; exact h2.2, rfl, ?_⟩
  simp only [Table.len, static_length, Table.spec]

/-- C22. The reported maximum is the one set last. -/
theorem C22_max_is_last (t t' : Table) (hwf : t.WF) (m : UInt32) (h : t.updateMaxDynamicSize (ε := Unit) m = .ok t') :
    t'.maxDynamicSize = m := by
  obtain ⟨t1, h1, _, h2⟩ := t.resize_spec (ε := Unit) hwf m
  rw [h] at h1
  simp only [Res.ok.injEq] at h1
  subst h1
  simp only [Table.spec, SpecTable.resize, SpecTable.mk.injEq] at h2
  exact UInt32.toNat_inj.mp h2.2

/-- C23. Insertion: if the new entry fits into the maximum, it comes first, followed by the longest run of the newest
old entries that still fits; otherwise the table is emptied. The maximum stays. -/
theorem C23_insert (t : Table) (h : t.WF) (n v : Bytes) :
    ∃ t', t.insert (ε := Unit) n v = .ok t' ∧ t'.WF ∧ t'.maxDynamicSize = t.maxDynamicSize ∧
      (n.length + v.length + 32 ≤ t.maxDynamicSize.toNat → ∃ kept evicted,
        t.spec.entries = kept ++ evicted ∧ t'.spec.entries = (n, v) :: kept ∧
        n.length + v.length + 32 + tableSize kept ≤ t.maxDynamicSize.toNat ∧
        ∀ a b, t.spec.entries = a ++ b → n.length + v.length + 32 + tableSize a ≤ t.maxDynamicSize.toNat →
          a.length ≤ kept.length) ∧
      (t.maxDynamicSize.toNat < n.length + v.length + 32 → t'.spec.entries = []) := by
  obtain ⟨t', h1, h2, h3⟩ := t.insert_spec (ε := Unit) h n v
  have hes : entrySize (n, v) = n.length + v.length + 32 := rfl
  have hmax : t.spec.max = t.maxDynamicSize.toNat := rfl
  refine ⟨t', h1, h2, ?_, fun hf => ?_, fun hf => ?_⟩
  · have : t'.spec.max = t.spec.max := by rw [h3, SpecTable.insert]; split <;> rfl
    exact UInt32.toNat_inj.mp this
  · rw [SpecTable.insert, hes, hmax, if_pos hf] at h3
    obtain ⟨r, hr⟩ := keepFitting_prefix (t.maxDynamicSize.toNat - (n.length + v.length + 32)) t.spec.entries
    refine ⟨_, r, hr, by rw [h3], ?_, ?_⟩
    · have := keepFitting_size (t.maxDynamicSize.toNat - (n.length + v.length + 32)) t.spec.entries
      omega
    · intro a b hab hs
      exact keepFitting_maximal _ _ a b hab (by omega)
  · rw [SpecTable.insert, hes, hmax, if_neg (by omega)] at h3
    rw [h3]

example : ∃ t : Table, t.WF ∧ t.spec.entries = [([1], [2]), ([3], [4])] :=
  ⟨Table.ofEntries [([1], [2]), ([3], [4])] 100, ⟨rfl, by decide⟩, rfl⟩

/-- C24. Size change: the longest run of newest entries that fits is kept. -/
theorem C24_resize (t : Table) (h : t.WF) (m : UInt32) :
    ∃ t' evicted, t.updateMaxDynamicSize (ε := Unit) m = .ok t' ∧ t'.WF ∧ t'.maxDynamicSize = m ∧
      t.spec.entries = t'.spec.entries ++ evicted ∧ tableSize t'.spec.entries ≤ m.toNat ∧
      ∀ a b, t.spec.entries = a ++ b → tableSize a ≤ m.toNat → a.length ≤ t'.spec.entries.length := by
  obtain ⟨t', h1, h2, h3⟩ := t.resize_spec (ε := Unit) h m
  obtain ⟨r, hr⟩ := keepFitting_prefix m.toNat t.spec.entries
  refine ⟨t', r, h1, h2, C22_max_is_last t t' h m h1, by rw [h3]; exact hr, by rw [h3]; exact keepFitting_size _ _, ?_⟩
  intro a b hab hs
  rw [h3]
  exact keepFitting_maximal _ _ a b hab hs

/-- C24. A maximum that is not below the occupied size evicts nothing; in particular raising it. -/
theorem C24_raise (t t' : Table) (h : t.WF) (m : UInt32) (hm : t.dynamicSize.toNat ≤ m.toNat)
    (hr : t.updateMaxDynamicSize (ε := Unit) m = .ok t') : t'.spec.entries = t.spec.entries := by
  obtain ⟨t1, h1, h2, h3⟩ := t.resize_spec (ε := Unit) h m
  rw [hr] at h1
  simp only [Res.ok.injEq] at h1
  subst h1
  have e : t.dynamicSize.toNat = tableSize t.dynamic.inner := by
    have h3 : t.dynamic.size = tableSize t.dynamic.inner := h.1
    have := t.dynamic.maxSize.toNat_lt
    have := h.2
    rw [Table.dynamicSize, UInt32.toNat_ofNat_of_lt' (by simp [UInt32.size]; omega), h3]
  rw [h3]
  exact keepFitting_of_le (by rw [e] at hm; exact hm)

/-- C25. The index address space. -/
theorem C25_get (t : Table) (i : UInt32) :
    (i = 0 → t.get i = none) ∧
    (∀ h : i.toNat - 1 < rfcStatic.length, i ≠ 0 → t.get i = some rfcStatic[i.toNat - 1]) ∧
    (61 < i.toNat → t.get i = t.spec.entries[i.toNat - 62]?) ∧
    (61 + t.spec.entries.length < i.toNat → t.get i = none) := by
  have hl : rfcStatic.length = 61 := by rw [← static_eq, static_length]
  rw [Table.get_spec]
  refine ⟨fun h => by subst h; rfl, fun h h0 => ?_, fun h => ?_, fun h => ?_⟩
  · have : i.toNat ≠ 0 := fun h => h0 (by apply UInt32.toNat_inj.mp; simpa using h)
    rw [SpecTable.addr, if_neg this, if_pos (by omega), List.getElem?_eq_getElem h]
  · rw [SpecTable.addr, if_neg (by omega), if_neg (by omega)]
  · rw [SpecTable.addr, if_neg (by omega), if_neg (by omega), List.getElem?_eq_none (by omega)]

/-- C25. The static part has 61 entries, and the table as many as the static and the dynamic part together. -/
theorem C25_static_length : rfcStatic.length = 61 ∧ ∀ t : Table, t.len = 61 + t.dynamicLen := by
  refine ⟨by rw [← static_eq, static_length], fun t => ?_⟩
  unfold Table.len Table.dynamicLen
  rw [static_length]

/-- C25. Iteration ends and lists the static entries, then the dynamic ones, newest first. -/
theorem C25_iter (t : Table) (h : t.WF) : t.iter = some (rfcStatic ++ t.spec.entries) := Table.iter_spec t h

/-- C25. The iterator call by call: call `k` (from 1) returns the header with index `k`, so the first calls list the table and
every later one returns `None`; this holds for the first 2^32 - 2 calls, in both build profiles. -/
theorem C25_iter_calls (chk : Bool) (t : Table) (n : Nat) (hn : n < 2 ^ 32 - 1) :
    t.iterTake chk n 1 = .ok ((List.range n).map fun k => t.spec.addr (k + 1)) := by
  suffices key : ∀ (n : Nat) (i : UInt32), i.toNat + n ≤ 2 ^ 32 - 1 →
      t.iterTake chk n i = .ok ((List.range n).map fun k => t.spec.addr (k + i.toNat)) from
    key n 1 (by simp only [UInt32.toNat_one]; omega)
  intro n
  induction n with
  | zero => intro i _; rfl
  | succ n ih =>
    intro i hi
    have hne : i ≠ 0xFFFFFFFF := by rintro rfl; simp at hi; omega
    have hi1 : (i + 1).toNat = i.toNat + 1 := by
      rw [UInt32.toNat_add, UInt32.toNat_one]; omega
    rw [Table.iterTake, Table.iterNext, if_neg (fun h => hne h.2)]
    simp only [Res.bind_ok]
    rw [ih (i + 1) (by omega)]
    simp only [Res.bind_ok, Res.ok.injEq, List.range_succ_eq_map, List.map_cons, List.map_map]
    rw [Table.get_spec, hi1]
    congr 1
    · simp
    · apply List.map_congr_left
      intro k _
      simp only [Function.comp]
      congr 1; omega

example : (Table.default.iterTake true 63 1).bind (fun l => Res.ok (ε := Unit) (l.drop 60)) =
    .ok [some ([119, 119, 119, 45, 97, 117, 116, 104, 101, 110, 116, 105, 99, 97, 116, 101], []), none, none] := by decide +kernel

/-- C25. Beyond those calls the build profiles differ. Without overflow checks the iterator never panics: call `k` returns the
header with index `k` modulo 2^32 (it starts over). -/
theorem C25_iter_wraps (t : Table) (n : Nat) :
    t.iterTake false n 1 = .ok ((List.range n).map fun k => t.spec.addr ((k + 1) % 2 ^ 32)) := by
  suffices key : ∀ (n : Nat) (i : UInt32),
      t.iterTake false n i = .ok ((List.range n).map fun k => t.spec.addr ((k + i.toNat) % 2 ^ 32)) from key n 1
  intro n
  induction n with
  | zero => intro i; rfl
  | succ n ih =>
    intro i
    have hi := i.toNat_lt
    rw [Table.iterTake, Table.iterNext, if_neg (fun h => Bool.noConfusion h.1)]
    simp only [Res.bind_ok]
    rw [ih (i + 1)]
    simp only [Res.bind_ok, Res.ok.injEq, List.range_succ_eq_map, List.map_cons, List.map_map]
    rw [Table.get_spec, UInt32.toNat_add, UInt32.toNat_one]
    congr 1
    · simp only [Nat.zero_add]; congr 1; omega
    · apply List.map_congr_left
      intro k _
      simp only [Function.comp]
      congr 1; omega

/-- C25. With overflow checks the call number 2^32 - 1 panics (the first one beyond the range of `C25_iter_calls`). -/
theorem C25_iter_panics (t : Table) (n : Nat) (hn : 2 ^ 32 - 1 ≤ n) : t.iterTake true n 1 = .panic := by
  suffices key : ∀ (n : Nat) (i : UInt32), 1 ≤ n → 2 ^ 32 ≤ i.toNat + n → t.iterTake true n i = .panic from
    key n 1 (by omega) (by simp only [UInt32.toNat_one]; omega)
  intro n
  induction n with
  | zero => intro i h _; omega
  | succ n ih =>
    intro i _ hi
    rw [Table.iterTake, Table.iterNext]
    by_cases hl : i = 0xFFFFFFFF
    · rw [if_pos ⟨rfl, hl⟩]; rfl
    · rw [if_neg (fun h => hl h.2)]
      have hlt := i.toNat_lt
      have hne : i.toNat ≠ 4294967295 := fun h => hl (UInt32.toNat_inj.mp h)
      simp only [Res.bind_ok]
      rw [ih (i + 1) (by omega) (by rw [UInt32.toNat_add, UInt32.toNat_one]; omega)]
      rfl

/-- C26. Search: the lowest index with the exact header if there is one (flag true), else the lowest index with the
name (flag false), else nothing. -/
theorem C26_find (t : Table) (hwf : t.WF) (n v : Bytes) :
    (∃ i, t.find n v = some (some (i, true)) ∧ t.spec.addr i = some (n, v) ∧
      ∀ j, j < i → t.spec.addr j ≠ some (n, v)) ∨
    ((∀ j, t.spec.addr j ≠ some (n, v)) ∧ ∃ i v', t.find n v = some (some (i, false)) ∧
      t.spec.addr i = some (n, v') ∧ ∀ j w, j < i → t.spec.addr j ≠ some (n, w)) ∨
    ((∀ j w, t.spec.addr j ≠ some (n, w)) ∧ t.find n v = some none) := by
  rcases t.find_spec hwf n v with ⟨i, h1, ⟨e, h2, rfl⟩, h3⟩ | ⟨h0, i, h1, ⟨e, h2, rfl⟩, h3⟩ | ⟨h0, h1⟩
  · left; exact ⟨i, h1, h2, fun j hj hc => h3 j hj _ hc rfl⟩
  · right; left; exact ⟨h0, i, e.2, h1, h2, fun j w hj hc => h3 j hj _ hc rfl⟩
  · right; right; exact ⟨fun j w hc => h0 j _ hc rfl, h1⟩

/-- The three cases: the header itself (the newer of two equal ones), the name only, neither. -/
example : let t := Table.ofEntries [([1], [2]), ([1], [3]), ([1], [3])] 200
    t.WF ∧ t.find [1] [3] = some (some (63, true)) ∧ t.find [1] [4] = some (some (62, false)) ∧ t.find [2] [3] = some none :=
  ⟨⟨by unfold Dynamic.Acc; decide +kernel, by decide +kernel⟩, by decide +kernel, by decide +kernel, by decide +kernel⟩

/-! Concrete cases that meet the hypotheses of the theorems above. -/
example : (Table.ofEntries [([1], [2]), ([3], [4])] 200).WF := ⟨by unfold Dynamic.Acc; decide +kernel, by decide +kernel⟩
/-- C24: 40 octets are room for the newer of two entries; 300 for both. -/
example : ∃ t', (Table.ofEntries [([1], [2]), ([3], [4])] 200).updateMaxDynamicSize (ε := Unit) 40 = .ok t' ∧ t'.maxDynamicSize = 40 ∧ t'.spec.entries = [([1], [2])] :=
  ⟨Table.ofEntries [([1], [2])] 40, by decide +kernel, C22_max_is_last (Table.ofEntries [([1], [2]), ([3], [4])] 200) _ ⟨by unfold Dynamic.Acc; decide +kernel, by decide +kernel⟩ 40
    (by decide +kernel), rfl⟩
example : (Table.ofEntries [([1], [2]), ([3], [4])] 300).spec.entries = [([1], [2]), ([3], [4])] :=
  C24_raise (Table.ofEntries [([1], [2]), ([3], [4])] 200) _ ⟨by unfold Dynamic.Acc; decide +kernel, by decide +kernel⟩ 300 (by decide +kernel) (by decide +kernel)
/-- C62: 1337 with a prefix of five bits takes three octets, and no form is shorter. -/
example : ∀ hi bs', IntWire 5 hi 1337 bs' → 3 ≤ bs'.length := by
  obtain ⟨bs, h1, _, h2⟩ := C62_integer_shortest 1337 0 5 (by decide) (by decide)
  have : bs = [31, 154, 10] := by
    have h3 : encodeInteger 1337 0 5 = .ok [31, 154, 10] := by decide
    rw [h3] at h1; cases h1; rfl
  rw [this] at h2
  exact h2

end Verif.Props
