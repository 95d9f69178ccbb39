import Verif.Props.Protos
import Verif.Spec.ProtosNested
/-! Properties of messages: nesting, concatenation, compatible changes of the message type. -/
namespace Verif.Props
open Verif Verif.Spec Verif.Spec.Proto Verif.Protos

mutual
theorem encodeField_ok (f : Field) (h : GoodNested f) (dst : Bytes) :
    encodeField f dst = (.ok (nestedBytes f).length, dst ++ nestedBytes f) := by
  cases f with
  | value tag lit => simp only [encodeField, nestedBytes]; exact C56_append tag lit h dst
  | message tag fs =>
    simp only [GoodNested] at h
    obtain ⟨h1, h2, h3, h4⟩ := h
    simp only [encodeField, nestedBytes, encodeFields_ok fs h4 [], List.nil_append]
    exact C56_append tag (.bytes (messageBytes fs)) ⟨h1, h2, h3⟩ dst
theorem encodeFields_ok (fs : List Field) (h : GoodMessage fs) (dst : Bytes) :
    encodeFields fs dst = (.ok (messageBytes fs).length, dst ++ messageBytes fs) := by
  cases fs with
  | nil => simp only [encodeFields, messageBytes, List.append_nil]; rfl
  | cons f fs =>
    simp only [GoodMessage] at h
    simp only [encodeFields, messageBytes]
    refine (M.bind_of_ok (encodeField_ok f h.1 dst)).trans ?_
    refine (M.bind_of_ok (encodeFields_ok fs h.2 _)).trans ?_
    show (_, _) = (_, _)
    rw [List.length_append, List.append_assoc]
end

mutual
theorem nested_wire (chk : Bool) (f : Field) (h : GoodNested f) : ∃ r, RecordWire chk r (nestedBytes f) ∧ FieldRead chk f r := by
  cases f with
  | value tag lit =>
    simp only [GoodNested] at h
    refine ⟨(tag, wireType lit, payload lit), ?_, ?_⟩
    · simp only [nestedBytes]
      obtain ⟨h1, h2, h3⟩ := h
      simp only at h2
      exact fieldBytes_wire chk ⟨h1, by simp only; omega⟩ lit (payload_fits _ h3)
    · simp only [FieldRead]
      exact ⟨trivial, trivial, payload_converts chk lit⟩
  | message tag fs =>
    simp only [GoodNested] at h
    obtain ⟨h1, h2, h3, h4⟩ := h
    obtain ⟨recs, hw, hr⟩ := message_wire chk fs h4
    refine ⟨(tag, .lengthDelimited, messageBytes fs), ?_, ?_⟩
    · simp only [nestedBytes]
      exact fieldBytes_wire chk ⟨h1, by omega⟩ (.bytes (messageBytes fs)) h3
    · simp only [FieldRead]
      exact ⟨trivial, trivial, recs, by simpa using drain_message hw [], hr⟩
theorem message_wire (chk : Bool) (fs : List Field) (h : GoodMessage fs) :
    ∃ recs, MessageWire chk recs (messageBytes fs) ∧ FieldsRead chk fs recs := by
  cases fs with
  | nil => exact ⟨[], by simp [MessageWire, messageBytes], by simp [FieldsRead]⟩
  | cons f fs =>
    simp only [GoodMessage] at h
    obtain ⟨r, h1, h2⟩ := nested_wire chk f h.1
    obtain ⟨rs, h3, h4⟩ := message_wire chk fs h.2
    refine ⟨r :: rs, ⟨_, _, by simp only [messageBytes], h1, h3⟩, ?_⟩
    simp only [FieldsRead]
    exact ⟨r, rs, rfl, h2, h4⟩
end

/-- C72. Messages nested to any depth round trip: the message is written in the wire format, and reading it, and recursively
the payloads of its submessages, gives back every field. -/
theorem C72_nested_roundtrip (chk : Bool) (fs : List Field) (h : GoodMessage fs) (dst : Bytes) :
    encodeFields fs dst = (.ok (messageBytes fs).length, dst ++ messageBytes fs) ∧ MessageRead chk fs (messageBytes fs) := by
  refine ⟨encodeFields_ok fs h dst, ?_⟩
  obtain ⟨recs, hw, hr⟩ := message_wire chk fs h
  exact ⟨recs, by simpa using drain_message hw [], hr⟩

example : GoodMessage [.value 1 (.bool true), .message 2 [.message 3 [], .value 1 (.int32 5)]] := by
  simp [GoodMessage, GoodNested, GoodField, Fits, messageBytes, nestedBytes, fieldBytes, record, payload, wireType, varint_lt, twos, typNum]
example : encodeFields [.value 1 (.bool true), .message 2 [.message 3 [], .value 1 (.int32 5)]] [] =
    (.ok 8, [8, 1, 18, 4, 26, 0, 8, 5]) := by decide

/-- C78. Concatenating messages concatenates their fields: if each part is read as a list of fields, the concatenation is read
as the concatenation of the lists. -/
theorem C78_concat (chk : Bool) (ms : List (Bytes × List Rec))
    (h : ∀ m ∈ ms, drain chk (DState.fresh m.1 []) = (.ok (), DState.fresh [] m.2)) (dst : List Rec) :
    drain chk (DState.fresh (ms.flatMap (·.1)) dst) = (.ok (), DState.fresh [] (dst ++ ms.flatMap (·.2))) := by
  have key : MessageWire chk (ms.flatMap (·.2)) (ms.flatMap (·.1)) := by
    induction ms with
    | nil => rfl
    | cons m ms ih =>
      rw [List.flatMap_cons, List.flatMap_cons]
      refine messageWire_append ((C64_exactly_the_format chk m.1 m.2 []).mp ?_) (ih fun m hm => h m (List.mem_cons_of_mem _ hm))
      simpa using h m List.mem_cons_self
  exact drain_message key dst

example : drain true (DState.fresh ([8, 1] ++ [18, 1, 7]) []) = (.ok (), DState.fresh [] [(1, .varint, [1]), (2, .lengthDelimited, [7])]) := by
  decide

/-! ### Changes of the message type -/

/-- C73: a field is delivered with exactly the payload of the wire format, to which the following theorems refer. -/
theorem C73_delivered (chk : Bool) (tag : UInt32) (lit : EncoderLit) (h : GoodField (tag, lit)) (dst : List Rec) :
    ∃ bs, Encoder.encode vecWriter tag lit [] = (.ok bs.length, bs) ∧
      decode chk (DState.fresh bs dst) = (.ok bs.length, DState.fresh [] (dst ++ [(tag, wireType lit, payload lit)])) := by
  refine ⟨fieldBytes tag.toNat lit, C56_append tag lit h [], ?_⟩
  obtain ⟨h1, h2, h3⟩ := h
  have hw := fieldBytes_wire chk ⟨h1, by omega⟩ lit (payload_fits _ h3)
  by_cases he : payload lit = []
  · have := decode_message_empty (chk := chk) (rs := []) (m := []) rfl (by simp) hw he [] dst
    simpa using this
  · exact decode_message (messageWire_single hw) (by simpa using he) dst

/-- The integer a varint format stands for on the wire; `none` for other formats. -/
def intValue : EncoderLit → Option Int
  | .bool v => some v.toNat
  | .int32 v => some v.toInt
  | .int64 v => some v.toInt
  | .uint32 v => some v.toNat
  | .uint64 v => some v.toNat
  | _ => none

theorem item_any {chk : Bool} {α : Type} {dec : Bytes → Res DecoderError (α × Nat)} {f : Nat → α} {z : Int} {p : Bool} (d : α)
    (hr : Reads p dec (VarintItem chk f)) : unwrapScalar d (dec (varint (twos 64 z))) = .ok (f (twos 64 z)) :=
  unwrapScalar_ok hr ⟨_, varint_wire chk (twos_lt z), rfl⟩ d

theorem payload_intValue {lit : EncoderLit} {z : Int} (h : intValue lit = some z) : payload lit = varint (twos 64 z) := by
  have nat : ∀ n : Nat, n < 2 ^ 64 → twos 64 (n : Int) = n := by
    intro n hn
    unfold twos
    omega
  cases lit <;> simp only [intValue, Option.some.injEq, reduceCtorEq] at h <;> subst h <;> simp only [payload]
  · rw [nat _ (bool_lt _)]
  · rw [nat _ (u32_lt _)]
  · rw [nat _ (UInt64.toNat_lt _)]

/-- C73, varint formats: a value written as `bool`, `int32`, `int64`, `uint32` or `uint64` and read as another of these formats
gives the value that a cast between the Rust types gives: the number modulo 2^32 or 2^64, signed or unsigned; for `bool` whether it is not 0. -/
theorem C73_varint_formats (chk : Bool) (lit : EncoderLit) (z : Int) (h : intValue lit = some z) :
    DecoderLit.toBool chk (.bool (payload lit)) = .ok (decide (z ≠ 0)) ∧
    DecoderLit.toI32 chk (.int32 (payload lit)) = .ok (Int32.ofInt z) ∧
    DecoderLit.toI64 chk (.int64 (payload lit)) = .ok (Int64.ofInt z) ∧
    DecoderLit.toU32 chk (.uint32 (payload lit)) = .ok (UInt32.ofNat (twos 32 z)) ∧
    DecoderLit.toU64 chk (.uint64 (payload lit)) = .ok (UInt64.ofNat (twos 64 z)) := by
  have hz : z ≠ 0 ↔ twos 64 z ≠ 0 := by
    cases lit <;> simp only [intValue, Option.some.injEq, reduceCtorEq] at h <;> subst h <;> unfold twos
    · rename_i v; have := bool_lt v; omega
    · rename_i v; have := v.toInt_lt; have := v.le_toInt; omega
    · rename_i v; have := v.toInt_lt; have := v.le_toInt; omega
    · rename_i v; have := u32_lt v; omega
    · rename_i v; have := v.toNat_lt; omega
  rw [payload_intValue h]
  refine ⟨?_, ?_, ?_, ?_, ?_⟩
  · refine (item_any false (reads_bool chk)).trans ?_
    simp only [hz]
  · refine (item_any 0 (reads_int32 chk)).trans ?_
    exact congrArg Res.ok (Int32.toBitVec_inj.mp (ofInt_twos (by decide) z))
  · refine (item_any 0 (reads_int64 chk)).trans ?_
    exact congrArg Res.ok (Int64.toBitVec_inj.mp (ofInt_twos (by decide) z))
  · refine (item_any 0 (reads_uint32 chk)).trans ?_
    refine congrArg Res.ok (UInt32.toNat_inj.mp ?_)
    simp only [UInt32.toNat_ofNat', twos]
    omega
  · exact item_any 0 (reads_uint64 chk)

example : intValue (.int64 (-4294967295)) = some (-4294967295) ∧
    DecoderLit.toI32 true (.int32 (payload (.int64 (-4294967295)))) = .ok 1 := by
  refine ⟨by decide, ?_⟩
  rw [(C73_varint_formats true (.int64 (-4294967295)) _ rfl).2.1]
  decide

/-- C73, `sint32` and `sint64` read as each other: the value modulo 2^32. -/
theorem C73_sint (chk : Bool) :
    (∀ v : Int32, DecoderLit.toI64 chk (.sint64 (payload (.sint32 v))) = .ok (Int64.ofInt v.toInt)) ∧
    (∀ v : Int64, DecoderLit.toI32 chk (.sint32 (payload (.sint64 v))) = .ok (Int32.ofInt v.toInt)) := by
  constructor
  · intro v
    refine (unwrapScalar_ok (reads_sint64 chk) ⟨_, varint_wire chk (zigzag32_lt v), rfl⟩ 0).trans ?_
    simp only [unzigzag_zigzag]
  · intro v
    refine (unwrapScalar_ok (reads_sint32 chk) ⟨_, varint_wire chk (zigzag64_lt v), rfl⟩ 0).trans ?_
    simp only [unzigzag_zigzag]

/-- C73, `fixed` and `sfixed` of the same size read as each other: the same bits. -/
theorem C73_fixed (chk : Bool) :
    (∀ v : UInt32, DecoderLit.toI32 chk (.sfixed32 (payload (.fixed32 v))) = .ok v.toInt32) ∧
    (∀ v : Int32, DecoderLit.toU32 chk (.fixed32 (payload (.sfixed32 v))) = .ok v.toUInt32) ∧
    (∀ v : UInt64, DecoderLit.toI64 chk (.sfixed64 (payload (.fixed64 v))) = .ok v.toInt64) ∧
    (∀ v : Int64, DecoderLit.toU64 chk (.fixed64 (payload (.sfixed64 v))) = .ok v.toUInt64) := by
  refine ⟨?_, ?_, ?_, ?_⟩
  · intro v
    refine (unwrapScalar_ok reads_sfixed32 ⟨le_length 4 _, rfl⟩ (0 : Int32)).trans ?_
    rw [leVal_le 4 _ v.toNat_lt]
    refine congrArg Res.ok (Int32.toBitVec_inj.mp ?_)
    show BitVec.ofInt 32 (v.toNat : Int) = v.toBitVec
    simp
  · intro v
    refine (unwrapScalar_ok reads_fixed32 ⟨le_length 4 _, rfl⟩ (0 : UInt32)).trans ?_
    rw [leVal_le 4 _ (twos_lt (m := 32) _), ← int32_toNat]
    simp
  · intro v
    refine (unwrapScalar_ok reads_sfixed64 ⟨le_length 8 _, rfl⟩ (0 : Int64)).trans ?_
    rw [leVal_le 8 _ v.toNat_lt]
    refine congrArg Res.ok (Int64.toBitVec_inj.mp ?_)
    show BitVec.ofInt 64 (v.toNat : Int) = v.toBitVec
    simp
  · intro v
    refine (unwrapScalar_ok reads_fixed64 ⟨le_length 8 _, rfl⟩ (0 : UInt64)).trans ?_
    rw [leVal_le 8 _ (twos_lt (m := 64) _), ← int64_toNat]
    simp

end Verif.Props
