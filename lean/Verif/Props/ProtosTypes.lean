import Verif.Props.ProtosPacked
import Verif.Lemmas.ProtosText
/-! Properties of the conversions between Rust types and `EncoderLit`/`DecoderLit`, of nested messages and of changes of the
message type. -/
namespace Verif.Props
open Verif Verif.Spec Verif.Spec.Proto Verif.Protos

/-! ### Conversions -/

/-- C67. A `DecoderLit` converted into a Rust type that does not belong to its variant gives the default value of the type,
whatever bytes it holds. -/
theorem C67_other_variant (chk : Bool) (lit : DecoderLit) :
    ((∀ b, lit ≠ .bool b) → DecoderLit.toBool chk lit = .ok false) ∧
    ((∀ b, lit ≠ .boolVec b) → DecoderLit.toBoolVec chk lit = .ok []) ∧
    ((∀ b, lit ≠ .int32 b ∧ lit ≠ .sint32 b ∧ lit ≠ .sfixed32 b) → DecoderLit.toI32 chk lit = .ok 0) ∧
    ((∀ b, lit ≠ .int32Vec b ∧ lit ≠ .sint32Vec b ∧ lit ≠ .sfixed32Vec b) → DecoderLit.toI32Vec chk lit = .ok []) ∧
    ((∀ b, lit ≠ .int64 b ∧ lit ≠ .sint64 b ∧ lit ≠ .sfixed64 b) → DecoderLit.toI64 chk lit = .ok 0) ∧
    ((∀ b, lit ≠ .int64Vec b ∧ lit ≠ .sint64Vec b ∧ lit ≠ .sfixed64Vec b) → DecoderLit.toI64Vec chk lit = .ok []) ∧
    ((∀ b, lit ≠ .uint32 b ∧ lit ≠ .fixed32 b) → DecoderLit.toU32 chk lit = .ok 0) ∧
    ((∀ b, lit ≠ .uint32Vec b ∧ lit ≠ .fixed32Vec b) → DecoderLit.toU32Vec chk lit = .ok []) ∧
    ((∀ b, lit ≠ .uint64 b ∧ lit ≠ .fixed64 b) → DecoderLit.toU64 chk lit = .ok 0) ∧
    ((∀ b, lit ≠ .uint64Vec b ∧ lit ≠ .fixed64Vec b) → DecoderLit.toU64Vec chk lit = .ok []) ∧
    ((∀ b, lit ≠ .float b) → DecoderLit.toF32 lit = .ok 0) ∧
    ((∀ b, lit ≠ .floatVec b) → DecoderLit.toF32Vec lit = .ok []) ∧
    ((∀ b, lit ≠ .double b) → DecoderLit.toF64 lit = .ok 0) ∧
    ((∀ b, lit ≠ .doubleVec b) → DecoderLit.toF64Vec lit = .ok []) ∧
    ((∀ b, lit ≠ .bytes b) → DecoderLit.toBytes lit = []) ∧
    ((∀ b, lit ≠ .bytes b) → DecoderLit.toStr lit = "") := by
  cases lit with
  | _ b =>
    refine ⟨?_, ?_, ?_, ?_, ?_, ?_, ?_, ?_, ?_, ?_, ?_, ?_, ?_, ?_, ?_, ?_⟩ <;> intro h <;>
      first
      | rfl
      | exact absurd rfl (h b)
      | exact absurd rfl (h b).1
      | exact absurd rfl (h b).2
      | exact absurd rfl (h b).2.1
      | exact absurd rfl (h b).2.2

example : DecoderLit.toI32 true (.int64 [5]) = .ok 0 ∧ DecoderLit.toBool true (.int32 [1]) = .ok false := by decide

/-- C69. `EncoderLit::from(&value)` and `encode` write a value of a Rust type in the format with the same name: `bool`, `int32`,
`int64`, `uint32`, `uint64` as varint (negative numbers as 64-bit two's complement), `f32` and `f64` little-endian, vectors
packed, byte vectors as they are. -/
theorem C69_natural_format (tag : UInt32) (h1 : 1 ≤ tag.toNat) (h2 : tag.toNat ≤ 2 ^ 29 - 1) (dst : Bytes) :
    let writes (lit : EncoderLit) (bs : Bytes) := Encoder.encode vecWriter tag lit dst = (.ok bs.length, dst ++ bs)
    let packed (p : Bytes) := record tag.toNat .lengthDelimited p
    (∀ v, writes (.ofBool v) (record tag.toNat .varint [if v then 1 else 0])) ∧
    (∀ v : Int32, writes (.ofI32 v) (record tag.toNat .varint (varint (twos 64 v.toInt)))) ∧
    (∀ v : Int64, writes (.ofI64 v) (record tag.toNat .varint (varint (twos 64 v.toInt)))) ∧
    (∀ v : UInt32, writes (.ofU32 v) (record tag.toNat .varint (varint v.toNat))) ∧
    (∀ v : UInt64, writes (.ofU64 v) (record tag.toNat .varint (varint v.toNat))) ∧
    (∀ v : UInt32, writes (.ofF32 v) (record tag.toNat .bit32 (le 4 v.toNat))) ∧
    (∀ v : UInt64, writes (.ofF64 v) (record tag.toNat .bit64 (le 8 v.toNat))) ∧
    (∀ v : Bytes, v.length < 2 ^ 64 → writes (.ofBytes v) (packed v)) ∧
    (∀ vs : List Bool, 10 * vs.length < 2 ^ 64 → writes (.ofBoolVec vs) (packed (vs.map fun v => if v then 1 else 0))) ∧
    (∀ vs : List Int32, 10 * vs.length < 2 ^ 64 → writes (.ofI32Vec vs) (packed (vs.flatMap fun v => varint (twos 64 v.toInt)))) ∧
    (∀ vs : List Int64, 10 * vs.length < 2 ^ 64 → writes (.ofI64Vec vs) (packed (vs.flatMap fun v => varint (twos 64 v.toInt)))) ∧
    (∀ vs : List UInt32, 10 * vs.length < 2 ^ 64 → writes (.ofU32Vec vs) (packed (vs.flatMap fun v => varint v.toNat))) ∧
    (∀ vs : List UInt64, 10 * vs.length < 2 ^ 64 → writes (.ofU64Vec vs) (packed (vs.flatMap fun v => varint v.toNat))) ∧
    (∀ vs : List UInt32, 10 * vs.length < 2 ^ 64 → writes (.ofF32Vec vs) (packed (vs.flatMap fun v => le 4 v.toNat))) ∧
    (∀ vs : List UInt64, 10 * vs.length < 2 ^ 64 → writes (.ofF64Vec vs) (packed (vs.flatMap fun v => le 8 v.toNat))) := by
  intro writes packed
  have hb : ∀ v : Bool, varint v.toNat = [if v then 1 else 0] := by
    intro v; cases v <;> rw [varint_lt (by decide)] <;> rfl
  have hbs : ∀ vs : List Bool, (vs.flatMap fun v => varint v.toNat) = vs.map fun v => if v then 1 else 0 := by
    intro vs
    induction vs with
    | nil => rfl
    | cons v vs ih => rw [List.flatMap_cons, ih, hb]; rfl
  refine ⟨fun v => ?_, fun v => C56_append tag (.int32 v) ⟨h1, h2, trivial⟩ dst, fun v => C56_append tag (.int64 v) ⟨h1, h2, trivial⟩ dst,
    fun v => C56_append tag (.uint32 v) ⟨h1, h2, trivial⟩ dst, fun v => C56_append tag (.uint64 v) ⟨h1, h2, trivial⟩ dst,
    fun v => C56_append tag (.float v) ⟨h1, h2, trivial⟩ dst, fun v => C56_append tag (.double v) ⟨h1, h2, trivial⟩ dst,
    fun v h => C56_append tag (.bytes v) ⟨h1, h2, h⟩ dst, fun v h => ?_, fun v h => C56_append tag (.int32Vec v) ⟨h1, h2, h⟩ dst,
    fun v h => C56_append tag (.int64Vec v) ⟨h1, h2, h⟩ dst, fun v h => C56_append tag (.uint32Vec v) ⟨h1, h2, h⟩ dst,
    fun v h => C56_append tag (.uint64Vec v) ⟨h1, h2, h⟩ dst, fun v h => C56_append tag (.floatVec v) ⟨h1, h2, h⟩ dst,
    fun v h => C56_append tag (.doubleVec v) ⟨h1, h2, h⟩ dst⟩
  · rw [← hb]; exact C56_append tag (.bool v) ⟨h1, h2, trivial⟩ dst
  · rw [← hbs]; exact C56_append tag (.boolVec v) ⟨h1, h2, h⟩ dst

/-- C69, reading: what `EncoderLit::from(&value)` has written is read as one field, whose payload in the `DecoderLit` variant of
the same name converts back into the value. -/
theorem C69_natural_roundtrip (chk : Bool) (tag : UInt32) (h1 : 1 ≤ tag.toNat) (h2 : tag.toNat ≤ 2 ^ 29 - 1) :
    let reads {α : Type} (lit : EncoderLit) (t : Typ) (conv : Bytes → Res DecoderError α) (v : α) :=
      ∃ bs p, Encoder.encode vecWriter tag lit [] = (.ok bs.length, bs) ∧
        decode chk (DState.fresh bs []) = (.ok bs.length, DState.fresh [] [(tag, t, p)]) ∧ conv p = .ok v
    (∀ v, reads (.ofBool v) .varint (fun p => DecoderLit.toBool chk (.bool p)) v) ∧
    (∀ v, reads (.ofI32 v) .varint (fun p => DecoderLit.toI32 chk (.int32 p)) v) ∧
    (∀ v, reads (.ofI64 v) .varint (fun p => DecoderLit.toI64 chk (.int64 p)) v) ∧
    (∀ v, reads (.ofU32 v) .varint (fun p => DecoderLit.toU32 chk (.uint32 p)) v) ∧
    (∀ v, reads (.ofU64 v) .varint (fun p => DecoderLit.toU64 chk (.uint64 p)) v) ∧
    (∀ v, reads (.ofF32 v) .bit32 (fun p => DecoderLit.toF32 (.float p)) v) ∧
    (∀ v, reads (.ofF64 v) .bit64 (fun p => DecoderLit.toF64 (.double p)) v) ∧
    (∀ v : Bytes, v.length < 2 ^ 64 → reads (.ofBytes v) .lengthDelimited (fun p => .ok (DecoderLit.toBytes (.bytes p))) v) ∧
    (∀ vs : List Bool, 10 * vs.length < 2 ^ 64 → reads (.ofBoolVec vs) .lengthDelimited (fun p => DecoderLit.toBoolVec chk (.boolVec p)) vs) ∧
    (∀ vs : List Int32, 10 * vs.length < 2 ^ 64 → reads (.ofI32Vec vs) .lengthDelimited (fun p => DecoderLit.toI32Vec chk (.int32Vec p)) vs) ∧
    (∀ vs : List Int64, 10 * vs.length < 2 ^ 64 → reads (.ofI64Vec vs) .lengthDelimited (fun p => DecoderLit.toI64Vec chk (.int64Vec p)) vs) ∧
    (∀ vs : List UInt32, 10 * vs.length < 2 ^ 64 → reads (.ofU32Vec vs) .lengthDelimited (fun p => DecoderLit.toU32Vec chk (.uint32Vec p)) vs) ∧
    (∀ vs : List UInt64, 10 * vs.length < 2 ^ 64 → reads (.ofU64Vec vs) .lengthDelimited (fun p => DecoderLit.toU64Vec chk (.uint64Vec p)) vs) ∧
    (∀ vs : List UInt32, 10 * vs.length < 2 ^ 64 → reads (.ofF32Vec vs) .lengthDelimited (fun p => DecoderLit.toF32Vec (.floatVec p)) vs) ∧
    (∀ vs : List UInt64, 10 * vs.length < 2 ^ 64 → reads (.ofF64Vec vs) .lengthDelimited (fun p => DecoderLit.toF64Vec (.doubleVec p)) vs) := by
  intro reads
  have key : ∀ lit, Fits lit → ∃ bs p, Encoder.encode vecWriter tag lit [] = (.ok bs.length, bs) ∧
      decode chk (DState.fresh bs []) = (.ok bs.length, DState.fresh [] [(tag, wireType lit, p)]) ∧ ConvertsBack chk p lit :=
    fun lit h => C48_field_roundtrip chk tag lit ⟨h1, h2, h⟩ []
  refine ⟨fun v => key (.bool v) trivial, fun v => key (.int32 v) trivial, fun v => key (.int64 v) trivial,
    fun v => key (.uint32 v) trivial, fun v => key (.uint64 v) trivial, fun v => key (.float v) trivial, fun v => key (.double v) trivial,
    fun v h => ?_, fun v h => key (.boolVec v) h, fun v h => key (.int32Vec v) h, fun v h => key (.int64Vec v) h,
    fun v h => key (.uint32Vec v) h, fun v h => key (.uint64Vec v) h, fun v h => key (.floatVec v) h, fun v h => key (.doubleVec v) h⟩
  obtain ⟨bs, p, a, b, c⟩ := key (.bytes v) h
  exact ⟨bs, p, a, b, congrArg Res.ok c⟩

example : Encoder.encode vecWriter 1 (.ofI32 (-1)) [] = (.ok 11, [8, 255, 255, 255, 255, 255, 255, 255, 255, 255, 1]) := by decide

/-- C70. Text written as bytes (`s.into_bytes()`) comes back as the same text. -/
theorem C70_text_roundtrip (chk : Bool) (tag : UInt32) (h1 : 1 ≤ tag.toNat) (h2 : tag.toNat ≤ 2 ^ 29 - 1) (s : String)
    (hs : (utf8Text s).length < 2 ^ 64) :
    ∃ bs p, Encoder.encode vecWriter tag (.bytes (utf8Text s)) [] = (.ok bs.length, bs) ∧
      decode chk (DState.fresh bs []) = (.ok bs.length, DState.fresh [] [(tag, .lengthDelimited, p)]) ∧
      DecoderLit.toStr (.bytes p) = s := by
  obtain ⟨bs, p, a, b, c⟩ := C48_field_roundtrip chk tag (.bytes (utf8Text s)) ⟨h1, h2, hs⟩ []
  have c : p = utf8Text s := c
  exact ⟨bs, p, a, b, by rw [c]; exact toStr_text s⟩

/-- C70, other payloads: bytes that are not the UTF-8 form of a text give the empty string; there is no partial text. -/
theorem C70_not_text (b : Bytes) (h : ¬ ∃ s, b = utf8Text s) : DecoderLit.toStr (.bytes b) = "" := toStr_invalid b h

/-- C70: the payload determines the text. -/
theorem C70_sound (b : Bytes) (h : DecoderLit.toStr (.bytes b) ≠ "") : utf8Text (DecoderLit.toStr (.bytes b)) = b := by
  by_cases hb : ∃ s, b = utf8Text s
  · obtain ⟨s, rfl⟩ := hb
    rw [toStr_text]
  · exact absurd (toStr_invalid b hb) h

example : utf8Text "aé€𐍈" = [0x61, 0xC3, 0xA9, 0xE2, 0x82, 0xAC, 0xF0, 0x90, 0x8D, 0x88] := by decide
example : ¬ ∃ s, [0xC3] = utf8Text s := by
  rintro ⟨s, h⟩
  have h1 := toStr_text s
  rw [← h] at h1
  have h2 : DecoderLit.toStr (.bytes [0xC3]) = "" := by decide
  rw [h2] at h1
  subst h1
  revert h
  decide

end Verif.Props
