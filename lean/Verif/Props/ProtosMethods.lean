import Verif.Props.Protos
import Verif.Props.ProtosWire
/-! Property theorem C133: the encoding methods of the protos encoder, called directly. -/
namespace Verif.Props
open Verif Verif.Spec Verif.Spec.Proto Verif.Protos

/-- C133. Each of the 27 methods, called directly with a valid tag, appends the field in its format and returns the number of bytes. -/
theorem C133_methods (tag : UInt32) (h1 : 1 ≤ tag.toNat) (h2 : tag.toNat ≤ 2 ^ 29 - 1) (dst : Bytes) :
    let appends (r : Res EncoderError Nat × Bytes) (typ : Typ) (p : Bytes) : Prop :=
      r = (.ok (record tag.toNat typ p).length, dst ++ record tag.toNat typ p)
    (∀ v : Bool, appends (Encoder.bool vecWriter tag v dst) .varint (varint v.toNat)) ∧
    (∀ v : Int32, appends (Encoder.int32 vecWriter tag v dst) .varint (varint (twos 64 v.toInt))) ∧
    (∀ v : Int64, appends (Encoder.int64 vecWriter tag v dst) .varint (varint (twos 64 v.toInt))) ∧
    (∀ v : UInt32, appends (Encoder.uint32 vecWriter tag v dst) .varint (varint v.toNat)) ∧
    (∀ v : UInt64, appends (Encoder.uint64 vecWriter tag v dst) .varint (varint v.toNat)) ∧
    (∀ v : Int32, appends (Encoder.sint32 vecWriter tag v dst) .varint (varint (zigzag v.toInt))) ∧
    (∀ v : Int64, appends (Encoder.sint64 vecWriter tag v dst) .varint (varint (zigzag v.toInt))) ∧
    (∀ v : UInt32, appends (Encoder.fixed32 vecWriter tag v dst) .bit32 (le 4 v.toNat)) ∧
    (∀ v : UInt64, appends (Encoder.fixed64 vecWriter tag v dst) .bit64 (le 8 v.toNat)) ∧
    (∀ v : Int32, appends (Encoder.sfixed32 vecWriter tag v dst) .bit32 (le 4 (twos 32 v.toInt))) ∧
    (∀ v : Int64, appends (Encoder.sfixed64 vecWriter tag v dst) .bit64 (le 8 (twos 64 v.toInt))) ∧
    (∀ v : UInt32, appends (Encoder.float vecWriter tag v dst) .bit32 (le 4 v.toNat)) ∧
    (∀ v : UInt64, appends (Encoder.double vecWriter tag v dst) .bit64 (le 8 v.toNat)) ∧
    (∀ v : Bytes, v.length < 2 ^ 64 → appends (Encoder.bytes vecWriter tag v dst) .lengthDelimited v) ∧
    (∀ vs : List Bool, 10 * vs.length < 2 ^ 64 → appends (Encoder.boolVec vecWriter tag vs dst) .lengthDelimited (vs.flatMap fun v => varint v.toNat)) ∧
    (∀ vs : List Int32, 10 * vs.length < 2 ^ 64 → appends (Encoder.int32Vec vecWriter tag vs dst) .lengthDelimited (vs.flatMap fun v => varint (twos 64 v.toInt))) ∧
    (∀ vs : List Int64, 10 * vs.length < 2 ^ 64 → appends (Encoder.int64Vec vecWriter tag vs dst) .lengthDelimited (vs.flatMap fun v => varint (twos 64 v.toInt))) ∧
    (∀ vs : List UInt32, 10 * vs.length < 2 ^ 64 → appends (Encoder.uint32Vec vecWriter tag vs dst) .lengthDelimited (vs.flatMap fun v => varint v.toNat)) ∧
    (∀ vs : List UInt64, 10 * vs.length < 2 ^ 64 → appends (Encoder.uint64Vec vecWriter tag vs dst) .lengthDelimited (vs.flatMap fun v => varint v.toNat)) ∧
    (∀ vs : List Int32, 10 * vs.length < 2 ^ 64 → appends (Encoder.sint32Vec vecWriter tag vs dst) .lengthDelimited (vs.flatMap fun v => varint (zigzag v.toInt))) ∧
    (∀ vs : List Int64, 10 * vs.length < 2 ^ 64 → appends (Encoder.sint64Vec vecWriter tag vs dst) .lengthDelimited (vs.flatMap fun v => varint (zigzag v.toInt))) ∧
    (∀ vs : List UInt32, 10 * vs.length < 2 ^ 64 → appends (Encoder.fixed32Vec vecWriter tag vs dst) .lengthDelimited (vs.flatMap fun v => le 4 v.toNat)) ∧
    (∀ vs : List UInt64, 10 * vs.length < 2 ^ 64 → appends (Encoder.fixed64Vec vecWriter tag vs dst) .lengthDelimited (vs.flatMap fun v => le 8 v.toNat)) ∧
    (∀ vs : List Int32, 10 * vs.length < 2 ^ 64 → appends (Encoder.sfixed32Vec vecWriter tag vs dst) .lengthDelimited (vs.flatMap fun v => le 4 (twos 32 v.toInt))) ∧
    (∀ vs : List Int64, 10 * vs.length < 2 ^ 64 → appends (Encoder.sfixed64Vec vecWriter tag vs dst) .lengthDelimited (vs.flatMap fun v => le 8 (twos 64 v.toInt))) ∧
    (∀ vs : List UInt32, 10 * vs.length < 2 ^ 64 → appends (Encoder.floatVec vecWriter tag vs dst) .lengthDelimited (vs.flatMap fun v => le 4 v.toNat)) ∧
    (∀ vs : List UInt64, 10 * vs.length < 2 ^ 64 → appends (Encoder.doubleVec vecWriter tag vs dst) .lengthDelimited (vs.flatMap fun v => le 8 v.toNat)) :=
  ⟨fun v => C56_append tag (.bool v) ⟨h1, h2, trivial⟩ dst,
    fun v => C56_append tag (.int32 v) ⟨h1, h2, trivial⟩ dst,
    fun v => C56_append tag (.int64 v) ⟨h1, h2, trivial⟩ dst,
    fun v => C56_append tag (.uint32 v) ⟨h1, h2, trivial⟩ dst,
    fun v => C56_append tag (.uint64 v) ⟨h1, h2, trivial⟩ dst,
    fun v => C56_append tag (.sint32 v) ⟨h1, h2, trivial⟩ dst,
    fun v => C56_append tag (.sint64 v) ⟨h1, h2, trivial⟩ dst,
    fun v => C56_append tag (.fixed32 v) ⟨h1, h2, trivial⟩ dst,
    fun v => C56_append tag (.fixed64 v) ⟨h1, h2, trivial⟩ dst,
    fun v => C56_append tag (.sfixed32 v) ⟨h1, h2, trivial⟩ dst,
    fun v => C56_append tag (.sfixed64 v) ⟨h1, h2, trivial⟩ dst,
    fun v => C56_append tag (.float v) ⟨h1, h2, trivial⟩ dst,
    fun v => C56_append tag (.double v) ⟨h1, h2, trivial⟩ dst,
    fun v h => C56_append tag (.bytes v) ⟨h1, h2, h⟩ dst,
    fun v h => C56_append tag (.boolVec v) ⟨h1, h2, h⟩ dst,
    fun v h => C56_append tag (.int32Vec v) ⟨h1, h2, h⟩ dst,
    fun v h => C56_append tag (.int64Vec v) ⟨h1, h2, h⟩ dst,
    fun v h => C56_append tag (.uint32Vec v) ⟨h1, h2, h⟩ dst,
    fun v h => C56_append tag (.uint64Vec v) ⟨h1, h2, h⟩ dst,
    fun v h => C56_append tag (.sint32Vec v) ⟨h1, h2, h⟩ dst,
    fun v h => C56_append tag (.sint64Vec v) ⟨h1, h2, h⟩ dst,
    fun v h => C56_append tag (.fixed32Vec v) ⟨h1, h2, h⟩ dst,
    fun v h => C56_append tag (.fixed64Vec v) ⟨h1, h2, h⟩ dst,
    fun v h => C56_append tag (.sfixed32Vec v) ⟨h1, h2, h⟩ dst,
    fun v h => C56_append tag (.sfixed64Vec v) ⟨h1, h2, h⟩ dst,
    fun v h => C56_append tag (.floatVec v) ⟨h1, h2, h⟩ dst,
    fun v h => C56_append tag (.doubleVec v) ⟨h1, h2, h⟩ dst⟩

/-- C133. With any writer, valid or invalid tag, each method does what `encode` does with the literal of the same name: same result, same
calls of the writer. -/
theorem C133_as_encode {σ : Type} (w : Writer σ) (tag : UInt32) (s : σ) :
    (∀ v : Bool, Encoder.bool w tag v s = Encoder.encode w tag (.bool v) s) ∧
    (∀ v : Int32, Encoder.int32 w tag v s = Encoder.encode w tag (.int32 v) s) ∧
    (∀ v : Int64, Encoder.int64 w tag v s = Encoder.encode w tag (.int64 v) s) ∧
    (∀ v : UInt32, Encoder.uint32 w tag v s = Encoder.encode w tag (.uint32 v) s) ∧
    (∀ v : UInt64, Encoder.uint64 w tag v s = Encoder.encode w tag (.uint64 v) s) ∧
    (∀ v : Int32, Encoder.sint32 w tag v s = Encoder.encode w tag (.sint32 v) s) ∧
    (∀ v : Int64, Encoder.sint64 w tag v s = Encoder.encode w tag (.sint64 v) s) ∧
    (∀ v : UInt32, Encoder.fixed32 w tag v s = Encoder.encode w tag (.fixed32 v) s) ∧
    (∀ v : UInt64, Encoder.fixed64 w tag v s = Encoder.encode w tag (.fixed64 v) s) ∧
    (∀ v : Int32, Encoder.sfixed32 w tag v s = Encoder.encode w tag (.sfixed32 v) s) ∧
    (∀ v : Int64, Encoder.sfixed64 w tag v s = Encoder.encode w tag (.sfixed64 v) s) ∧
    (∀ v : UInt32, Encoder.float w tag v s = Encoder.encode w tag (.float v) s) ∧
    (∀ v : UInt64, Encoder.double w tag v s = Encoder.encode w tag (.double v) s) ∧
    (∀ v : Bytes, Encoder.bytes w tag v s = Encoder.encode w tag (.bytes v) s) ∧
    (∀ vs : List Bool, Encoder.boolVec w tag vs s = Encoder.encode w tag (.boolVec vs) s) ∧
    (∀ vs : List Int32, Encoder.int32Vec w tag vs s = Encoder.encode w tag (.int32Vec vs) s) ∧
    (∀ vs : List Int64, Encoder.int64Vec w tag vs s = Encoder.encode w tag (.int64Vec vs) s) ∧
    (∀ vs : List UInt32, Encoder.uint32Vec w tag vs s = Encoder.encode w tag (.uint32Vec vs) s) ∧
    (∀ vs : List UInt64, Encoder.uint64Vec w tag vs s = Encoder.encode w tag (.uint64Vec vs) s) ∧
    (∀ vs : List Int32, Encoder.sint32Vec w tag vs s = Encoder.encode w tag (.sint32Vec vs) s) ∧
    (∀ vs : List Int64, Encoder.sint64Vec w tag vs s = Encoder.encode w tag (.sint64Vec vs) s) ∧
    (∀ vs : List UInt32, Encoder.fixed32Vec w tag vs s = Encoder.encode w tag (.fixed32Vec vs) s) ∧
    (∀ vs : List UInt64, Encoder.fixed64Vec w tag vs s = Encoder.encode w tag (.fixed64Vec vs) s) ∧
    (∀ vs : List Int32, Encoder.sfixed32Vec w tag vs s = Encoder.encode w tag (.sfixed32Vec vs) s) ∧
    (∀ vs : List Int64, Encoder.sfixed64Vec w tag vs s = Encoder.encode w tag (.sfixed64Vec vs) s) ∧
    (∀ vs : List UInt32, Encoder.floatVec w tag vs s = Encoder.encode w tag (.floatVec vs) s) ∧
    (∀ vs : List UInt64, Encoder.doubleVec w tag vs s = Encoder.encode w tag (.doubleVec vs) s) :=
  ⟨fun _ => rfl, fun _ => rfl, fun _ => rfl, fun _ => rfl, fun _ => rfl, fun _ => rfl, fun _ => rfl, fun _ => rfl, fun _ => rfl, fun _ => rfl, fun _ => rfl, fun _ => rfl, fun _ => rfl, fun _ => rfl, fun _ => rfl, fun _ => rfl, fun _ => rfl, fun _ => rfl, fun _ => rfl, fun _ => rfl, fun _ => rfl, fun _ => rfl, fun _ => rfl, fun _ => rfl, fun _ => rfl, fun _ => rfl, fun _ => rfl⟩

/-- C133. An invalid tag is refused by each method and the writer is not touched. -/
theorem C133_invalid_tag {σ : Type} (w : Writer σ) (s : σ) (tag : UInt32) (h : tag.toNat = 0 ∨ 2 ^ 29 ≤ tag.toNat) :
    (∀ v : Bool, Encoder.bool w tag v s = (.err .invalidTag, s)) ∧
    (∀ v : Int32, Encoder.int32 w tag v s = (.err .invalidTag, s)) ∧
    (∀ v : Int64, Encoder.int64 w tag v s = (.err .invalidTag, s)) ∧
    (∀ v : UInt32, Encoder.uint32 w tag v s = (.err .invalidTag, s)) ∧
    (∀ v : UInt64, Encoder.uint64 w tag v s = (.err .invalidTag, s)) ∧
    (∀ v : Int32, Encoder.sint32 w tag v s = (.err .invalidTag, s)) ∧
    (∀ v : Int64, Encoder.sint64 w tag v s = (.err .invalidTag, s)) ∧
    (∀ v : UInt32, Encoder.fixed32 w tag v s = (.err .invalidTag, s)) ∧
    (∀ v : UInt64, Encoder.fixed64 w tag v s = (.err .invalidTag, s)) ∧
    (∀ v : Int32, Encoder.sfixed32 w tag v s = (.err .invalidTag, s)) ∧
    (∀ v : Int64, Encoder.sfixed64 w tag v s = (.err .invalidTag, s)) ∧
    (∀ v : UInt32, Encoder.float w tag v s = (.err .invalidTag, s)) ∧
    (∀ v : UInt64, Encoder.double w tag v s = (.err .invalidTag, s)) ∧
    (∀ v : Bytes, Encoder.bytes w tag v s = (.err .invalidTag, s)) ∧
    (∀ vs : List Bool, Encoder.boolVec w tag vs s = (.err .invalidTag, s)) ∧
    (∀ vs : List Int32, Encoder.int32Vec w tag vs s = (.err .invalidTag, s)) ∧
    (∀ vs : List Int64, Encoder.int64Vec w tag vs s = (.err .invalidTag, s)) ∧
    (∀ vs : List UInt32, Encoder.uint32Vec w tag vs s = (.err .invalidTag, s)) ∧
    (∀ vs : List UInt64, Encoder.uint64Vec w tag vs s = (.err .invalidTag, s)) ∧
    (∀ vs : List Int32, Encoder.sint32Vec w tag vs s = (.err .invalidTag, s)) ∧
    (∀ vs : List Int64, Encoder.sint64Vec w tag vs s = (.err .invalidTag, s)) ∧
    (∀ vs : List UInt32, Encoder.fixed32Vec w tag vs s = (.err .invalidTag, s)) ∧
    (∀ vs : List UInt64, Encoder.fixed64Vec w tag vs s = (.err .invalidTag, s)) ∧
    (∀ vs : List Int32, Encoder.sfixed32Vec w tag vs s = (.err .invalidTag, s)) ∧
    (∀ vs : List Int64, Encoder.sfixed64Vec w tag vs s = (.err .invalidTag, s)) ∧
    (∀ vs : List UInt32, Encoder.floatVec w tag vs s = (.err .invalidTag, s)) ∧
    (∀ vs : List UInt64, Encoder.doubleVec w tag vs s = (.err .invalidTag, s)) :=
  ⟨fun v => (C49_invalid_tag w s tag h).2 (.bool v),
    fun v => (C49_invalid_tag w s tag h).2 (.int32 v),
    fun v => (C49_invalid_tag w s tag h).2 (.int64 v),
    fun v => (C49_invalid_tag w s tag h).2 (.uint32 v),
    fun v => (C49_invalid_tag w s tag h).2 (.uint64 v),
    fun v => (C49_invalid_tag w s tag h).2 (.sint32 v),
    fun v => (C49_invalid_tag w s tag h).2 (.sint64 v),
    fun v => (C49_invalid_tag w s tag h).2 (.fixed32 v),
    fun v => (C49_invalid_tag w s tag h).2 (.fixed64 v),
    fun v => (C49_invalid_tag w s tag h).2 (.sfixed32 v),
    fun v => (C49_invalid_tag w s tag h).2 (.sfixed64 v),
    fun v => (C49_invalid_tag w s tag h).2 (.float v),
    fun v => (C49_invalid_tag w s tag h).2 (.double v),
    fun v => (C49_invalid_tag w s tag h).2 (.bytes v),
    fun v => (C49_invalid_tag w s tag h).2 (.boolVec v),
    fun v => (C49_invalid_tag w s tag h).2 (.int32Vec v),
    fun v => (C49_invalid_tag w s tag h).2 (.int64Vec v),
    fun v => (C49_invalid_tag w s tag h).2 (.uint32Vec v),
    fun v => (C49_invalid_tag w s tag h).2 (.uint64Vec v),
    fun v => (C49_invalid_tag w s tag h).2 (.sint32Vec v),
    fun v => (C49_invalid_tag w s tag h).2 (.sint64Vec v),
    fun v => (C49_invalid_tag w s tag h).2 (.fixed32Vec v),
    fun v => (C49_invalid_tag w s tag h).2 (.fixed64Vec v),
    fun v => (C49_invalid_tag w s tag h).2 (.sfixed32Vec v),
    fun v => (C49_invalid_tag w s tag h).2 (.sfixed64Vec v),
    fun v => (C49_invalid_tag w s tag h).2 (.floatVec v),
    fun v => (C49_invalid_tag w s tag h).2 (.doubleVec v)⟩

/-- A tag within the bounds and a value that needs two bytes: the method `encode_sint32` called directly. -/
example : Encoder.sint32 vecWriter 3 (-100) [7] = (.ok 3, [7, 24, 0xc7, 1]) := by decide +kernel
/-- An invalid tag. -/
example : Encoder.sint32Vec vecWriter 0 [1, -100] [7] = (.err .invalidTag, [7]) := by decide +kernel

end Verif.Props
