import Verif.Protos.Decoder
/-! Specification: when payload bytes stand for the value of a literal. -/
namespace Verif.Spec.Proto
open Verif Verif.Protos

/-- The user puts the payload `p` into the `DecoderLit` variant of the same name as the `EncoderLit` variant and converts it
into the Rust type of the value: the result is the value that was encoded. -/
def ConvertsBack (chk : Bool) (p : Bytes) : EncoderLit → Prop
  | .bytes v => DecoderLit.toBytes (.bytes p) = v
  | .bool v => DecoderLit.toBool chk (.bool p) = .ok v
  | .int32 v => DecoderLit.toI32 chk (.int32 p) = .ok v
  | .int64 v => DecoderLit.toI64 chk (.int64 p) = .ok v
  | .uint32 v => DecoderLit.toU32 chk (.uint32 p) = .ok v
  | .uint64 v => DecoderLit.toU64 chk (.uint64 p) = .ok v
  | .sint32 v => DecoderLit.toI32 chk (.sint32 p) = .ok v
  | .sint64 v => DecoderLit.toI64 chk (.sint64 p) = .ok v
  | .fixed32 v => DecoderLit.toU32 chk (.fixed32 p) = .ok v
  | .fixed64 v => DecoderLit.toU64 chk (.fixed64 p) = .ok v
  | .sfixed32 v => DecoderLit.toI32 chk (.sfixed32 p) = .ok v
  | .sfixed64 v => DecoderLit.toI64 chk (.sfixed64 p) = .ok v
  | .float v => DecoderLit.toF32 (.float p) = .ok v
  | .double v => DecoderLit.toF64 (.double p) = .ok v
  | .boolVec vs => DecoderLit.toBoolVec chk (.boolVec p) = .ok vs
  | .int32Vec vs => DecoderLit.toI32Vec chk (.int32Vec p) = .ok vs
  | .int64Vec vs => DecoderLit.toI64Vec chk (.int64Vec p) = .ok vs
  | .uint32Vec vs => DecoderLit.toU32Vec chk (.uint32Vec p) = .ok vs
  | .uint64Vec vs => DecoderLit.toU64Vec chk (.uint64Vec p) = .ok vs
  | .sint32Vec vs => DecoderLit.toI32Vec chk (.sint32Vec p) = .ok vs
  | .sint64Vec vs => DecoderLit.toI64Vec chk (.sint64Vec p) = .ok vs
  | .fixed32Vec vs => DecoderLit.toU32Vec chk (.fixed32Vec p) = .ok vs
  | .fixed64Vec vs => DecoderLit.toU64Vec chk (.fixed64Vec p) = .ok vs
  | .sfixed32Vec vs => DecoderLit.toI32Vec chk (.sfixed32Vec p) = .ok vs
  | .sfixed64Vec vs => DecoderLit.toI64Vec chk (.sfixed64Vec p) = .ok vs
  | .floatVec vs => DecoderLit.toF32Vec (.floatVec p) = .ok vs
  | .doubleVec vs => DecoderLit.toF64Vec (.doubleVec p) = .ok vs

/-- The value takes fewer than 2^64 bytes, as everything in the memory of a 64-bit machine does: 10 bytes suffice for a number. -/
def Fits : EncoderLit → Prop
  | .bytes b => b.length < 2 ^ 64
  | .boolVec vs => 10 * vs.length < 2 ^ 64
  | .int32Vec vs => 10 * vs.length < 2 ^ 64
  | .int64Vec vs => 10 * vs.length < 2 ^ 64
  | .uint32Vec vs => 10 * vs.length < 2 ^ 64
  | .uint64Vec vs => 10 * vs.length < 2 ^ 64
  | .sint32Vec vs => 10 * vs.length < 2 ^ 64
  | .sint64Vec vs => 10 * vs.length < 2 ^ 64
  | .fixed32Vec vs => 10 * vs.length < 2 ^ 64
  | .fixed64Vec vs => 10 * vs.length < 2 ^ 64
  | .sfixed32Vec vs => 10 * vs.length < 2 ^ 64
  | .sfixed64Vec vs => 10 * vs.length < 2 ^ 64
  | .floatVec vs => 10 * vs.length < 2 ^ 64
  | .doubleVec vs => 10 * vs.length < 2 ^ 64
  | _ => True

/-- A field that is an empty byte string or an empty vector. -/
def EmptyValue : EncoderLit → Prop
  | .bytes b => b = []
  | .boolVec vs => vs = []
  | .int32Vec vs => vs = []
  | .int64Vec vs => vs = []
  | .uint32Vec vs => vs = []
  | .uint64Vec vs => vs = []
  | .sint32Vec vs => vs = []
  | .sint64Vec vs => vs = []
  | .fixed32Vec vs => vs = []
  | .fixed64Vec vs => vs = []
  | .sfixed32Vec vs => vs = []
  | .sfixed64Vec vs => vs = []
  | .floatVec vs => vs = []
  | .doubleVec vs => vs = []
  | _ => False

/-- A field the encoder takes: tag from 1 to 2^29-1, value that fits in memory. -/
def GoodField (f : UInt32 × EncoderLit) : Prop := 1 ≤ f.1.toNat ∧ f.1.toNat ≤ 2 ^ 29 - 1 ∧ Fits f.2

end Verif.Spec.Proto
