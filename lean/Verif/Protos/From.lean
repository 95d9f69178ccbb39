import Verif.Protos.Decoder
/-! Model of the `From` conversions of `EncoderLit` and of the conversion of `DecoderLit` into `String`. -/
namespace Verif.Protos

namespace EncoderLit
/-- `From<&bool>`, /repo/protos/src/encoder/lit.rs:94-98. -/
def ofBool (v : Bool) : EncoderLit := .bool v
/-- `From<&Vec<bool>>`, /repo/protos/src/encoder/lit.rs:100-104. -/
def ofBoolVec (v : List Bool) : EncoderLit := .boolVec v
/-- `From<&i32>`, /repo/protos/src/encoder/lit.rs:106-110. -/
def ofI32 (v : Int32) : EncoderLit := .int32 v
/-- `From<&Vec<i32>>`, /repo/protos/src/encoder/lit.rs:112-116. -/
def ofI32Vec (v : List Int32) : EncoderLit := .int32Vec v
/-- `From<&i64>`, /repo/protos/src/encoder/lit.rs:118-122. -/
def ofI64 (v : Int64) : EncoderLit := .int64 v
/-- `From<&Vec<i64>>`, /repo/protos/src/encoder/lit.rs:124-128. -/
def ofI64Vec (v : List Int64) : EncoderLit := .int64Vec v
/-- `From<&u32>`, /repo/protos/src/encoder/lit.rs:130-134. -/
def ofU32 (v : UInt32) : EncoderLit := .uint32 v
/-- `From<&Vec<u32>>`, /repo/protos/src/encoder/lit.rs:136-140. -/
def ofU32Vec (v : List UInt32) : EncoderLit := .uint32Vec v
/-- `From<&u64>`, /repo/protos/src/encoder/lit.rs:142-146. -/
def ofU64 (v : UInt64) : EncoderLit := .uint64 v
/-- `From<&Vec<u64>>`, /repo/protos/src/encoder/lit.rs:148-152. -/
def ofU64Vec (v : List UInt64) : EncoderLit := .uint64Vec v
/-- `From<&f32>`, /repo/protos/src/encoder/lit.rs:154-158, on the bit pattern. -/
def ofF32 (v : UInt32) : EncoderLit := .float v
/-- `From<&Vec<f32>>`, /repo/protos/src/encoder/lit.rs:160-164, on the bit patterns. -/
def ofF32Vec (v : List UInt32) : EncoderLit := .floatVec v
/-- `From<&f64>`, /repo/protos/src/encoder/lit.rs:166-170, on the bit pattern. -/
def ofF64 (v : UInt64) : EncoderLit := .double v
/-- `From<&Vec<f64>>`, /repo/protos/src/encoder/lit.rs:172-176, on the bit patterns. -/
def ofF64Vec (v : List UInt64) : EncoderLit := .doubleVec v
/-- `From<&Vec<u8>>`, /repo/protos/src/encoder/lit.rs:178-182. -/
def ofBytes (v : Bytes) : EncoderLit := .bytes v
end EncoderLit

/-- `From<DecoderLit> for String`, /repo/protos/src/decoder/lit.rs:275-287. `String::from_utf8` of the Rust standard library is modelled by
`String.fromUTF8?` of Lean: both accept exactly UTF-8. -/
def DecoderLit.toStr : DecoderLit → String
  | .bytes b =>
    match String.fromUTF8? b.toByteArray with
    | some s => s
    | none => ""
  | _ => ""

end Verif.Protos
