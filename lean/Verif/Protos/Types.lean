import Verif.Basic
/-! Data types of the `protos` API. `f32` and `f64` values are represented by their bit patterns. -/
namespace Verif.Protos

/-- `Typ`, /repo/protos/src/typ.rs:4-24. -/
inductive Typ where
  | varint | bit64 | lengthDelimited | bit32 | unknown
  deriving DecidableEq, Repr

/-- `EncoderError`, /repo/protos/src/encoder/error.rs:8-21. The conversion from `Infallible` (:29-33, `unreachable!()`) has no argument to be called with
and is not modelled. -/
inductive EncoderError where
  | dataOverflow | interrupted | invalidTag
  deriving DecidableEq, Repr

/-- `DecoderError`, /repo/protos/src/decoder/error.rs:8-26. The conversions from `io::Error` (:28-32; nothing in the decoder reads from a source) and from
`Infallible` (:34-38, for `Typ::try_from`, which cannot fail) are never called and not modelled. -/
inductive DecoderError where
  | invalidInput | interrupted | inputUnderflow | invalidTag
  deriving DecidableEq, Repr

/-- `EncoderLit`, /repo/protos/src/encoder/lit.rs:5-92. Simplification: the variants hold the values, not references. -/
inductive EncoderLit where
  | bytes (v : Bytes)
  | bool (v : Bool)
  | boolVec (vs : List Bool)
  | int32 (v : Int32)
  | int32Vec (vs : List Int32)
  | int64 (v : Int64)
  | int64Vec (vs : List Int64)
  | uint32 (v : UInt32)
  | uint32Vec (vs : List UInt32)
  | uint64 (v : UInt64)
  | uint64Vec (vs : List UInt64)
  | float (v : UInt32)
  | floatVec (vs : List UInt32)
  | double (v : UInt64)
  | doubleVec (vs : List UInt64)
  | sint32 (v : Int32)
  | sint32Vec (vs : List Int32)
  | sint64 (v : Int64)
  | sint64Vec (vs : List Int64)
  | fixed32 (v : UInt32)
  | fixed32Vec (vs : List UInt32)
  | fixed64 (v : UInt64)
  | fixed64Vec (vs : List UInt64)
  | sfixed32 (v : Int32)
  | sfixed32Vec (vs : List Int32)
  | sfixed64 (v : Int64)
  | sfixed64Vec (vs : List Int64)
  deriving DecidableEq, Repr

/-- `DecoderLit`, /repo/protos/src/decoder/lit.rs:12-98. -/
inductive DecoderLit where
  | bytes (b : Bytes)
  | bool (b : Bytes)
  | boolVec (b : Bytes)
  | int32 (b : Bytes)
  | int32Vec (b : Bytes)
  | int64 (b : Bytes)
  | int64Vec (b : Bytes)
  | uint32 (b : Bytes)
  | uint32Vec (b : Bytes)
  | uint64 (b : Bytes)
  | uint64Vec (b : Bytes)
  | float (b : Bytes)
  | floatVec (b : Bytes)
  | double (b : Bytes)
  | doubleVec (b : Bytes)
  | sint32 (b : Bytes)
  | sint32Vec (b : Bytes)
  | sint64 (b : Bytes)
  | sint64Vec (b : Bytes)
  | fixed32 (b : Bytes)
  | fixed32Vec (b : Bytes)
  | fixed64 (b : Bytes)
  | fixed64Vec (b : Bytes)
  | sfixed32 (b : Bytes)
  | sfixed32Vec (b : Bytes)
  | sfixed64 (b : Bytes)
  | sfixed64Vec (b : Bytes)
  deriving DecidableEq, Repr

end Verif.Protos
