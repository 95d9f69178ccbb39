import Verif.Basic
/-! The data types of the API of the crate hpack: errors (/repo/hpack/src/{encoder,decoder}/error.rs) and encoder input
(/repo/hpack/src/encoder/input.rs). No code. -/
namespace Verif.Hpack

/-- /repo/hpack/src/encoder/error.rs:8-27 `EncoderError`. -/
inductive EncoderError where
  | InvalidInput | InvalidIndex | InvalidPrefix | IntegerOverflow
  deriving Repr, DecidableEq

/-- /repo/hpack/src/decoder/error.rs:8-32 `DecoderError`. -/
inductive DecoderError where
  | InvalidInput | InvalidIndex | InvalidPrefix | IntegerOverflow | IntegerUnderflow | InvalidMaxDynamicSize
  deriving Repr, DecidableEq

/-- `EncoderInput`, /repo/hpack/src/encoder/input.rs:3-14. -/
inductive EncoderInput where
  | Indexed (index : UInt32)
  | IndexedName (index : UInt32) (value : Bytes) (flags : UInt8)
  | Literal (name value : Bytes) (flags : UInt8)
  deriving Repr, DecidableEq

end Verif.Hpack
