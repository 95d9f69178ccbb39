import Verif.Hpack.Table
import Verif.Hpack.Primitives
/-! Model of /repo/hpack/src/encoder/{mod,input}.rs. -/
namespace Verif.Hpack

/-- `impl From<u32> for EncoderInput`, /repo/hpack/src/encoder/input.rs:16-20. -/
def EncoderInput.ofIndex (i : UInt32) : EncoderInput := .Indexed i
/-- `impl From<(u32, Vec<u8>, u8)> for EncoderInput`, /repo/hpack/src/encoder/input.rs:22-26. -/
def EncoderInput.ofIndexedName (x : UInt32 × Bytes × UInt8) : EncoderInput := .IndexedName x.1 x.2.1 x.2.2
/-- `impl From<(Vec<u8>, Vec<u8>, u8)> for EncoderInput`, /repo/hpack/src/encoder/input.rs:28-32. -/
def EncoderInput.ofLiteral (x : Bytes × Bytes × UInt8) : EncoderInput := .Literal x.1 x.2.1 x.2.2

/-- `Encoder` (its table), /repo/hpack/src/encoder/mod.rs:79-82, together with the `dst: &mut Vec<u8>` of its calls. -/
structure EncoderState where
  table : Table
  dst : Bytes
  deriving Repr, DecidableEq

/-- Pushing the bytes a primitive wrote; its error is passed on by `?`.
The calls of `encode_integer` and `encode_string` on `dst`, /repo/hpack/src/encoder/mod.rs:191-373. -/
def pushBytes (r : Res EncoderError Bytes) : M EncoderState EncoderError Unit := do
  let bs ← M.lift r
  M.modify fun s => { s with dst := s.dst ++ bs }

/-- `self.table.insert(..)`. /repo/hpack/src/encoder/mod.rs:275 and 364. -/
def encInsert (name value : Bytes) : M EncoderState EncoderError Unit := do
  let s ← M.get
  let t ← M.lift (s.table.insert name value)
  M.modify fun s => { s with table := t }

/-- `encode_indexed`, /repo/hpack/src/encoder/mod.rs:191-202. -/
def encodeIndexed (index : UInt32) : M EncoderState EncoderError Unit := do
  let s ← M.get
  match s.table.get index with
  | none => M.throw .InvalidIndex
  | some _ => pushBytes (encodeInteger index 0x80 7)

/-- `encode_indexed_name`, /repo/hpack/src/encoder/mod.rs:260-284. -/
def encodeIndexedName (index : UInt32) (value : Bytes) (flags : UInt8) : M EncoderState EncoderError Unit := do
  let s ← M.get
  match s.table.get index with
  | none => M.throw .InvalidIndex
  | some entry => do
    (if flags &&& 0x4 = 0x4 then do
      encInsert entry.1 value
      pushBytes (encodeInteger index 0x40 6)
    else if flags &&& 0x8 = 0x8 then pushBytes (encodeInteger index 0x10 4)
    else pushBytes (encodeInteger index 0x0 4))
    pushBytes (encodeString value (flags &&& 0x2 = 0x2))

/-- `encode_literal`, /repo/hpack/src/encoder/mod.rs:354-373. -/
def encodeLiteral (name value : Bytes) (flags : UInt8) : M EncoderState EncoderError Unit := do
  (if flags &&& 0x4 = 0x4 then do
    M.modify fun s => { s with dst := s.dst ++ [0x40] }
    encInsert name value
  else if flags &&& 0x8 = 0x8 then M.modify fun s => { s with dst := s.dst ++ [0x10] }
  else M.modify fun s => { s with dst := s.dst ++ [0x0] })
  pushBytes (encodeString name (flags &&& 0x1 = 0x1))
  pushBytes (encodeString value (flags &&& 0x2 = 0x2))

/-- `encode`, /repo/hpack/src/encoder/mod.rs:141-174. `index as u32` truncates the `usize` found by `find`. -/
def encode (field : EncoderInput) : M EncoderState EncoderError Unit :=
  match field with
  | .Indexed index => encodeIndexed index
  | .IndexedName index value flags => encodeIndexedName index value flags
  | .Literal name value flags =>
    if flags &&& 0x10 = 0x10 then do
      let s ← M.get
      match s.table.find name value with
      | none => M.hang
      | some (some (index, true)) => encodeIndexed (UInt32.ofNat index)
      | some (some (index, false)) => encodeIndexedName (UInt32.ofNat index) value flags
      | some none => encodeLiteral name value flags
    else encodeLiteral name value flags

/-- `update_max_dynamic_size`, /repo/hpack/src/encoder/mod.rs:393-400. -/
def encUpdateMaxDynamicSize (size : UInt32) : M EncoderState EncoderError Unit := do
  let s ← M.get
  let t ← M.lift (s.table.updateMaxDynamicSize size)
  M.modify fun s => { s with table := t }
  pushBytes (encodeInteger size 0x20 5)

/-- `Encoder::max_dynamic_size`, /repo/hpack/src/encoder/mod.rs:110-112. -/
def EncoderState.getMaxDynamicSize (s : EncoderState) : UInt32 := s.table.maxDynamicSize

/-- `Encoder::with_dynamic_size`, /repo/hpack/src/encoder/mod.rs:103-107, with an empty output vector. -/
def EncoderState.withDynamicSize (n : UInt32) : EncoderState := { table := Table.withDynamicSize n, dst := [] }
/-- `Encoder::default`, /repo/hpack/src/encoder/mod.rs:403-409. -/
def EncoderState.default : EncoderState := { table := Table.default, dst := [] }

end Verif.Hpack
