import Verif.Protos.Types
/-! Model of protos/src/encoder: the primitives and `Encoder`. Every function works on an arbitrary `io::Write`. -/
namespace Verif.Protos

/-- `std::io::Write`, as far as the encoder uses it: `write_all`. The result says whether the call succeeded; the state of
the writer may change in either case. Any `io::Error` becomes `EncoderError::Interrupted` (/repo/protos/src/encoder/error.rs:23-27). -/
structure Writer (σ : Type) where
  writeAll : σ → Bytes → Bool × σ

/-- `impl Write for Vec<u8>` of the standard library: appends and never fails.
Used at every `write_all`, e.g. /repo/protos/src/encoder/primitives.rs:41, 45. -/
def vecWriter : Writer Bytes := ⟨fun s b => (true, s ++ b)⟩

section
variable {σ : Type} (w : Writer σ)

/-- `buf.write_all(bytes)?` with the conversion of the error, /repo/protos/src/encoder/error.rs:23-27. -/
def write (b : Bytes) : M σ EncoderError Unit := fun s =>
  match w.writeAll s b with
  | (true, s') => (.ok (), s')
  | (false, s') => (.err .interrupted, s')

/-- Loop of `encode_varint`, /repo/protos/src/encoder/primitives.rs:37-48. -/
def encodeVarintLoop : Nat → UInt64 → Nat → M σ EncoderError Nat
  | 0, _, _ => M.hang
  | fuel + 1, val, size =>
    if val < 0x80 then do
      write w [val.toUInt8 &&& 0x7F]
      pure (size + 1)
    else do
      write w [((val &&& 0x7F) ||| 0x80).toUInt8]
      encodeVarintLoop fuel (val >>> 7) (size + 1)

/-- `encode_varint`, /repo/protos/src/encoder/primitives.rs:30-49. The loop gets fuel for ten rounds. -/
def encodeVarint (val : UInt64) : M σ EncoderError Nat := encodeVarintLoop w 10 val 0

/-- `typ as u32`, /repo/protos/src/typ.rs:5-24: `Unknown = -1` becomes `u32::MAX`. -/
def Typ.toU32 : Typ → UInt32
  | .varint => 0
  | .bit64 => 1
  | .lengthDelimited => 2
  | .bit32 => 5
  | .unknown => 0xFFFFFFFF

/-- `Encoder::TAG_MIN`, /repo/protos/src/encoder/mod.rs:49. -/
def tagMin : UInt32 := 1
/-- `Encoder::TAG_MAX`, /repo/protos/src/encoder/mod.rs:52. -/
def tagMax : UInt32 := ((1 : UInt32) <<< (29 : UInt32)) - 1

/-- `encode_key`, /repo/protos/src/encoder/primitives.rs:68-82. -/
def encodeKey (tag : UInt32) (typ : Typ) : M σ EncoderError Nat :=
  if tag < tagMin ∨ tag > tagMax then M.throw .invalidTag
  else encodeVarint w ((tag <<< 3) ||| typ.toU32).toUInt64

/-- `encode_bool`, /repo/protos/src/encoder/primitives.rs:89-95. -/
def encodeBool (val : Bool) : M σ EncoderError Nat :=
  encodeVarint w (if val then 1 else 0)

/-- `encode_int32`, /repo/protos/src/encoder/primitives.rs:102-107; `i32 as u64` extends the sign. -/
def encodeInt32 (val : Int32) : M σ EncoderError Nat := encodeVarint w val.toInt64.toUInt64

/-- `encode_int64`, /repo/protos/src/encoder/primitives.rs:114-119. -/
def encodeInt64 (val : Int64) : M σ EncoderError Nat := encodeVarint w val.toUInt64

/-- `encode_uint32`, /repo/protos/src/encoder/primitives.rs:126-131. -/
def encodeUint32 (val : UInt32) : M σ EncoderError Nat := encodeVarint w val.toUInt64

/-- `encode_uint64`, /repo/protos/src/encoder/primitives.rs:138-143. -/
def encodeUint64 (val : UInt64) : M σ EncoderError Nat := encodeVarint w val

/-- `encode_sint32`, /repo/protos/src/encoder/primitives.rs:168-174; `>>` on `i32` is arithmetic. -/
def encodeSint32 (val : Int32) : M σ EncoderError Nat :=
  encodeVarint w ((val <<< 1) ^^^ (val >>> 31)).toUInt32.toUInt64

/-- `encode_sint64`, /repo/protos/src/encoder/primitives.rs:199-205. -/
def encodeSint64 (val : Int64) : M σ EncoderError Nat :=
  encodeVarint w ((val <<< 1) ^^^ (val >>> 63)).toUInt64

/-- `u32::to_le_bytes` of the standard library. Used at /repo/protos/src/encoder/primitives.rs:231, 271, 307. -/
def leBytes32 (v : UInt32) : Bytes :=
  [v.toUInt8, (v >>> 8).toUInt8, (v >>> 16).toUInt8, (v >>> 24).toUInt8]

/-- `u64::to_le_bytes` of the standard library. Used at /repo/protos/src/encoder/primitives.rs:251, 291, 323. -/
def leBytes64 (v : UInt64) : Bytes :=
  [v.toUInt8, (v >>> 8).toUInt8, (v >>> 16).toUInt8, (v >>> 24).toUInt8,
   (v >>> 32).toUInt8, (v >>> 40).toUInt8, (v >>> 48).toUInt8, (v >>> 56).toUInt8]

/-- `encode_fixed32`, /repo/protos/src/encoder/primitives.rs:227-233. -/
def encodeFixed32 (val : UInt32) : M σ EncoderError Nat := do write w (leBytes32 val); pure 4

/-- `encode_fixed64`, /repo/protos/src/encoder/primitives.rs:247-253. -/
def encodeFixed64 (val : UInt64) : M σ EncoderError Nat := do write w (leBytes64 val); pure 8

/-- `encode_sfixed32`, /repo/protos/src/encoder/primitives.rs:267-273. -/
def encodeSfixed32 (val : Int32) : M σ EncoderError Nat := do write w (leBytes32 val.toUInt32); pure 4

/-- `encode_sfixed64`, /repo/protos/src/encoder/primitives.rs:287-293. -/
def encodeSfixed64 (val : Int64) : M σ EncoderError Nat := do write w (leBytes64 val.toUInt64); pure 8

/-- `encode_float`, /repo/protos/src/encoder/primitives.rs:303-309, on the bit pattern. -/
def encodeFloat (val : UInt32) : M σ EncoderError Nat := do write w (leBytes32 val); pure 4

/-- `encode_double`, /repo/protos/src/encoder/primitives.rs:319-325, on the bit pattern. -/
def encodeDouble (val : UInt64) : M σ EncoderError Nat := do write w (leBytes64 val); pure 8

/-- `encode_bytes`, /repo/protos/src/encoder/primitives.rs:346-360. -/
def encodeBytes (bytes : Bytes) : M σ EncoderError Nat :=
  if bytes.length > 2 ^ 64 - 1 then M.throw .dataOverflow
  else do
    let n ← encodeVarint w (UInt64.ofNat bytes.length)
    write w bytes
    pure (bytes.length + n)

/-- The common shape `let mut size = 0; size += encode_key(..)?; size += encode_x(..)?; Ok(size)` of the methods of
`Encoder` for one value, e.g. /repo/protos/src/encoder/mod.rs:127-130. -/
def keyThen (tag : UInt32) (typ : Typ) (body : M σ EncoderError Nat) : M σ EncoderError Nat := do
  let a ← encodeKey w tag typ
  let b ← body
  pure (a + b)

/-- `for val in vals { encode_x(*val, &mut data)?; }` into a fresh vector, e.g. /repo/protos/src/encoder/mod.rs:147-150. -/
def packInto {α : Type} (enc : α → M Bytes EncoderError Nat) : List α → M Bytes EncoderError Unit
  | [] => pure ()
  | v :: vs => do
    let _ ← enc v
    packInto enc vs

/-- The start of the `_vec` methods: fill `data`; `?` returns its error with `dst` untouched.
/repo/protos/src/encoder/mod.rs:138-155 (`encode_bool_vec`) and the other `encode_*_vec` methods, :182-667. -/
def packed {α : Type} (enc : α → M Bytes EncoderError Nat) (vals : List α)
    (k : Bytes → M σ EncoderError Nat) : M σ EncoderError Nat := fun s =>
  match packInto enc vals [] with
  | (.ok _, data) => k data s
  | (.err e, _) => (.err e, s)
  | (.panic, _) => (.panic, s)
  | (.hang, _) => (.hang, s)

namespace Encoder

/-- `Encoder::encode_bool`, /repo/protos/src/encoder/mod.rs:118-131. -/
def bool (tag : UInt32) (val : Bool) := keyThen w tag .varint (encodeBool w val)
/-- `Encoder::encode_bytes`, /repo/protos/src/encoder/mod.rs:408-421. -/
def bytes (tag : UInt32) (val : Bytes) := keyThen w tag .lengthDelimited (encodeBytes w val)
/-- `Encoder::encode_bool_vec`, /repo/protos/src/encoder/mod.rs:138-155: here key and data are written inline. -/
def boolVec (tag : UInt32) (vals : List Bool) :=
  packed (encodeBool vecWriter) vals fun data => keyThen w tag .lengthDelimited (encodeBytes w data)
/-- `Encoder::encode_int32`, /repo/protos/src/encoder/mod.rs:162-175. -/
def int32 (tag : UInt32) (val : Int32) := keyThen w tag .varint (encodeInt32 w val)
/-- `Encoder::encode_int32_vec`, /repo/protos/src/encoder/mod.rs:182-196. -/
def int32Vec (tag : UInt32) (vals : List Int32) := packed (encodeInt32 vecWriter) vals (bytes w tag)
/-- `Encoder::encode_int64`, /repo/protos/src/encoder/mod.rs:203-216. -/
def int64 (tag : UInt32) (val : Int64) := keyThen w tag .varint (encodeInt64 w val)
/-- `Encoder::encode_int64_vec`, /repo/protos/src/encoder/mod.rs:223-237. -/
def int64Vec (tag : UInt32) (vals : List Int64) := packed (encodeInt64 vecWriter) vals (bytes w tag)
/-- `Encoder::encode_uint32`, /repo/protos/src/encoder/mod.rs:244-257. -/
def uint32 (tag : UInt32) (val : UInt32) := keyThen w tag .varint (encodeUint32 w val)
/-- `Encoder::encode_uint32_vec`, /repo/protos/src/encoder/mod.rs:264-278. -/
def uint32Vec (tag : UInt32) (vals : List UInt32) := packed (encodeUint32 vecWriter) vals (bytes w tag)
/-- `Encoder::encode_uint64`, /repo/protos/src/encoder/mod.rs:285-298. -/
def uint64 (tag : UInt32) (val : UInt64) := keyThen w tag .varint (encodeUint64 w val)
/-- `Encoder::encode_uint64_vec`, /repo/protos/src/encoder/mod.rs:305-319. -/
def uint64Vec (tag : UInt32) (vals : List UInt64) := packed (encodeUint64 vecWriter) vals (bytes w tag)
/-- `Encoder::encode_float`, /repo/protos/src/encoder/mod.rs:326-339. -/
def float (tag : UInt32) (val : UInt32) := keyThen w tag .bit32 (encodeFloat w val)
/-- `Encoder::encode_float_vec`, /repo/protos/src/encoder/mod.rs:346-360. -/
def floatVec (tag : UInt32) (vals : List UInt32) := packed (encodeFloat vecWriter) vals (bytes w tag)
/-- `Encoder::encode_double`, /repo/protos/src/encoder/mod.rs:367-380. -/
def double (tag : UInt32) (val : UInt64) := keyThen w tag .bit64 (encodeDouble w val)
/-- `Encoder::encode_double_vec`, /repo/protos/src/encoder/mod.rs:387-401. -/
def doubleVec (tag : UInt32) (vals : List UInt64) := packed (encodeDouble vecWriter) vals (bytes w tag)
/-- `Encoder::encode_sint32`, /repo/protos/src/encoder/mod.rs:428-441. -/
def sint32 (tag : UInt32) (val : Int32) := keyThen w tag .varint (encodeSint32 w val)
/-- `Encoder::encode_sint32_vec`, /repo/protos/src/encoder/mod.rs:448-462. -/
def sint32Vec (tag : UInt32) (vals : List Int32) := packed (encodeSint32 vecWriter) vals (bytes w tag)
/-- `Encoder::encode_sint64`, /repo/protos/src/encoder/mod.rs:469-482. -/
def sint64 (tag : UInt32) (val : Int64) := keyThen w tag .varint (encodeSint64 w val)
/-- `Encoder::encode_sint64_vec`, /repo/protos/src/encoder/mod.rs:489-503. -/
def sint64Vec (tag : UInt32) (vals : List Int64) := packed (encodeSint64 vecWriter) vals (bytes w tag)
/-- `Encoder::encode_fixed32`, /repo/protos/src/encoder/mod.rs:510-523. -/
def fixed32 (tag : UInt32) (val : UInt32) := keyThen w tag .bit32 (encodeFixed32 w val)
/-- `Encoder::encode_fixed32_vec`, /repo/protos/src/encoder/mod.rs:530-544. -/
def fixed32Vec (tag : UInt32) (vals : List UInt32) := packed (encodeFixed32 vecWriter) vals (bytes w tag)
/-- `Encoder::encode_fixed64`, /repo/protos/src/encoder/mod.rs:551-564. -/
def fixed64 (tag : UInt32) (val : UInt64) := keyThen w tag .bit64 (encodeFixed64 w val)
/-- `Encoder::encode_fixed64_vec`, /repo/protos/src/encoder/mod.rs:571-585. -/
def fixed64Vec (tag : UInt32) (vals : List UInt64) := packed (encodeFixed64 vecWriter) vals (bytes w tag)
/-- `Encoder::encode_sfixed32`, /repo/protos/src/encoder/mod.rs:592-605. -/
def sfixed32 (tag : UInt32) (val : Int32) := keyThen w tag .bit32 (encodeSfixed32 w val)
/-- `Encoder::encode_sfixed32_vec`, /repo/protos/src/encoder/mod.rs:612-626. -/
def sfixed32Vec (tag : UInt32) (vals : List Int32) := packed (encodeSfixed32 vecWriter) vals (bytes w tag)
/-- `Encoder::encode_sfixed64`, /repo/protos/src/encoder/mod.rs:633-646. -/
def sfixed64 (tag : UInt32) (val : Int64) := keyThen w tag .bit64 (encodeSfixed64 w val)
/-- `Encoder::encode_sfixed64_vec`, /repo/protos/src/encoder/mod.rs:653-667. -/
def sfixed64Vec (tag : UInt32) (vals : List Int64) := packed (encodeSfixed64 vecWriter) vals (bytes w tag)

/-- `Encoder::encode`, /repo/protos/src/encoder/mod.rs:73-111. -/
def encode (tag : UInt32) : EncoderLit → M σ EncoderError Nat
  | .bool v => bool w tag v
  | .boolVec v => boolVec w tag v
  | .int32 v => int32 w tag v
  | .int32Vec v => int32Vec w tag v
  | .int64 v => int64 w tag v
  | .int64Vec v => int64Vec w tag v
  | .uint32 v => uint32 w tag v
  | .uint32Vec v => uint32Vec w tag v
  | .uint64 v => uint64 w tag v
  | .uint64Vec v => uint64Vec w tag v
  | .float v => float w tag v
  | .floatVec v => floatVec w tag v
  | .double v => double w tag v
  | .doubleVec v => doubleVec w tag v
  | .sint32 v => sint32 w tag v
  | .sint32Vec v => sint32Vec w tag v
  | .sint64 v => sint64 w tag v
  | .sint64Vec v => sint64Vec w tag v
  | .fixed32 v => fixed32 w tag v
  | .fixed32Vec v => fixed32Vec w tag v
  | .fixed64 v => fixed64 w tag v
  | .fixed64Vec v => fixed64Vec w tag v
  | .sfixed32 v => sfixed32 w tag v
  | .sfixed32Vec v => sfixed32Vec w tag v
  | .sfixed64 v => sfixed64 w tag v
  | .sfixed64Vec v => sfixed64Vec w tag v
  | .bytes v => bytes w tag v

end Encoder
end
end Verif.Protos
