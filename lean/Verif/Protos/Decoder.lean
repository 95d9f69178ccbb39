import Verif.Protos.Encoder
/-! Model of protos/src/decoder: the primitives, `Decoder` and the conversions of `DecoderLit`.

`chk` says whether the crate was compiled with overflow checks (the default of debug builds): with them, a shift by 64 or
more panics; without, the amount is taken modulo 64. -/
namespace Verif.Protos

/-- Loop of `decode_varint`, /repo/protos/src/decoder/primitives.rs:33-44, on the part of `buf` from index `count` on. -/
def decodeVarintLoop (chk : Bool) : Bytes → Nat → UInt64 → Res DecoderError (UInt64 × Nat)
  | [], _, _ => .err .inputUnderflow
  | byte :: rest, count, value =>
    if chk = true ∧ 7 * count ≥ 64 then .panic
    else
      let value := value ||| ((byte &&& 0x7F).toUInt64 <<< UInt64.ofNat (7 * count))
      if byte ≤ 0x7F then .ok (value, count + 1)
      else decodeVarintLoop chk rest (count + 1) value

/-- `decode_varint`, /repo/protos/src/decoder/primitives.rs:30-45. The result holds the value put into `dst` and the count; `dst` is written
only on success. -/
def decodeVarint (chk : Bool) (buf : Bytes) : Res DecoderError (UInt64 × Nat) := decodeVarintLoop chk buf 0 0

/-- `Typ::try_from`, /repo/protos/src/typ.rs:26-38; it never fails. -/
def Typ.ofU64 (v : UInt64) : Typ :=
  if v = 0 then .varint
  else if v = 1 then .bit64
  else if v = 2 then .lengthDelimited
  else if v = 5 then .bit32
  else .unknown

/-- `decode_key`, /repo/protos/src/decoder/primitives.rs:65-85. -/
def decodeKey (chk : Bool) (buf : Bytes) : Res DecoderError ((UInt32 × Typ) × Nat) := do
  let (key, size) ← decodeVarint chk buf
  if key > 0xFFFFFFFF then .err .invalidInput
  else
    let typ := Typ.ofU64 (key &&& 0x07)
    let tag := key.toUInt32 >>> 3
    if tag < tagMin then .err .invalidInput
    else if typ = .unknown then .err .invalidInput
    else pure ((tag, typ), size)

/-- `decode_bool`, /repo/protos/src/decoder/primitives.rs:92-97. -/
def decodeBool (chk : Bool) (buf : Bytes) : Res DecoderError (Bool × Nat) := do
  let (val, size) ← decodeVarint chk buf
  pure (if val = 0 then false else true, size)

/-- `decode_int32`, /repo/protos/src/decoder/primitives.rs:125-130; `u64 as i32` keeps the low 32 bits. -/
def decodeInt32 (chk : Bool) (buf : Bytes) : Res DecoderError (Int32 × Nat) := do
  let (val, size) ← decodeVarint chk buf
  pure (val.toUInt32.toInt32, size)

/-- `decode_int64`, /repo/protos/src/decoder/primitives.rs:158-163. -/
def decodeInt64 (chk : Bool) (buf : Bytes) : Res DecoderError (Int64 × Nat) := do
  let (val, size) ← decodeVarint chk buf
  pure (val.toInt64, size)

/-- `decode_uint32`, /repo/protos/src/decoder/primitives.rs:191-196. -/
def decodeUint32 (chk : Bool) (buf : Bytes) : Res DecoderError (UInt32 × Nat) := do
  let (val, size) ← decodeVarint chk buf
  pure (val.toUInt32, size)

/-- `decode_uint64`, /repo/protos/src/decoder/primitives.rs:224-226. -/
def decodeUint64 (chk : Bool) (buf : Bytes) : Res DecoderError (UInt64 × Nat) := decodeVarint chk buf

/-- `decode_sint32`, /repo/protos/src/decoder/primitives.rs:272-277. -/
def decodeSint32 (chk : Bool) (buf : Bytes) : Res DecoderError (Int32 × Nat) := do
  let (val, size) ← decodeVarint chk buf
  pure ((val >>> 1).toUInt32.toInt32 ^^^ (-(val &&& 1).toUInt32.toInt32), size)

/-- `decode_sint64`, /repo/protos/src/decoder/primitives.rs:323-328. -/
def decodeSint64 (chk : Bool) (buf : Bytes) : Res DecoderError (Int64 × Nat) := do
  let (val, size) ← decodeVarint chk buf
  pure ((val >>> 1).toInt64 ^^^ (-(val &&& 1).toInt64), size)

/-- `buf[0..4]` read by `u32::from_le_bytes`; for shorter slices the Rust code has returned before.
Used at /repo/protos/src/decoder/primitives.rs:377, 463, 545. -/
def fromLe32 : Bytes → UInt32
  | a :: b :: c :: d :: _ =>
    a.toUInt32 ||| (b.toUInt32 <<< 8) ||| (c.toUInt32 <<< 16) ||| (d.toUInt32 <<< 24)
  | _ => 0

/-- `buf[0..8]` read by `u64::from_le_bytes`. Used at /repo/protos/src/decoder/primitives.rs:420, 506, 584. -/
def fromLe64 : Bytes → UInt64
  | a :: b :: c :: d :: e :: f :: g :: h :: _ =>
    a.toUInt64 ||| (b.toUInt64 <<< 8) ||| (c.toUInt64 <<< 16) ||| (d.toUInt64 <<< 24) |||
    (e.toUInt64 <<< 32) ||| (f.toUInt64 <<< 40) ||| (g.toUInt64 <<< 48) ||| (h.toUInt64 <<< 56)
  | _ => 0

/-- `decode_fixed32`, /repo/protos/src/decoder/primitives.rs:368-379. -/
def decodeFixed32 (buf : Bytes) : Res DecoderError (UInt32 × Nat) :=
  if buf.length < 4 then .err .inputUnderflow else .ok (fromLe32 buf, 4)

/-- `decode_fixed64`, /repo/protos/src/decoder/primitives.rs:411-422. -/
def decodeFixed64 (buf : Bytes) : Res DecoderError (UInt64 × Nat) :=
  if buf.length < 8 then .err .inputUnderflow else .ok (fromLe64 buf, 8)

/-- `decode_sfixed32`, /repo/protos/src/decoder/primitives.rs:454-465. -/
def decodeSfixed32 (buf : Bytes) : Res DecoderError (Int32 × Nat) :=
  if buf.length < 4 then .err .inputUnderflow else .ok ((fromLe32 buf).toInt32, 4)

/-- `decode_sfixed64`, /repo/protos/src/decoder/primitives.rs:497-508. -/
def decodeSfixed64 (buf : Bytes) : Res DecoderError (Int64 × Nat) :=
  if buf.length < 8 then .err .inputUnderflow else .ok ((fromLe64 buf).toInt64, 8)

/-- `decode_float`, /repo/protos/src/decoder/primitives.rs:539-547, on the bit pattern. -/
def decodeFloat (buf : Bytes) : Res DecoderError (UInt32 × Nat) :=
  if buf.length < 4 then .err .inputUnderflow else .ok (fromLe32 buf, 4)

/-- `decode_double`, /repo/protos/src/decoder/primitives.rs:578-586, on the bit pattern. -/
def decodeDouble (buf : Bytes) : Res DecoderError (UInt64 × Nat) :=
  if buf.length < 8 then .err .inputUnderflow else .ok (fromLe64 buf, 8)

/-- The loop of the `_vec` decoders, e.g. /repo/protos/src/decoder/primitives.rs:108-115:
`while total > size || total == 0 { size += decode_x(&buf[size..], &mut val)?; items.push(val); }`.
The slice panics if `size` exceeds `total`. -/
def vecLoop {α : Type} (dec : Bytes → Res DecoderError (α × Nat)) (buf : Bytes) :
    Nat → Nat → List α → Res DecoderError (List α × Nat)
  | 0, _, _ => .hang
  | fuel + 1, size, items =>
    if buf.length > size ∨ buf.length = 0 then
      if size ≤ buf.length then do
        let (val, n) ← dec (buf.drop size)
        vecLoop dec buf fuel (size + n) (items ++ [val])
      else .panic
    else .ok (items, size)

/-- The `_vec` decoders: the items are appended to `dst` after the loop, e.g. /repo/protos/src/decoder/primitives.rs:104-118. The loop gets
fuel for one more round than there are bytes. -/
def decodeVec {α : Type} (dec : Bytes → Res DecoderError (α × Nat)) (buf : Bytes) : M (List α) DecoderError Nat := do
  let (items, size) ← M.lift (vecLoop dec buf (buf.length + 1) 0 [])
  M.modify (· ++ items)
  pure size

/-- `decode_bool_vec`, /repo/protos/src/decoder/primitives.rs:104-118. -/
def decodeBoolVec (chk : Bool) := decodeVec (decodeBool chk)
/-- `decode_int32_vec`, /repo/protos/src/decoder/primitives.rs:137-151. -/
def decodeInt32Vec (chk : Bool) := decodeVec (decodeInt32 chk)
/-- `decode_int64_vec`, /repo/protos/src/decoder/primitives.rs:170-184. -/
def decodeInt64Vec (chk : Bool) := decodeVec (decodeInt64 chk)
/-- `decode_uint32_vec`, /repo/protos/src/decoder/primitives.rs:203-217. -/
def decodeUint32Vec (chk : Bool) := decodeVec (decodeUint32 chk)
/-- `decode_uint64_vec`, /repo/protos/src/decoder/primitives.rs:233-247 (calls `decode_varint`). -/
def decodeUint64Vec (chk : Bool) := decodeVec (decodeVarint chk)
/-- `decode_sint32_vec`, /repo/protos/src/decoder/primitives.rs:284-298. -/
def decodeSint32Vec (chk : Bool) := decodeVec (decodeSint32 chk)
/-- `decode_sint64_vec`, /repo/protos/src/decoder/primitives.rs:335-349. -/
def decodeSint64Vec (chk : Bool) := decodeVec (decodeSint64 chk)
/-- `decode_fixed32_vec`, /repo/protos/src/decoder/primitives.rs:386-400. -/
def decodeFixed32Vec := decodeVec decodeFixed32
/-- `decode_fixed64_vec`, /repo/protos/src/decoder/primitives.rs:429-443. -/
def decodeFixed64Vec := decodeVec decodeFixed64
/-- `decode_sfixed32_vec`, /repo/protos/src/decoder/primitives.rs:472-486. -/
def decodeSfixed32Vec := decodeVec decodeSfixed32
/-- `decode_sfixed64_vec`, /repo/protos/src/decoder/primitives.rs:515-529. -/
def decodeSfixed64Vec := decodeVec decodeSfixed64
/-- `decode_float_vec`, /repo/protos/src/decoder/primitives.rs:554-568. -/
def decodeFloatVec := decodeVec decodeFloat
/-- `decode_double_vec`, /repo/protos/src/decoder/primitives.rs:593-607. -/
def decodeDoubleVec := decodeVec decodeDouble

/-- Loop of `extract_varint`, /repo/protos/src/decoder/primitives.rs:620-631, on the part of `buf` from index `count` on. -/
def extractVarintLoop : Bytes → Nat → Bytes → Res DecoderError (Bytes × Nat)
  | [], _, _ => .err .inputUnderflow
  | byte :: rest, count, bytes =>
    if byte ≤ 0x7F then .ok (bytes ++ [byte], count + 1)
    else extractVarintLoop rest (count + 1) (bytes ++ [byte])

/-- `extract_varint`, /repo/protos/src/decoder/primitives.rs:614-632. The result holds what is appended to `dst`, and the count. -/
def extractVarint (buf : Bytes) : Res DecoderError (Bytes × Nat) := extractVarintLoop buf 0 []

/-- `extract_bit32`, /repo/protos/src/decoder/primitives.rs:639-648. -/
def extractBit32 (buf : Bytes) : Res DecoderError (Bytes × Nat) :=
  if buf.length < 4 then .err .inputUnderflow else .ok (buf.take 4, 4)

/-- `extract_bit64`, /repo/protos/src/decoder/primitives.rs:655-664. -/
def extractBit64 (buf : Bytes) : Res DecoderError (Bytes × Nat) :=
  if buf.length < 8 then .err .inputUnderflow else .ok (buf.take 8, 8)

/-- `extract_ld`, /repo/protos/src/decoder/primitives.rs:671-682; `u64 as usize` is the identity (64-bit `usize`). -/
def extractLd (buf : Bytes) (size : UInt64) : Res DecoderError (Bytes × Nat) :=
  if buf.length < size.toNat then .err .inputUnderflow else .ok (buf.take size.toNat, size.toNat)

/-- Everything `Decoder::decode` may change: the fields of `Decoder` (/repo/protos/src/decoder/mod.rs:31-38), `buf` and `dst`. -/
structure DState where
  key : UInt32 × Typ
  ldLen : Option UInt64
  buf : Bytes
  dst : List (UInt32 × Typ × Bytes)
  deriving DecidableEq, Repr

/-- `Decoder::default`, /repo/protos/src/decoder/mod.rs:279-286, with a buffer and a destination. -/
def DState.fresh (buf : Bytes) (dst : List (UInt32 × Typ × Bytes) := []) : DState :=
  { key := (0, .unknown), ldLen := none, buf := buf, dst := dst }

/-- `Decoder::reset`, /repo/protos/src/decoder/mod.rs:273-276. -/
def DState.reset (s : DState) : DState := { s with key := (0, .unknown), ldLen := none }

/-- The pattern `match r { Ok(size) => size, Err(InputUnderflow) => return Ok(0), Err(e) => return Err(e) }` followed by the
rest of the function, e.g. /repo/protos/src/decoder/mod.rs:113-119. -/
def orUnderflow {α : Type} (r : Res DecoderError (α × Nat)) (k : α → Nat → DState → DState) : M DState DecoderError Nat := fun s =>
  match r with
  | .ok (a, size) => (.ok size, k a size s)
  | .err .inputUnderflow => (.ok 0, s)
  | .err e => (.err e, s)
  | .panic => (.panic, s)
  | .hang => (.hang, s)

/-- `buf.drain(..size)`. /repo/protos/src/decoder/mod.rs:118, 143, 169, 195, 241, 267. -/
def DState.drain (s : DState) (size : Nat) : DState := { s with buf := s.buf.drop size }

/-- `dst.push((self.key.0, self.key.1, bytes))`, /repo/protos/src/decoder/mod.rs:142. -/
def DState.push (s : DState) (bytes : Bytes) : DState := { s with dst := s.dst ++ [(s.key.1, s.key.2, bytes)] }

/-- `Decoder::decode_key`, /repo/protos/src/decoder/mod.rs:112-120. -/
def stepKey (chk : Bool) : M DState DecoderError Nat := fun s =>
  orUnderflow (decodeKey chk s.buf) (fun key size s => ({ s with key := key }).drain size) s

/-- `Decoder::extract_varint`, /repo/protos/src/decoder/mod.rs:131-146. -/
def stepVarint : M DState DecoderError Nat := fun s =>
  orUnderflow (extractVarint s.buf) (fun bytes size s => ((s.push bytes).drain size).reset) s

/-- `Decoder::extract_bit32`, /repo/protos/src/decoder/mod.rs:157-172. -/
def stepBit32 : M DState DecoderError Nat := fun s =>
  orUnderflow (extractBit32 s.buf) (fun bytes size s => ((s.push bytes).drain size).reset) s

/-- `Decoder::extract_bit64`, /repo/protos/src/decoder/mod.rs:183-198. -/
def stepBit64 : M DState DecoderError Nat := fun s =>
  orUnderflow (extractBit64 s.buf) (fun bytes size s => ((s.push bytes).drain size).reset) s

/-- `Decoder::decode_ld_len`, /repo/protos/src/decoder/mod.rs:230-243. -/
def stepLdLen (chk : Bool) : M DState DecoderError Nat := fun s =>
  orUnderflow (decodeVarint chk s.buf) (fun val size s => ({ s with ldLen := some val }).drain size) s

/-- `Decoder::extract_ld_bytes`, /repo/protos/src/decoder/mod.rs:254-270, with `len` the unwrapped `self.ld_len`. -/
def stepLdBytes (len : UInt64) : M DState DecoderError Nat := fun s =>
  orUnderflow (extractLd s.buf len) (fun bytes size s => ((s.push bytes).drain size).reset) s

/-- `Decoder::extract_ld`, /repo/protos/src/decoder/mod.rs:209-219. -/
def stepLd (chk : Bool) : M DState DecoderError Nat := fun s =>
  match s.ldLen with
  | some len => stepLdBytes len s
  | none => stepLdLen chk s

/-- One round of the loop of `Decoder::decode`, /repo/protos/src/decoder/mod.rs:78-95. -/
def decodeStep (chk : Bool) : M DState DecoderError Nat := fun s =>
  match s.key.2 with
  | .unknown => stepKey chk s
  | .varint => stepVarint s
  | .bit32 => stepBit32 s
  | .bit64 => stepBit64 s
  | .lengthDelimited => stepLd chk s

/-- Loop of `Decoder::decode`, /repo/protos/src/decoder/mod.rs:77-101. -/
def decodeLoop (chk : Bool) : Nat → Nat → M DState DecoderError Nat
  | 0, _ => M.hang
  | fuel + 1, total => do
    let size ← decodeStep chk
    if size = 0 then pure total else decodeLoop chk fuel (total + size)

/-- `Decoder::decode`, /repo/protos/src/decoder/mod.rs:71-102. The loop gets fuel for one more round than there are bytes. -/
def decode (chk : Bool) : M DState DecoderError Nat := fun s => decodeLoop chk (s.buf.length + 1) 0 s

/-! ### `DecoderLit` conversions

`decode_x(&byt, &mut dst).unwrap_or(0); dst`: on an error `dst` keeps its initial value; a panic propagates. -/

/-- A scalar conversion, e.g. /repo/protos/src/decoder/lit.rs:101-108. -/
def unwrapScalar {α : Type} (init : α) (r : Res DecoderError (α × Nat)) : Res DecoderError α :=
  match r with
  | .ok (v, _) => .ok v
  | .err _ => .ok init
  | .panic => .panic
  | .hang => .hang

/-- A vector conversion, e.g. /repo/protos/src/decoder/lit.rs:112-119. -/
def unwrapVec {α : Type} (m : M (List α) DecoderError Nat) : Res DecoderError (List α) :=
  match m [] with
  | (.ok _, dst) => .ok dst
  | (.err _, dst) => .ok dst
  | (.panic, _) => .panic
  | (.hang, _) => .hang

namespace DecoderLit
variable (chk : Bool)

/-- `From<DecoderLit> for bool`, /repo/protos/src/decoder/lit.rs:100-109. -/
def toBool : DecoderLit → Res DecoderError Bool
  | .bool b => unwrapScalar false (decodeBool chk b)
  | _ => .ok false
/-- `From<DecoderLit> for Vec<bool>`, /repo/protos/src/decoder/lit.rs:111-120. -/
def toBoolVec : DecoderLit → Res DecoderError (List Bool)
  | .boolVec b => unwrapVec (decodeBoolVec chk b)
  | _ => .ok []
/-- `From<DecoderLit> for i32`, /repo/protos/src/decoder/lit.rs:122-133. -/
def toI32 : DecoderLit → Res DecoderError Int32
  | .int32 b => unwrapScalar 0 (decodeInt32 chk b)
  | .sint32 b => unwrapScalar 0 (decodeSint32 chk b)
  | .sfixed32 b => unwrapScalar 0 (decodeSfixed32 b)
  | _ => .ok 0
/-- `From<DecoderLit> for Vec<i32>`, /repo/protos/src/decoder/lit.rs:135-146. -/
def toI32Vec : DecoderLit → Res DecoderError (List Int32)
  | .int32Vec b => unwrapVec (decodeInt32Vec chk b)
  | .sint32Vec b => unwrapVec (decodeSint32Vec chk b)
  | .sfixed32Vec b => unwrapVec (decodeSfixed32Vec b)
  | _ => .ok []
/-- `From<DecoderLit> for i64`, /repo/protos/src/decoder/lit.rs:148-159. -/
def toI64 : DecoderLit → Res DecoderError Int64
  | .int64 b => unwrapScalar 0 (decodeInt64 chk b)
  | .sint64 b => unwrapScalar 0 (decodeSint64 chk b)
  | .sfixed64 b => unwrapScalar 0 (decodeSfixed64 b)
  | _ => .ok 0
/-- `From<DecoderLit> for Vec<i64>`, /repo/protos/src/decoder/lit.rs:161-172. -/
def toI64Vec : DecoderLit → Res DecoderError (List Int64)
  | .int64Vec b => unwrapVec (decodeInt64Vec chk b)
  | .sint64Vec b => unwrapVec (decodeSint64Vec chk b)
  | .sfixed64Vec b => unwrapVec (decodeSfixed64Vec b)
  | _ => .ok []
/-- `From<DecoderLit> for u32`, /repo/protos/src/decoder/lit.rs:174-184. -/
def toU32 : DecoderLit → Res DecoderError UInt32
  | .uint32 b => unwrapScalar 0 (decodeUint32 chk b)
  | .fixed32 b => unwrapScalar 0 (decodeFixed32 b)
  | _ => .ok 0
/-- `From<DecoderLit> for Vec<u32>`, /repo/protos/src/decoder/lit.rs:186-196. -/
def toU32Vec : DecoderLit → Res DecoderError (List UInt32)
  | .uint32Vec b => unwrapVec (decodeUint32Vec chk b)
  | .fixed32Vec b => unwrapVec (decodeFixed32Vec b)
  | _ => .ok []
/-- `From<DecoderLit> for u64`, /repo/protos/src/decoder/lit.rs:198-208. -/
def toU64 : DecoderLit → Res DecoderError UInt64
  | .uint64 b => unwrapScalar 0 (decodeUint64 chk b)
  | .fixed64 b => unwrapScalar 0 (decodeFixed64 b)
  | _ => .ok 0
/-- `From<DecoderLit> for Vec<u64>`, /repo/protos/src/decoder/lit.rs:210-220. -/
def toU64Vec : DecoderLit → Res DecoderError (List UInt64)
  | .uint64Vec b => unwrapVec (decodeUint64Vec chk b)
  | .fixed64Vec b => unwrapVec (decodeFixed64Vec b)
  | _ => .ok []
/-- `From<DecoderLit> for f32`, /repo/protos/src/decoder/lit.rs:222-231, as a bit pattern. -/
def toF32 : DecoderLit → Res DecoderError UInt32
  | .float b => unwrapScalar 0 (decodeFloat b)
  | _ => .ok 0
/-- `From<DecoderLit> for Vec<f32>`, /repo/protos/src/decoder/lit.rs:233-242, as bit patterns. -/
def toF32Vec : DecoderLit → Res DecoderError (List UInt32)
  | .floatVec b => unwrapVec (decodeFloatVec b)
  | _ => .ok []
/-- `From<DecoderLit> for f64`, /repo/protos/src/decoder/lit.rs:244-253, as a bit pattern. -/
def toF64 : DecoderLit → Res DecoderError UInt64
  | .double b => unwrapScalar 0 (decodeDouble b)
  | _ => .ok 0
/-- `From<DecoderLit> for Vec<f64>`, /repo/protos/src/decoder/lit.rs:255-264, as bit patterns. -/
def toF64Vec : DecoderLit → Res DecoderError (List UInt64)
  | .doubleVec b => unwrapVec (decodeDoubleVec b)
  | _ => .ok []
/-- `From<DecoderLit> for Vec<u8>`, /repo/protos/src/decoder/lit.rs:266-273. -/
def toBytes : DecoderLit → Bytes
  | .bytes b => b
  | _ => []

end DecoderLit
end Verif.Protos
