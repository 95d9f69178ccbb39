import Verif.Hpack.Types
import Verif.Huffman.Encoder
import Verif.Huffman.Decoder
/-! Model of /repo/hpack/src/encoder/{primitives,error}.rs and /repo/hpack/src/decoder/{primitives,error}.rs. -/
namespace Verif.Hpack
open Verif.Huffman (Speed)

/-- The loop `while value >= 128 {..}` and the last byte of `encode_integer`, /repo/hpack/src/encoder/primitives.rs:63-68. The fuel
bounds the number of rounds; a `u32` needs at most five. -/
def contBytes : Nat → Nat → Bytes
  | 0, value => [UInt8.ofNat value]
  | fuel + 1, value =>
    if value ≥ 128 then (128 ||| UInt8.ofNat value) :: contBytes fuel (value / 128)
    else [UInt8.ofNat value]

/-- `encode_integer`, /repo/hpack/src/encoder/primitives.rs:44-70. Returns the bytes pushed to `dst`.
`prefix_size` is a `u8` in the code. -/
def encodeInteger (value : UInt32) (flags : UInt8) (prefixSize : Nat) : Res EncoderError Bytes :=
  if prefixSize < 1 ∨ prefixSize > 8 then .err .InvalidPrefix
  else
    let mask : UInt8 := UInt8.ofNat (2 ^ prefixSize - 1)
    let flags := flags &&& (255 - mask)
    if value.toNat < mask.toNat then .ok [flags ||| UInt8.ofNat value.toNat]
    else .ok ((flags ||| mask) :: contBytes 5 (value.toNat - mask.toNat))

/-- `From<HuffmanError> for EncoderError`, /repo/hpack/src/encoder/error.rs:28-34. In `encodeString` it is applied by `?`. -/
@[simp] def EncoderError.ofHuffman : Huffman.EncErr → EncoderError
  | .InvalidInput => .InvalidInput

/-- `From<HuffmanError> for DecoderError`, /repo/hpack/src/decoder/error.rs:34-40. In `decodeString` it is applied by `?`. -/
@[simp] def DecoderError.ofHuffman : Huffman.DecErr → DecoderError
  | .InvalidInput => .InvalidInput

/-- `encode_string`, /repo/hpack/src/encoder/primitives.rs:90-112. Returns the bytes pushed to `dst`. -/
def encodeString (data : Bytes) (huffman : Bool) : Res EncoderError Bytes := do
  let (flags, bytes) ←
    if huffman then
      match Huffman.encode data [] with
      | (.ok (), dst) => Res.ok ((0x80 : UInt8), dst)
      | (.err e, _) => Res.err (EncoderError.ofHuffman e)
      | (.panic, _) => Res.panic
      | (.hang, _) => Res.hang
    else Res.ok ((0 : UInt8), data)
  if bytes.length > 2 ^ 32 - 1 then Res.err EncoderError.IntegerOverflow
  else do
    let b ← encodeInteger (UInt32.ofNat bytes.length) flags 7
    Res.ok (b ++ bytes)

/-- The `loop` of `decode_integer`, /repo/hpack/src/decoder/primitives.rs:68-86. `total` bytes have been read. The
test `buf.is_empty()` never helps, since `buf` is not consumed: reading beyond the end indexes out of bounds.
`value +=` is a checked `u32` addition, the `<<` a `u32` shift (panics at 32 or more). -/
def decodeIntegerLoop (buf : Bytes) : Nat → Nat → Nat → Nat → Res DecoderError (Nat × Nat)
  | 0, _, _, _ => .hang
  | fuel + 1, total, shift, value =>
    if buf.isEmpty then .err .IntegerUnderflow
    else
      match buf[total]? with
      | none => .panic
      | some byte =>
        let total := total + 1
        if 32 ≤ shift then .panic
        else
          let value := value + ((byte &&& 127).toNat * 2 ^ shift) % 2 ^ 32
          if 2 ^ 32 ≤ value then .panic
          else if byte &&& 128 = 0 then .ok (value, total)
          else if total = 5 then .err .IntegerOverflow
          else decodeIntegerLoop buf fuel total (shift + 7) value

/-- `decode_integer`, /repo/hpack/src/decoder/primitives.rs:48-87. The result is the value written to `*dst` and the
returned number of bytes; on error `*dst` is not written. -/
def decodeInteger (buf : Bytes) (prefixSize : Nat) : Res DecoderError (Nat × Nat) :=
  if prefixSize < 1 ∨ prefixSize > 8 then .err .InvalidPrefix
  else
    match buf with
    | [] => .err .IntegerUnderflow
    | byte :: _ =>
      let mask : UInt8 := UInt8.ofNat (2 ^ prefixSize - 1)
      let value := (byte &&& mask).toNat
      if value < mask.toNat then .ok (value, 1)
      else decodeIntegerLoop buf 5 1 0 value

/-- `decode_string`, /repo/hpack/src/decoder/primitives.rs:107-126, with the `dst` it is called with everywhere: a
fresh empty vector. Returns the string and the number of bytes used. `buf[0]` panics on an empty buffer;
`buf.len() - total` is a checked subtraction. -/
def decodeString (buf : Bytes) (speed : Speed) : Res DecoderError (Bytes × Nat) :=
  match buf with
  | [] => .panic
  | b0 :: _ => do
    let huffman := (b0 &&& 128) == 128
    let (len, total) ← decodeInteger buf 7
    if buf.length < total then Res.panic
    else if len > buf.length - total then Res.err DecoderError.IntegerUnderflow
    else
      let data := (buf.drop total).take len
      if huffman then
        match Huffman.decode data [] speed with
        | (.ok (), dst) => Res.ok (dst, total + len)
        | (.err e, _) => Res.err (DecoderError.ofHuffman e)
        | (.panic, _) => Res.panic
        | (.hang, _) => Res.hang
      else Res.ok (data, total + len)

end Verif.Hpack
