import Verif.Huffman.Native
import Verif.Hpack.Primitives
import Verif.Hpack.Table
/-! The arithmetic of the HPACK crate with the build profile and pointer width as parameters: `chk` says whether overflow checks are on,
`w` is the width of `usize`. Indexing out of bounds panics in every profile. -/
namespace Verif.Hpack
open Verif.Huffman (Speed)

/-- The `loop` of `decode_integer`, /repo/hpack/src/decoder/primitives.rs:68-86. `value` is a `u32`; `total` and `shift` do not get beyond
5 and 35. -/
def decodeIntegerLoopOn (chk : Bool) (buf : Bytes) : Nat → Nat → Nat → Nat → Res DecoderError (Nat × Nat)
  | 0, _, _, _ => .hang
  | fuel + 1, total, shift, value =>
    if buf.isEmpty then .err .IntegerUnderflow
    else
      match buf[total]? with
      | none => .panic
      | some byte =>
        let total := total + 1
        if chk = true ∧ 32 ≤ shift then .panic
        else
          let value := value + ((byte &&& 127).toNat * 2 ^ (shift % 32)) % 2 ^ 32
          if chk = true ∧ 2 ^ 32 ≤ value then .panic
          else
            let value := value % 2 ^ 32
            if byte &&& 128 = 0 then .ok (value, total)
            else if total = 5 then .err .IntegerOverflow
            else decodeIntegerLoopOn chk buf fuel total (shift + 7) value

/-- `decode_integer`, /repo/hpack/src/decoder/primitives.rs:48-87. -/
def decodeIntegerOn (chk : Bool) (buf : Bytes) (prefixSize : Nat) : Res DecoderError (Nat × Nat) :=
  if prefixSize < 1 ∨ prefixSize > 8 then .err .InvalidPrefix
  else
    match buf with
    | [] => .err .IntegerUnderflow
    | byte :: _ =>
      let mask : UInt8 := UInt8.ofNat (2 ^ prefixSize - 1)
      let value := (byte &&& mask).toNat
      if value < mask.toNat then .ok (value, 1)
      else decodeIntegerLoopOn chk buf 5 1 0 value

/-- `decode_string`, /repo/hpack/src/decoder/primitives.rs:107-126. `len as usize` is exact on targets of at least 32 bits. Without overflow checks
`buf.len() - total` wraps; `total + len as usize` is an index within the buffer or the slice panics. -/
def decodeStringOn (chk : Bool) (w : Nat) (buf : Bytes) (speed : Speed) : Res DecoderError (Bytes × Nat) :=
  match buf with
  | [] => .panic
  | b0 :: _ => do
    let huffman := (b0 &&& 128) == 128
    let (len, total) ← decodeIntegerOn chk buf 7
    if chk = true ∧ buf.length < total then Res.panic
    else if len > (if total ≤ buf.length then buf.length - total else buf.length + 2 ^ w - total) then
      Res.err DecoderError.IntegerUnderflow
    else if buf.length < total + len then Res.panic
    else
      let data := (buf.drop total).take len
      if huffman then
        match Huffman.decodeOn chk w data [] speed with
        | (.ok (), dst) => Res.ok (dst, total + len)
        | (.err e, _) => Res.err (DecoderError.ofHuffman e)
        | (.panic, _) => Res.panic
        | (.hang, _) => Res.hang
      else Res.ok (data, total + len)

/-- `encode_string`, /repo/hpack/src/encoder/primitives.rs:90-112. (`encode_integer` has no operation that can overflow.) On a target
narrower than 32 bits `u32::MAX as usize` would wrap; we assume at least 32. -/
def encodeStringOn (chk : Bool) (data : Bytes) (huffman : Bool) : Res EncoderError Bytes := do
  let (flags, bytes) ←
    if huffman then
      match Huffman.encodeOn chk data [] with
      | (.ok (), dst) => Res.ok ((0x80 : UInt8), dst)
      | (.err e, _) => Res.err (EncoderError.ofHuffman e)
      | (.panic, _) => Res.panic
      | (.hang, _) => Res.hang
    else Res.ok ((0 : UInt8), data)
  if bytes.length > 2 ^ 32 - 1 then Res.err EncoderError.IntegerOverflow
  else do
    let b ← encodeInteger (UInt32.ofNat bytes.length) flags 7
    Res.ok (b ++ bytes)

/-- `consolidate`, /repo/hpack/src/table/dynamic.rs:95-101. -/
def Dynamic.consolidateLoopOn (chk : Bool) (w : Nat) {ε : Type} : Nat → Dynamic → Res ε Dynamic
  | 0, d => if d.size > d.maxSize.toNat then .hang else .ok d
  | fuel + 1, d =>
    if d.size > d.maxSize.toNat then
      match d.inner.getLast? with
      | some header =>
        let n := header.1.length + header.2.length + 32
        if n ≤ d.size then consolidateLoopOn chk w fuel { d with inner := d.inner.dropLast, size := d.size - n }
        else if chk = true then .panic
        else consolidateLoopOn chk w fuel { d with inner := d.inner.dropLast, size := d.size + 2 ^ w - n }
      | none => consolidateLoopOn chk w fuel d
    else .ok d

/-- /repo/hpack/src/table/dynamic.rs:95-101. -/
def Dynamic.consolidateOn (chk : Bool) (w : Nat) {ε : Type} (d : Dynamic) : Res ε Dynamic :=
  consolidateLoopOn chk w (d.inner.length + 1) d

/-- `update_max_size`, /repo/hpack/src/table/dynamic.rs:56-60. -/
def Dynamic.updateMaxSizeOn (chk : Bool) (w : Nat) {ε : Type} (d : Dynamic) (size : UInt32) : Res ε Dynamic :=
  Dynamic.consolidateOn chk w { d with maxSize := size }

/-- `DynamicTable::insert`, /repo/hpack/src/table/dynamic.rs:85-90: `self.size += name.len() + value.len() + 32`. -/
def Dynamic.insertOn (chk : Bool) (w : Nat) {ε : Type} (d : Dynamic) (name value : Bytes) : Res ε Dynamic :=
  if chk = true ∧ 2 ^ w ≤ d.size + (name.length + value.length + 32) then .panic
  else
    Dynamic.consolidateOn chk w
      { d with size := (d.size + (name.length + value.length + 32)) % 2 ^ w, inner := (name, value) :: d.inner }

end Verif.Hpack
