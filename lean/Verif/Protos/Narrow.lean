import Verif.Protos.Client
/-! `Decoder::decode` on a target whose `usize` has `w` bits.

The only place in protos/src/decoder where the width of `usize` matters for slices that fit the address space is the cast
`size as usize` in `extract_ld` (decoder/primitives.rs 676): on a 32-bit target it drops the high half of the declared length.
`Verif.Protos.decode` is the case `w = 64` (theorem `C91_width64`). -/
namespace Verif.Protos

/-- `extract_ld`, /repo/protos/src/decoder/primitives.rs:671-682; `u64 as usize` keeps the low `w` bits. -/
def extractLdOn (w : Nat) (buf : Bytes) (size : UInt64) : Res DecoderError (Bytes × Nat) :=
  let size := size.toNat % 2 ^ w
  if buf.length < size then .err .inputUnderflow else .ok (buf.take size, size)

/-- `Decoder::extract_ld_bytes`, /repo/protos/src/decoder/mod.rs:254-270. -/
def stepLdBytesOn (w : Nat) (len : UInt64) : M DState DecoderError Nat := fun s =>
  orUnderflow (extractLdOn w s.buf len) (fun bytes size s => ((s.push bytes).drain size).reset) s

/-- `Decoder::extract_ld`, /repo/protos/src/decoder/mod.rs:209-219. -/
def stepLdOn (w : Nat) (chk : Bool) : M DState DecoderError Nat := fun s =>
  match s.ldLen with
  | some len => stepLdBytesOn w len s
  | none => stepLdLen chk s

/-- One round of the loop of `Decoder::decode`, /repo/protos/src/decoder/mod.rs:78-95. -/
def decodeStepOn (w : Nat) (chk : Bool) : M DState DecoderError Nat := fun s =>
  match s.key.2 with
  | .unknown => stepKey chk s
  | .varint => stepVarint s
  | .bit32 => stepBit32 s
  | .bit64 => stepBit64 s
  | .lengthDelimited => stepLdOn w chk s

/-- Loop of `Decoder::decode`, /repo/protos/src/decoder/mod.rs:77-101. -/
def decodeLoopOn (w : Nat) (chk : Bool) : Nat → Nat → M DState DecoderError Nat
  | 0, _ => M.hang
  | fuel + 1, total => do
    let size ← decodeStepOn w chk
    if size = 0 then pure total else decodeLoopOn w chk fuel (total + size)

/-- `Decoder::decode`, /repo/protos/src/decoder/mod.rs:71-102. -/
def decodeOn (w : Nat) (chk : Bool) : M DState DecoderError Nat := fun s => decodeLoopOn w chk (s.buf.length + 1) 0 s

end Verif.Protos
