import Verif.Hpack.Table
import Verif.Hpack.Primitives
/-! Model of /repo/hpack/src/decoder/mod.rs. -/
namespace Verif.Hpack
open Verif.Huffman (Speed)

/-- A decoded header: name, value, flags. `(Vec<u8>, Vec<u8>, u8)`, /repo/hpack/src/decoder/mod.rs:103. -/
abbrev Field := Bytes × Bytes × UInt8

/-- `Decoder`, /repo/hpack/src/decoder/mod.rs:31-42, together with the `buf` and `dst` of its calls. -/
structure DecoderState where
  speed : Speed
  maxDynamicSize : UInt32
  table : Table
  buf : Bytes
  dst : List Field
  deriving Repr, DecidableEq

/-- `decode_indexed`, /repo/hpack/src/decoder/mod.rs:185-201. -/
def decodeIndexed : M DecoderState DecoderError Nat := do
  let s ← M.get
  let (index, total) ← M.lift (decodeInteger s.buf 7)
  match s.table.get (UInt32.ofNat index) with
  | none => M.throw .InvalidIndex
  | some (name, value) => do
    M.modify fun s => { s with dst := s.dst ++ [(name, value, 0x0)] }
    M.modify fun s => { s with buf := s.buf.drop total }
    pure total

/-- The name part of `decode_literal`, /repo/hpack/src/decoder/mod.rs:325-333: the name and the new `total`. `&buf[total..]` cannot
panic since `total ≤ buf.len()` (an empty slice is what makes `decode_string` panic). -/
def decodeName (s : DecoderState) (index total : Nat) : Res DecoderError (Bytes × Nat) :=
  if index = 0 then
    match decodeString (s.buf.drop total) s.speed with
    | .ok (name, n) => .ok (name, total + n)
    | .err e => .err e
    | .panic => .panic
    | .hang => .hang
  else
    match s.table.get (UInt32.ofNat index) with
    | some h => .ok (h.1, total)
    | none => .err .InvalidIndex

/-- `decode_literal`, /repo/hpack/src/decoder/mod.rs:308-349. `buf[0]` on an empty buffer panics (never called so). -/
def decodeLiteral : M DecoderState DecoderError Nat := do
  let s ← M.get
  match s.buf with
  | [] => M.panic
  | octet :: _ => do
    let pfx := if octet &&& 64 = 64 then 6 else 4
    let (index, total) ← M.lift (decodeInteger s.buf pfx)
    let (name, total) ← M.lift (decodeName s index total)
    let (value, n) ← M.lift (decodeString (s.buf.drop total) s.speed)
    let total := total + n
    (if octet &&& 64 = 64 then do
      let t ← M.lift (s.table.insert name value)
      M.modify fun s => { s with table := t, dst := s.dst ++ [(name, value, 0x4)] }
    else if octet &&& 16 = 16 then M.modify fun s => { s with dst := s.dst ++ [(name, value, 0x8)] }
    else M.modify fun s => { s with dst := s.dst ++ [(name, value, 0x0)] })
    M.modify fun s => { s with buf := s.buf.drop total }
    pure total

/-- `update_max_dynamic_size`, /repo/hpack/src/decoder/mod.rs:372-387. -/
def decUpdateMaxDynamicSize : M DecoderState DecoderError Nat := do
  let s ← M.get
  let (newSize, total) ← M.lift (decodeInteger s.buf 5)
  if UInt32.ofNat newSize > s.maxDynamicSize then M.throw .InvalidMaxDynamicSize
  else do
    let t ← M.lift (s.table.updateMaxDynamicSize (UInt32.ofNat newSize))
    M.modify fun s => { s with table := t }
    M.modify fun s => { s with buf := s.buf.drop total }
    pure total

/-- One round of the loop of `decode_exact` on a non-empty buffer, /repo/hpack/src/decoder/mod.rs:152-163: the number added to
`total` (the result of `update_max_dynamic_size` is dropped). -/
def decodeOne : M DecoderState DecoderError Nat := do
  let s ← M.get
  match s.buf with
  | [] => M.panic
  | octet :: _ =>
    if octet &&& 128 = 128 then decodeIndexed
    else if octet &&& 64 = 64 then decodeLiteral
    else if octet &&& 32 = 32 then do
      let _ ← decUpdateMaxDynamicSize
      pure 0
    else if octet &&& 16 = 16 then decodeLiteral
    else decodeLiteral

/-- The loop of `decode_exact`, /repo/hpack/src/decoder/mod.rs:145-164, with `limit` rounds left and `total` counted so far. -/
def decodeExactLoop : Nat → Nat → M DecoderState DecoderError Nat
  | 0, total => pure total
  | limit + 1, total => do
    let s ← M.get
    if s.buf.isEmpty then pure total
    else do
      let n ← decodeOne
      decodeExactLoop limit (total + n)

/-- `decode_exact`, /repo/hpack/src/decoder/mod.rs:138-165. `dst.capacity()` is a parameter: it is at least the length of `dst` but
otherwise up to the allocator. -/
def decodeExact (capacity : Nat) : M DecoderState DecoderError Nat := decodeExactLoop capacity 0

/-- The loop of `decode`, /repo/hpack/src/decoder/mod.rs:106-114. `data` is a fresh vector of capacity 1 (`Vec::with_capacity(1)`,
taken to be exact); it is dropped when `decode_exact` fails. Fuel: each round consumes at least one byte. -/
def decodeLoop : Nat → Nat → M DecoderState DecoderError Nat
  | fuel, total => fun s =>
    if s.buf.isEmpty then (.ok total, s)
    else
      match fuel with
      | 0 => (.hang, s)
      | fuel + 1 =>
        match decodeExact 1 { s with dst := [] } with
        | (.ok n, s') => decodeLoop fuel (total + n) { s' with dst := s.dst ++ s'.dst }
        | (.err e, s') => (.err e, { s' with dst := s.dst })
        | (.panic, s') => (.panic, { s' with dst := s.dst })
        | (.hang, s') => (.hang, { s' with dst := s.dst })

/-- `decode`, /repo/hpack/src/decoder/mod.rs:100-115. -/
def decode : M DecoderState DecoderError Nat := fun s => decodeLoop s.buf.length 0 s

/-- `Decoder::set_max_dynamic_size`, /repo/hpack/src/decoder/mod.rs:76-78. -/
def DecoderState.setMaxDynamicSize (s : DecoderState) (n : UInt32) : DecoderState := { s with maxDynamicSize := n }

/-- `Decoder::max_dynamic_size`, /repo/hpack/src/decoder/mod.rs:66-68: the maximum of the table, not the limit. -/
def DecoderState.getMaxDynamicSize (s : DecoderState) : UInt32 := s.table.maxDynamicSize

/-- `Decoder::with_dynamic_size`, /repo/hpack/src/decoder/mod.rs:54-60, with empty buffers. -/
def DecoderState.withDynamicSize (n : UInt32) : DecoderState :=
  { speed := .FiveBits, maxDynamicSize := n, table := Table.withDynamicSize n, buf := [], dst := [] }

/-- `Decoder::default`, /repo/hpack/src/decoder/mod.rs:390-399. -/
def DecoderState.default : DecoderState :=
  { speed := .FiveBits, maxDynamicSize := Table.default.maxDynamicSize, table := Table.default, buf := [], dst := [] }

end Verif.Hpack
