import Verif.Huffman.Cost
import Verif.Hpack.Cost
/-! The HPACK tables and the HPACK decoder with counters for the work they do: /repo/hpack/src/table/{mod,iter,dynamic}.rs and
/repo/hpack/src/decoder/{mod,primitives}.rs. The functions are those of `Verif.Hpack.Table`, `Verif.Hpack.Primitives` and
`Verif.Hpack.Decoder` with counting added (theorems `findC_result`, `evictionsOf_spec`, `decodeW_result`). -/
namespace Verif.Hpack
open Verif.Huffman (Speed)

/-! ### Table search -/

/-- The loop of `Table::find`, /repo/hpack/src/table/mod.rs:163-180, pulling the headers one by one from the iterator
(/repo/hpack/src/table/iter.rs:13-21): the result and the number of calls of `next`. `index` is the field of the iterator, `i` the counter of
`enumerate`. `none`: more calls than the fuel. -/
def Table.findLoopC (t : Table) (name value : Bytes) : Nat → UInt32 → Nat → Option Nat → Nat → Option (Option (Nat × Bool) × Nat)
  | 0, _, _, _, _ => none
  | fuel + 1, index, i, nameMatch, calls =>
    match t.get index with
    | none =>
      match nameMatch with
      | some i => some (some (i, false), calls + 1)
      | none => some (none, calls + 1)
    | some h =>
      if name = h.1 then
        if value = h.2 then some (some (i + 1, true), calls + 1)
        else if nameMatch.isNone then t.findLoopC name value fuel (index + 1) (i + 1) (some (i + 1)) (calls + 1)
        else t.findLoopC name value fuel (index + 1) (i + 1) nameMatch (calls + 1)
      else t.findLoopC name value fuel (index + 1) (i + 1) nameMatch (calls + 1)

/-- `Table::find`, /repo/hpack/src/table/mod.rs:163-180, with the number of calls of `next`. -/
def Table.findC (t : Table) (name value : Bytes) : Option (Option (Nat × Bool) × Nat) :=
  t.findLoopC name value (t.len + 1) 1 0 none 0

/-! ### Eviction -/

/-- The number of `pop_back` in `consolidate`, /repo/hpack/src/table/dynamic.rs:95-101. -/
def Dynamic.popsLoop : Nat → Dynamic → Nat
  | 0, _ => 0
  | fuel + 1, d =>
    if d.size > d.maxSize.toNat then
      match d.inner.getLast? with
      | some header =>
        let n := header.1.length + header.2.length + 32
        if n ≤ d.size then 1 + popsLoop fuel { d with inner := d.inner.dropLast, size := d.size - n } else 1
      | none => 1 + popsLoop fuel d
    else 0

/-- The number of `pop_back` in `consolidate`, /repo/hpack/src/table/dynamic.rs:95-101, with enough fuel. -/
def Dynamic.pops (d : Dynamic) : Nat := popsLoop (d.inner.length + 1) d

/-- The number of `pop_back` in `Table::insert`, /repo/hpack/src/table/dynamic.rs:85-90 and /repo/hpack/src/table/mod.rs:183-185. -/
def Table.popsInsert (t : Table) (name value : Bytes) : Nat :=
  Dynamic.pops { t.dynamic with
    size := t.dynamic.size + (name.length + value.length + 32), inner := (name, value) :: t.dynamic.inner }

/-- The number of `pop_back` in `Table::update_max_dynamic_size`, /repo/hpack/src/table/dynamic.rs:56-60 and /repo/hpack/src/table/mod.rs:121-123. -/
def Table.popsResize (t : Table) (size : UInt32) : Nat := Dynamic.pops { t.dynamic with maxSize := size }

/-! ### Decoder -/

/-- The decoder with a counter of lookups in a Huffman decoding table. (Instrumentation, no line of /repo.) -/
abbrev MW := M (DecoderState × Nat) DecoderError

/-- A step of the decoder without Huffman decoding. (Instrumentation, no line of /repo.) -/
def free {α : Type} (m : M DecoderState DecoderError α) : MW α := fun s => ((m s.1).1, ((m s.1).2, s.2))

/-- Add the lookups that belong to a result. (Instrumentation, no line of /repo.) -/
def liftW {α : Type} (r : Res DecoderError α × Nat) : MW α := fun s => (r.1, (s.1, s.2 + r.2))

/-- `decode_string`, /repo/hpack/src/decoder/primitives.rs:107-126: the result and the lookups of the Huffman decoder. -/
def decodeStringW (buf : Bytes) (speed : Speed) : Res DecoderError (Bytes × Nat) × Nat :=
  match buf with
  | [] => (.panic, 0)
  | b0 :: _ =>
    let huffman := (b0 &&& 128) == 128
    match decodeInteger buf 7 with
    | .ok (len, total) =>
      if buf.length < total then (.panic, 0)
      else if len > buf.length - total then (.err .IntegerUnderflow, 0)
      else
        let data := (buf.drop total).take len
        if huffman then
          match Huffman.decodeC data [] speed with
          | (.ok (), dst, w) => (.ok (dst, total + len), w.lookups)
          | (.err e, _, w) => (.err (DecoderError.ofHuffman e), w.lookups)
          | (.panic, _, w) => (.panic, w.lookups)
          | (.hang, _, w) => (.hang, w.lookups)
        else (.ok (data, total + len), 0)
    | .err e => (.err e, 0)
    | .panic => (.panic, 0)
    | .hang => (.hang, 0)

/-- The name part of `decode_literal`, /repo/hpack/src/decoder/mod.rs:325-333. -/
def decodeNameW (s : DecoderState) (index total : Nat) : Res DecoderError (Bytes × Nat) × Nat :=
  if index = 0 then
    match decodeStringW (s.buf.drop total) s.speed with
    | (.ok (name, n), w) => (.ok (name, total + n), w)
    | (.err e, w) => (.err e, w)
    | (.panic, w) => (.panic, w)
    | (.hang, w) => (.hang, w)
  else
    match s.table.get (UInt32.ofNat index) with
    | some h => (.ok (h.1, total), 0)
    | none => (.err .InvalidIndex, 0)

/-- `decode_literal`, /repo/hpack/src/decoder/mod.rs:308-349. -/
def decodeLiteralW : MW Nat := do
  let s ← M.get
  match s.1.buf with
  | [] => M.panic
  | octet :: _ => do
    let pfx := if octet &&& 64 = 64 then 6 else 4
    let (index, total) ← M.lift (decodeInteger s.1.buf pfx)
    let (name, total) ← liftW (decodeNameW s.1 index total)
    let (value, n) ← liftW (decodeStringW (s.1.buf.drop total) s.1.speed)
    let total := total + n
    free (do
      if octet &&& 64 = 64 then do
        let t ← M.lift (s.1.table.insert name value)
        M.modify fun s => { s with table := t, dst := s.dst ++ [(name, value, 0x4)] }
      else if octet &&& 16 = 16 then M.modify fun s => { s with dst := s.dst ++ [(name, value, 0x8)] }
      else M.modify fun s => { s with dst := s.dst ++ [(name, value, 0x0)] })
    free (M.modify fun s => { s with buf := s.buf.drop total })
    pure total

/-- One round of the loop of `decode_exact`, /repo/hpack/src/decoder/mod.rs:152-163. -/
def decodeOneW : MW Nat := do
  let s ← M.get
  match s.1.buf with
  | [] => M.panic
  | octet :: _ =>
    if octet &&& 128 = 128 then free decodeIndexed
    else if octet &&& 64 = 64 then decodeLiteralW
    else if octet &&& 32 = 32 then do
      let _ ← free decUpdateMaxDynamicSize
      pure 0
    else if octet &&& 16 = 16 then decodeLiteralW
    else decodeLiteralW

/-- The loop of `decode_exact`, /repo/hpack/src/decoder/mod.rs:145-164. -/
def decodeExactLoopW : Nat → Nat → MW Nat
  | 0, total => pure total
  | limit + 1, total => do
    let s ← M.get
    if s.1.buf.isEmpty then pure total
    else do
      let n ← decodeOneW
      decodeExactLoopW limit (total + n)

/-- `decode_exact`, /repo/hpack/src/decoder/mod.rs:138-165. -/
def decodeExactW (capacity : Nat) : MW Nat := decodeExactLoopW capacity 0

/-- The loop of `decode`, /repo/hpack/src/decoder/mod.rs:106-114. -/
def decodeLoopW : Nat → Nat → MW Nat
  | fuel, total => fun s =>
    if s.1.buf.isEmpty then (.ok total, s)
    else
      match fuel with
      | 0 => (.hang, s)
      | fuel + 1 =>
        match decodeExactW 1 ({ s.1 with dst := [] }, s.2) with
        | (.ok n, s') => decodeLoopW fuel (total + n) ({ s'.1 with dst := s.1.dst ++ s'.1.dst }, s'.2)
        | (.err e, s') => (.err e, ({ s'.1 with dst := s.1.dst }, s'.2))
        | (.panic, s') => (.panic, ({ s'.1 with dst := s.1.dst }, s'.2))
        | (.hang, s') => (.hang, ({ s'.1 with dst := s.1.dst }, s'.2))

/-- `decode`, /repo/hpack/src/decoder/mod.rs:100-115: result, decoder, lookups in the Huffman decoding tables. -/
def decodeW (s : DecoderState) : Res DecoderError Nat × DecoderState × Nat := decodeLoopW s.buf.length 0 (s, 0)

end Verif.Hpack
