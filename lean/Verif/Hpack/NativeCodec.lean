import Verif.Hpack.Native
import Verif.Hpack.Encoder
import Verif.Hpack.Decoder
/-! `Encoder` and `Decoder` of the HPACK crate with the build profile (`chk`: overflow checks) and the width `w` of `usize` as parameters. -/
namespace Verif.Hpack
open Verif.Huffman (Speed)

/-- `+=` of `usize`: panics or wraps. The additions to `total` in /repo/hpack/src/decoder/mod.rs:112, 154-162, 323-336. -/
def addOn (chk : Bool) (w : Nat) {ε : Type} (a b : Nat) : Res ε Nat :=
  if chk = true ∧ 2 ^ w ≤ a + b then .panic else .ok ((a + b) % 2 ^ w)

/-- `Table::insert`, /repo/hpack/src/table/mod.rs:183-185. -/
def Table.insertOn (chk : Bool) (w : Nat) {ε : Type} (t : Table) (name value : Bytes) : Res ε Table :=
  match t.dynamic.insertOn chk w (ε := ε) name value with
  | .ok d => .ok ⟨d⟩
  | .err e => .err e
  | .panic => .panic
  | .hang => .hang

/-- `Table::update_max_dynamic_size`, /repo/hpack/src/table/mod.rs:121-123. -/
def Table.updateMaxDynamicSizeOn (chk : Bool) (w : Nat) {ε : Type} (t : Table) (size : UInt32) : Res ε Table :=
  match t.dynamic.updateMaxSizeOn chk w (ε := ε) size with
  | .ok d => .ok ⟨d⟩
  | .err e => .err e
  | .panic => .panic
  | .hang => .hang

/-- `decode_indexed`, /repo/hpack/src/decoder/mod.rs:185-201. -/
def decodeIndexedOn (chk : Bool) : M DecoderState DecoderError Nat := do
  let s ← M.get
  let (index, total) ← M.lift (decodeIntegerOn chk s.buf 7)
  match s.table.get (UInt32.ofNat index) with
  | none => M.throw .InvalidIndex
  | some (name, value) => do
    M.modify fun s => { s with dst := s.dst ++ [(name, value, 0x0)] }
    M.modify fun s => { s with buf := s.buf.drop total }
    pure total

/-- The name part of `decode_literal`, /repo/hpack/src/decoder/mod.rs:325-333. -/
def decodeNameOn (chk : Bool) (w : Nat) (s : DecoderState) (index total : Nat) : Res DecoderError (Bytes × Nat) :=
  if index = 0 then
    match decodeStringOn chk w (s.buf.drop total) s.speed with
    | .ok (name, n) => do
      let total ← addOn chk w total n
      .ok (name, total)
    | .err e => .err e
    | .panic => .panic
    | .hang => .hang
  else
    match s.table.get (UInt32.ofNat index) with
    | some h => .ok (h.1, total)
    | none => .err .InvalidIndex

/-- `decode_literal`, /repo/hpack/src/decoder/mod.rs:308-349. -/
def decodeLiteralOn (chk : Bool) (w : Nat) : M DecoderState DecoderError Nat := do
  let s ← M.get
  match s.buf with
  | [] => M.panic
  | octet :: _ => do
    let pfx := if octet &&& 64 = 64 then 6 else 4
    let (index, total) ← M.lift (decodeIntegerOn chk s.buf pfx)
    let (name, total) ← M.lift (decodeNameOn chk w s index total)
    let (value, n) ← M.lift (decodeStringOn chk w (s.buf.drop total) s.speed)
    let total ← M.lift (addOn chk w total n)
    (if octet &&& 64 = 64 then do
      let t ← M.lift (s.table.insertOn chk w name value)
      M.modify fun s => { s with table := t, dst := s.dst ++ [(name, value, 0x4)] }
    else if octet &&& 16 = 16 then M.modify fun s => { s with dst := s.dst ++ [(name, value, 0x8)] }
    else M.modify fun s => { s with dst := s.dst ++ [(name, value, 0x0)] })
    M.modify fun s => { s with buf := s.buf.drop total }
    pure total

/-- `update_max_dynamic_size`, /repo/hpack/src/decoder/mod.rs:372-387. -/
def decUpdateMaxDynamicSizeOn (chk : Bool) (w : Nat) : M DecoderState DecoderError Nat := do
  let s ← M.get
  let (newSize, total) ← M.lift (decodeIntegerOn chk s.buf 5)
  if UInt32.ofNat newSize > s.maxDynamicSize then M.throw .InvalidMaxDynamicSize
  else do
    let t ← M.lift (s.table.updateMaxDynamicSizeOn chk w (UInt32.ofNat newSize))
    M.modify fun s => { s with table := t }
    M.modify fun s => { s with buf := s.buf.drop total }
    pure total

/-- One round of the loop of `decode_exact` on a non-empty buffer, /repo/hpack/src/decoder/mod.rs:152-163. -/
def decodeOneOn (chk : Bool) (w : Nat) : M DecoderState DecoderError Nat := do
  let s ← M.get
  match s.buf with
  | [] => M.panic
  | octet :: _ =>
    if octet &&& 128 = 128 then decodeIndexedOn chk
    else if octet &&& 64 = 64 then decodeLiteralOn chk w
    else if octet &&& 32 = 32 then do
      let _ ← decUpdateMaxDynamicSizeOn chk w
      pure 0
    else if octet &&& 16 = 16 then decodeLiteralOn chk w
    else decodeLiteralOn chk w

/-- The loop of `decode_exact`, /repo/hpack/src/decoder/mod.rs:145-164. -/
def decodeExactLoopOn (chk : Bool) (w : Nat) : Nat → Nat → M DecoderState DecoderError Nat
  | 0, total => pure total
  | limit + 1, total => do
    let s ← M.get
    if s.buf.isEmpty then pure total
    else do
      let n ← decodeOneOn chk w
      let total ← M.lift (addOn chk w total n)
      decodeExactLoopOn chk w limit total

/-- `decode_exact`, /repo/hpack/src/decoder/mod.rs:138-165. -/
def decodeExactOn (chk : Bool) (w : Nat) (capacity : Nat) : M DecoderState DecoderError Nat := decodeExactLoopOn chk w capacity 0

/-- The loop of `decode`, /repo/hpack/src/decoder/mod.rs:106-114. -/
def decodeLoopOn (chk : Bool) (w : Nat) : Nat → Nat → M DecoderState DecoderError Nat
  | fuel, total => fun s =>
    if s.buf.isEmpty then (.ok total, s)
    else
      match fuel with
      | 0 => (.hang, s)
      | fuel + 1 =>
        match decodeExactOn chk w 1 { s with dst := [] } with
        | (.ok n, s') =>
          match addOn chk w total n with
          | .ok total => decodeLoopOn chk w fuel total { s' with dst := s.dst ++ s'.dst }
          | .err e => (.err e, { s' with dst := s.dst })
          | .panic => (.panic, { s' with dst := s.dst })
          | .hang => (.hang, { s' with dst := s.dst })
        | (.err e, s') => (.err e, { s' with dst := s.dst })
        | (.panic, s') => (.panic, { s' with dst := s.dst })
        | (.hang, s') => (.hang, { s' with dst := s.dst })

/-- `decode`, /repo/hpack/src/decoder/mod.rs:100-115. -/
def decodeOn (chk : Bool) (w : Nat) : M DecoderState DecoderError Nat := fun s => decodeLoopOn chk w s.buf.length 0 s

/-- `self.table.insert(..)`, /repo/hpack/src/encoder/mod.rs:275 and 364. -/
def encInsertOn (chk : Bool) (w : Nat) (name value : Bytes) : M EncoderState EncoderError Unit := do
  let s ← M.get
  let t ← M.lift (s.table.insertOn chk w name value)
  M.modify fun s => { s with table := t }

/-- `encode_indexed_name`, /repo/hpack/src/encoder/mod.rs:260-284. (`encode_indexed` is `encodeIndexed`: it has no arithmetic that can overflow.) -/
def encodeIndexedNameOn (chk : Bool) (w : Nat) (index : UInt32) (value : Bytes) (flags : UInt8) : M EncoderState EncoderError Unit := do
  let s ← M.get
  match s.table.get index with
  | none => M.throw .InvalidIndex
  | some entry => do
    (if flags &&& 0x4 = 0x4 then do
      encInsertOn chk w entry.1 value
      pushBytes (encodeInteger index 0x40 6)
    else if flags &&& 0x8 = 0x8 then pushBytes (encodeInteger index 0x10 4)
    else pushBytes (encodeInteger index 0x0 4))
    pushBytes (encodeStringOn chk value (flags &&& 0x2 = 0x2))

/-- `encode_literal`, /repo/hpack/src/encoder/mod.rs:354-373. -/
def encodeLiteralOn (chk : Bool) (w : Nat) (name value : Bytes) (flags : UInt8) : M EncoderState EncoderError Unit := do
  (if flags &&& 0x4 = 0x4 then do
    M.modify fun s => { s with dst := s.dst ++ [0x40] }
    encInsertOn chk w name value
  else if flags &&& 0x8 = 0x8 then M.modify fun s => { s with dst := s.dst ++ [0x10] }
  else M.modify fun s => { s with dst := s.dst ++ [0x0] })
  pushBytes (encodeStringOn chk name (flags &&& 0x1 = 0x1))
  pushBytes (encodeStringOn chk value (flags &&& 0x2 = 0x2))

/-- `encode`, /repo/hpack/src/encoder/mod.rs:141-174. (`find` counts to at most 2^27 + 61.) -/
def encodeOn (chk : Bool) (w : Nat) (field : EncoderInput) : M EncoderState EncoderError Unit :=
  match field with
  | .Indexed index => encodeIndexed index
  | .IndexedName index value flags => encodeIndexedNameOn chk w index value flags
  | .Literal name value flags =>
    if flags &&& 0x10 = 0x10 then do
      let s ← M.get
      match s.table.find name value with
      | none => M.hang
      | some (some (index, true)) => encodeIndexed (UInt32.ofNat index)
      | some (some (index, false)) => encodeIndexedNameOn chk w (UInt32.ofNat index) value flags
      | some none => encodeLiteralOn chk w name value flags
    else encodeLiteralOn chk w name value flags

/-- `update_max_dynamic_size`, /repo/hpack/src/encoder/mod.rs:393-400. -/
def encUpdateMaxDynamicSizeOn (chk : Bool) (w : Nat) (size : UInt32) : M EncoderState EncoderError Unit := do
  let s ← M.get
  let t ← M.lift (s.table.updateMaxDynamicSizeOn chk w size)
  M.modify fun s => { s with table := t }
  pushBytes (encodeInteger size 0x20 5)

end Verif.Hpack
