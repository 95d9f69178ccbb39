import Verif.Basic
import Verif.Huffman.DecodeTable1
import Verif.Huffman.DecodeTable2
import Verif.Huffman.DecodeTable3
import Verif.Huffman.DecodeTable4
import Verif.Huffman.DecodeTable5
/-! Model of /repo/huffman/src/decoder/{mod,reader,speed,error}.rs. -/
namespace Verif.Huffman

/-- /repo/huffman/src/decoder/error.rs:6-11 `DecoderError`. -/
inductive DecErr where
  | InvalidInput
  deriving Repr, DecidableEq

/-- /repo/huffman/src/decoder/speed.rs:4-19 `DecoderSpeed`. -/
inductive Speed where
  | OneBit | TwoBits | ThreeBits | FourBits | FiveBits
  deriving Repr, DecidableEq

/-- `speed as usize`, discriminants of /repo/huffman/src/decoder/speed.rs:4-19. -/
def Speed.toNat : Speed → Nat
  | .OneBit => 1 | .TwoBits => 2 | .ThreeBits => 3 | .FourBits => 4 | .FiveBits => 5

/-- `DecoderSpeed::known`, /repo/huffman/src/decoder/speed.rs:21-31. -/
def Speed.known : List Speed := [.OneBit, .TwoBits, .ThreeBits, .FourBits, .FiveBits]

/-- `DecodeReader`, /repo/huffman/src/decoder/reader.rs:5-26, together with the `dst: &mut Vec<u8>` all its
methods take. `usize` fields are naturals; the operations on them check or wrap at 64 bits. -/
structure Reader where
  speed : Nat
  id : Nat
  buf : Nat
  bufSize : Nat
  tail : Nat
  tailSize : Nat
  dst : Bytes
  deriving Repr, DecidableEq

/-- A cell of a decoding table: `(next_id, ascii, leftover)`.
`(Option<u8>, Option<u16>, u8)`, /repo/huffman/src/decoder/table1.rs and its siblings, /repo/huffman/src/flattener/mod.rs:144. -/
abbrev Cell := Option Nat × Option Nat × Nat

/-- Selection of the table by speed in `find_target`, /repo/huffman/src/decoder/reader.rs:135-181. -/
def tableOf (speed : Nat) : List (List Cell) :=
  match speed with
  | 2 => DECODE_TABLE2
  | 3 => DECODE_TABLE3
  | 4 => DECODE_TABLE4
  | 5 => DECODE_TABLE5
  | _ => DECODE_TABLE1

/-- Two-level `get` used in each arm of `find_target`, /repo/huffman/src/decoder/reader.rs:137-143. -/
def lookup (t : List (List Cell)) (id key : Nat) : Option Cell :=
  match t[id]? with
  | some transitions => transitions[key]?
  | none => none

/-- `find_target`, /repo/huffman/src/decoder/reader.rs:134-182. -/
def findTarget (speed id key : Nat) : Res DecErr Cell :=
  match lookup (tableOf speed) id key with
  | some c => .ok c
  | none => .err .InvalidInput

/-- `decode_next`, /repo/huffman/src/decoder/reader.rs:104-131. -/
def decodeNext : M Reader DecErr Unit := do
  let r ← M.get
  let sh ← subU r.bufSize r.speed
  let key ← shr64 r.buf sh
  let (nextId, ascii, leftover) ← M.lift (findTarget r.speed r.id key)
  -- self.buf -= key >> leftover << self.buf_size - self.speed + leftover as usize;
  let hi ← shr64 key leftover
  let rm ← shl64 hi (sh + leftover)
  let buf ← subU r.buf rm
  -- self.buf_size -= self.speed - leftover as usize;
  let used ← subU r.speed leftover
  let bufSize ← subU r.bufSize used
  -- self.tail <<= self.speed - leftover as usize; self.tail |= key >> leftover;
  let tl ← shl64 r.tail used
  M.modify fun r => { r with buf := buf, bufSize := bufSize, tail := tl ||| hi, tailSize := r.tailSize + used }
  match ascii with
  | some a =>
    M.modify fun r => { r with id := 0, tail := 0, tailSize := 0 }
    if a < 256 then M.modify fun r => { r with dst := r.dst ++ [UInt8.ofNat a] }
    else M.throw .InvalidInput
  | none =>
    match nextId with
    | some n => M.modify fun r => { r with id := n }
    | none => M.throw .InvalidInput

/-- The `loop` in `decode`, /repo/huffman/src/decoder/reader.rs:49-55. -/
def decodeLoop : Nat → M Reader DecErr Unit
  | 0 => do
    let r ← M.get
    if r.bufSize < r.speed then pure () else M.hang
  | fuel + 1 => do
    let r ← M.get
    if r.bufSize < r.speed then pure ()
    else do decodeNext; decodeLoop fuel

/-- `decode` of one byte, /repo/huffman/src/decoder/reader.rs:43-58. The fuel is the number of buffered bits: each round removes at
least one (theorem: never exhausted). -/
def readByte (byte : UInt8) : M Reader DecErr Unit := do
  let r ← M.get
  let b ← shl64 r.buf 8
  M.modify fun r => { r with buf := b ||| byte.toNat, bufSize := r.bufSize + 8 }
  decodeLoop (r.bufSize + 8)

/-- First part of `finalize`, /repo/huffman/src/decoder/reader.rs:73-79: if the zero-extended rest of the buffer starts with a complete
character, decode it. -/
def finalizeChar (shiftLen : Nat) : M Reader DecErr Unit := do
  let r ← M.get
  if r.bufSize ≥ r.speed then
    match findTarget r.speed r.id r.buf with
    | .ok (_, _, leftover) => if shiftLen ≤ leftover then decodeNext else pure ()
    | _ => pure ()
  else pure ()

/-- Second part of `finalize`, /repo/huffman/src/decoder/reader.rs:81-97: collect the unread bits and judge them by their value.
`vec![0, 1, .., 127].iter().any(..)` is list membership. -/
def finalizeTail (shiftLen : Nat) : M Reader DecErr Unit := do
  let r ← M.get
  let b ← shr64 r.buf shiftLen
  let bs ← subU r.bufSize shiftLen
  let tl ← shl64 r.tail bs
  M.modify fun r => { r with tail := tl ||| b, tailSize := r.tailSize + bs, buf := 0, bufSize := 0 }
  let r ← M.get
  if [0, 1, 3, 7, 15, 31, 63, 127].any (fun p => p == r.tail) then
    M.modify fun r => { r with tail := 0, tailSize := 0 }
  else M.throw .InvalidInput

/-- `finalize`, /repo/huffman/src/decoder/reader.rs:67-98. The `f64` ceiling division is exact ceiling division of naturals here
(both operands are below 64). -/
def finalize : M Reader DecErr Unit := do
  let r ← M.get
  let shiftLen ← subU ((r.bufSize + r.speed - 1) / r.speed * r.speed) r.bufSize
  let b ← shl64 r.buf shiftLen
  M.modify fun r => { r with buf := b, bufSize := r.bufSize + shiftLen }
  finalizeChar shiftLen
  finalizeTail shiftLen

/-- `for byte in src { reader.decode(*byte, dst)?; }`, /repo/huffman/src/decoder/mod.rs:108-110. -/
def readLoop : Bytes → M Reader DecErr Unit
  | [] => pure ()
  | b :: bs => do readByte b; readLoop bs

/-- `DecodeReader::new`, /repo/huffman/src/decoder/reader.rs:30-39. -/
def Reader.new (speed : Nat) (dst : Bytes) : Reader :=
  { speed := speed, id := 0, buf := 0, bufSize := 0, tail := 0, tailSize := 0, dst := dst }

/-- `decode`, /repo/huffman/src/decoder/mod.rs:101-114. -/
def decode (src : Bytes) (dst : Bytes) (speed : Speed) : Res DecErr Unit × Bytes :=
  let r := (do readLoop src; finalize : M Reader DecErr Unit) (Reader.new speed.toNat dst)
  (r.1, r.2.dst)

end Verif.Huffman
