import Verif.Huffman.Decoder
/-! The Huffman decoder once more, with a counter of the work it does: /repo/huffman/src/decoder/{mod,reader}.rs.
The functions below are those of `Verif.Huffman.Decoder` with counting added (theorem `decodeC_result`). -/
namespace Verif.Huffman

/-- Work done so far: rounds (calls of `decode_next`, /repo/huffman/src/decoder/reader.rs:104-131) and table lookups (calls of `find_target`, /repo/huffman/src/decoder/reader.rs:134-182). -/
structure Work where
  rounds : Nat
  lookups : Nat
  deriving Repr, DecidableEq

/-- The reader with its counters. (No line of /repo: the counters are the instrumentation.) -/
abbrev MC := M (Reader × Work) DecErr

/-- A step of the reader that is not counted. (Instrumentation, no line of /repo.) -/
def uncounted {α : Type} (m : M Reader DecErr α) : MC α := fun s =>
  ((m s.1).1, ((m s.1).2, s.2))

/-- Count one lookup. (Instrumentation, no line of /repo.) -/
def countLookup : MC Unit := M.modify fun s => (s.1, { s.2 with lookups := s.2.lookups + 1 })
/-- Count one round. (Instrumentation, no line of /repo.) -/
def countRound : MC Unit := M.modify fun s => (s.1, { s.2 with rounds := s.2.rounds + 1 })

/-- `decode_next`, /repo/huffman/src/decoder/reader.rs:104-131: one round with one lookup (/repo/huffman/src/decoder/reader.rs:106). -/
def decodeNextC : MC Unit := do
  countRound
  countLookup
  uncounted decodeNext

/-- The `loop` in `decode`, /repo/huffman/src/decoder/reader.rs:49-55. -/
def decodeLoopC : Nat → MC Unit
  | 0 => do
    let s ← M.get
    if s.1.bufSize < s.1.speed then pure () else M.hang
  | fuel + 1 => do
    let s ← M.get
    if s.1.bufSize < s.1.speed then pure ()
    else do decodeNextC; decodeLoopC fuel

/-- `decode` of one byte, /repo/huffman/src/decoder/reader.rs:43-58. -/
def readByteC (byte : UInt8) : MC Unit := do
  let s ← M.get
  uncounted (do
    let b ← shl64 s.1.buf 8
    M.modify fun r => { r with buf := b ||| byte.toNat, bufSize := r.bufSize + 8 })
  decodeLoopC (s.1.bufSize + 8)

/-- First part of `finalize`, /repo/huffman/src/decoder/reader.rs:73-79: one lookup to see whether a character is complete. -/
def finalizeCharC (shiftLen : Nat) : MC Unit := do
  let s ← M.get
  if s.1.bufSize ≥ s.1.speed then do
    countLookup
    match findTarget s.1.speed s.1.id s.1.buf with
    | .ok (_, _, leftover) => if shiftLen ≤ leftover then decodeNextC else pure ()
    | _ => pure ()
  else pure ()

/-- `finalize`, /repo/huffman/src/decoder/reader.rs:67-98. -/
def finalizeC : MC Unit := do
  let s ← M.get
  let shiftLen ← uncounted (do
    let shiftLen ← subU ((s.1.bufSize + s.1.speed - 1) / s.1.speed * s.1.speed) s.1.bufSize
    let b ← shl64 s.1.buf shiftLen
    M.modify fun r => { r with buf := b, bufSize := r.bufSize + shiftLen }
    pure shiftLen)
  finalizeCharC shiftLen
  uncounted (finalizeTail shiftLen)

/-- `for byte in src { reader.decode(*byte, dst)?; }`, /repo/huffman/src/decoder/mod.rs:108-110. -/
def readLoopC : Bytes → MC Unit
  | [] => pure ()
  | b :: bs => do readByteC b; readLoopC bs

/-- `decode`, /repo/huffman/src/decoder/mod.rs:101-114, with the work it has done. -/
def decodeC (src : Bytes) (dst : Bytes) (speed : Speed) : Res DecErr Unit × Bytes × Work :=
  let r := (do readLoopC src; finalizeC : MC Unit) (Reader.new speed.toNat dst, ⟨0, 0⟩)
  (r.1, r.2.1.dst, r.2.2)

end Verif.Huffman
