import Verif.Basic
import Verif.Huffman.Table
/-! Model of /repo/huffman/src/encoder/mod.rs. -/
namespace Verif.Huffman

/-- /repo/huffman/src/encoder/error.rs:6-11 `EncoderError`. -/
inductive EncErr where
  | InvalidInput
  deriving Repr, DecidableEq

/-- Local variables of `encode` plus the destination vector, /repo/huffman/src/encoder/mod.rs:120-122.
`bits_left` is a `u8` in Rust (its type is that of `code_len`). -/
structure EncState where
  bits : UInt64
  bitsLeft : Nat
  dst : Bytes
  deriving Repr, DecidableEq

/-- The loop `while bits_left <= 32`, /repo/huffman/src/encoder/mod.rs:134-139. The fuel bounds the number of iterations
(each adds 8 to `bits_left`, so five are always enough). `bits_left += 8` cannot overflow a `u8` here. -/
def flush : Nat → M EncState EncErr Unit
  | 0 => do
    let s ← M.get
    if s.bitsLeft ≤ 32 then M.hang else pure ()
  | fuel + 1 => do
    let s ← M.get
    if s.bitsLeft ≤ 32 then do
      M.modify fun s =>
        { s with dst := s.dst ++ [(s.bits >>> 32).toUInt8], bits := s.bits <<< 8, bitsLeft := s.bitsLeft + 8 }
      flush fuel
    else pure ()

/-- One iteration of `for &byte in src`, /repo/huffman/src/encoder/mod.rs:125-140. `bits_left - code_len` is a checked `u8`
subtraction (it occurs twice in the code, as shift amount and in `-=`); a shift of 64 or more would panic too,
but `bits_left` starts at 40 and never exceeds it. -/
def encodeByte (byte : UInt8) : M EncState EncErr Unit := do
  match ENCODE_TABLE[byte.toNat]? with
  | none => M.throw .InvalidInput
  | some (codeLen, code) => do
    let s ← M.get
    let left ← subU s.bitsLeft codeLen
    if 64 ≤ left then M.panic else
    M.modify fun s => { s with bits := s.bits ||| (UInt64.ofNat code <<< UInt64.ofNat left), bitsLeft := left }
    flush 8

/-- `for &byte in src`. /repo/huffman/src/encoder/mod.rs:125-140. -/
def encodeLoop : Bytes → M EncState EncErr Unit
  | [] => pure ()
  | b :: bs => do encodeByte b; encodeLoop bs

/-- `if bits_left != 40 {..}`, /repo/huffman/src/encoder/mod.rs:142-145. -/
def encodeFinish : M EncState EncErr Unit := do
  let s ← M.get
  if s.bitsLeft ≠ 40 then
    if 64 ≤ s.bitsLeft then M.panic else
    M.modify fun s =>
      { s with
        bits := s.bits ||| ((1 <<< UInt64.ofNat s.bitsLeft) - 1)
        dst := s.dst ++ [((s.bits ||| ((1 <<< UInt64.ofNat s.bitsLeft) - 1)) >>> 32).toUInt8] }
  else pure ()

/-- `encode`, /repo/huffman/src/encoder/mod.rs:120-148. -/
def encode (src : Bytes) (dst : Bytes) : Res EncErr Unit × Bytes :=
  let r := (do encodeLoop src; encodeFinish : M EncState EncErr Unit) { bits := 0, bitsLeft := 40, dst := dst }
  (r.1, r.2.dst)

end Verif.Huffman
