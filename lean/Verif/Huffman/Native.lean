import Verif.Huffman.Encoder
import Verif.Huffman.Decoder
/-! The Huffman coder with the integer types of the target and the arithmetic of the build profile.

`Verif.Huffman.decode` computes with a 64-bit `usize` and overflow checks, `Verif.Huffman.encode` with overflow checks. Here `chk` says
whether overflow checks are on (debug profile: an overflow panics; release profile: it wraps and shift amounts are taken modulo the
width) and `w` is the width of `usize`. -/
namespace Verif.Huffman

/-- `a + b` on an unsigned type of `w` bits. Language; used at /repo/huffman/src/decoder/reader.rs:66-115. -/
def addOn (chk : Bool) (w a b : Nat) {σ ε : Type} : M σ ε Nat :=
  if a + b < 2 ^ w then pure (a + b) else if chk = true then M.panic else pure ((a + b) % 2 ^ w)
/-- `a - b` on an unsigned type of `w` bits.
Language; used at /repo/huffman/src/decoder/reader.rs:66-115, /repo/huffman/src/encoder/mod.rs:131-143. -/
def subOn (chk : Bool) (w a b : Nat) {σ ε : Type} : M σ ε Nat :=
  if b ≤ a then pure (a - b) else if chk = true then M.panic else pure (a + 2 ^ w - b)
/-- `a * b` on an unsigned type of `w` bits. Language; used with /repo/huffman/src/decoder/reader.rs. -/
def mulOn (chk : Bool) (w a b : Nat) {σ ε : Type} : M σ ε Nat :=
  if a * b < 2 ^ w then pure (a * b) else if chk = true then M.panic else pure (a * b % 2 ^ w)
/-- `a << k` on an unsigned type of `w` bits. Language; used at /repo/huffman/src/decoder/reader.rs:45, 70, 84, 108, 111. -/
def shlOn (chk : Bool) (w a k : Nat) {σ ε : Type} : M σ ε Nat :=
  if k < w then pure (a * 2 ^ k % 2 ^ w) else if chk = true then M.panic else pure (a * 2 ^ (k % w) % 2 ^ w)
/-- `a >> k` on an unsigned type of `w` bits. Language; used at /repo/huffman/src/decoder/reader.rs:81, 105, 108, 112. -/
def shrOn (chk : Bool) (w a k : Nat) {σ ε : Type} : M σ ε Nat :=
  if k < w then pure (a / 2 ^ k) else if chk = true then M.panic else pure (a / 2 ^ (k % w))

/-- `decode_next`, /repo/huffman/src/decoder/reader.rs:104-131. The operators are evaluated in the order of the code: `-` and `+` bind
stronger than `>>` and `<<`. -/
def decodeNextOn (chk : Bool) (w : Nat) : M Reader DecErr Unit := do
  let r ← M.get
  -- let key = self.buf >> self.buf_size - self.speed;
  let sh ← subOn chk w r.bufSize r.speed
  let key ← shrOn chk w r.buf sh
  let (nextId, ascii, leftover) ← M.lift (findTarget r.speed r.id key)
  -- self.buf -= key >> leftover << self.buf_size - self.speed + leftover as usize;
  let hi ← shrOn chk w key leftover
  let sh ← subOn chk w r.bufSize r.speed
  let up ← addOn chk w sh leftover
  let rm ← shlOn chk w hi up
  let buf ← subOn chk w r.buf rm
  -- self.buf_size -= self.speed - leftover as usize;
  let used ← subOn chk w r.speed leftover
  let bufSize ← subOn chk w r.bufSize used
  -- self.tail <<= self.speed - leftover as usize; self.tail |= key >> leftover; self.tail_size += self.speed - leftover as usize;
  let tl ← shlOn chk w r.tail used
  let tailSize ← addOn chk w r.tailSize used
  M.modify fun r => { r with buf := buf, bufSize := bufSize, tail := tl ||| hi, tailSize := tailSize }
  match ascii with
  | some a =>
    M.modify fun r => { r with id := 0, tail := 0, tailSize := 0 }
    if a < 256 then M.modify fun r => { r with dst := r.dst ++ [UInt8.ofNat a] }
    else M.throw .InvalidInput
  | none =>
    match nextId with
    | some n => M.modify fun r => { r with id := n }
    | none => M.throw .InvalidInput

/-- The `loop` in `decode`, /repo/huffman/src/decoder/reader.rs:49-55. -/
def decodeLoopOn (chk : Bool) (w : Nat) : Nat → M Reader DecErr Unit
  | 0 => do
    let r ← M.get
    if r.bufSize < r.speed then pure () else M.hang
  | fuel + 1 => do
    let r ← M.get
    if r.bufSize < r.speed then pure ()
    else do decodeNextOn chk w; decodeLoopOn chk w fuel

/-- `decode` of one byte, /repo/huffman/src/decoder/reader.rs:43-58. -/
def readByteOn (chk : Bool) (w : Nat) (byte : UInt8) : M Reader DecErr Unit := do
  let r ← M.get
  let b ← shlOn chk w r.buf 8
  let bs ← addOn chk w r.bufSize 8
  M.modify fun r => { r with buf := b ||| byte.toNat, bufSize := bs }
  decodeLoopOn chk w bs

/-- First part of `finalize`, /repo/huffman/src/decoder/reader.rs:73-79. -/
def finalizeCharOn (chk : Bool) (w : Nat) (shiftLen : Nat) : M Reader DecErr Unit := do
  let r ← M.get
  if r.bufSize ≥ r.speed then
    match findTarget r.speed r.id r.buf with
    | .ok (_, _, leftover) => if shiftLen ≤ leftover then decodeNextOn chk w else pure ()
    | _ => pure ()
  else pure ()

/-- Second part of `finalize`, /repo/huffman/src/decoder/reader.rs:81-97. -/
def finalizeTailOn (chk : Bool) (w : Nat) (shiftLen : Nat) : M Reader DecErr Unit := do
  let r ← M.get
  let b ← shrOn chk w r.buf shiftLen
  let bs ← subOn chk w r.bufSize shiftLen
  let tl ← shlOn chk w r.tail bs
  let ts ← addOn chk w r.tailSize bs
  M.modify fun r => { r with tail := tl ||| b, tailSize := ts, buf := 0, bufSize := 0 }
  let r ← M.get
  if [0, 1, 3, 7, 15, 31, 63, 127].any (fun p => p == r.tail) then
    M.modify fun r => { r with tail := 0, tailSize := 0 }
  else M.throw .InvalidInput

/-- `finalize`, /repo/huffman/src/decoder/reader.rs:67-98. The quotient is rounded up exactly (C84). -/
def finalizeOn (chk : Bool) (w : Nat) : M Reader DecErr Unit := do
  let r ← M.get
  let full ← mulOn chk w ((r.bufSize + r.speed - 1) / r.speed) r.speed
  let shiftLen ← subOn chk w full r.bufSize
  let b ← shlOn chk w r.buf shiftLen
  let bs ← addOn chk w r.bufSize shiftLen
  M.modify fun r => { r with buf := b, bufSize := bs }
  finalizeCharOn chk w shiftLen
  finalizeTailOn chk w shiftLen

/-- `for byte in src { reader.decode(*byte, dst)?; }`, /repo/huffman/src/decoder/mod.rs:108-110. -/
def readLoopOn (chk : Bool) (w : Nat) : Bytes → M Reader DecErr Unit
  | [] => pure ()
  | b :: bs => do readByteOn chk w b; readLoopOn chk w bs

/-- `decode`, /repo/huffman/src/decoder/mod.rs:101-114. -/
def decodeOn (chk : Bool) (w : Nat) (src : Bytes) (dst : Bytes) (speed : Speed) : Res DecErr Unit × Bytes :=
  let r := (do readLoopOn chk w src; finalizeOn chk w : M Reader DecErr Unit) (Reader.new speed.toNat dst)
  (r.1, r.2.dst)

/-- The loop `while bits_left <= 32`, /repo/huffman/src/encoder/mod.rs:134-139. `bits_left` is a `u8`. -/
def flushOn (chk : Bool) : Nat → M EncState EncErr Unit
  | 0 => do
    let s ← M.get
    if s.bitsLeft ≤ 32 then M.hang else pure ()
  | fuel + 1 => do
    let s ← M.get
    if s.bitsLeft ≤ 32 then do
      let left ← addOn chk 8 s.bitsLeft 8
      M.modify fun s => { s with dst := s.dst ++ [(s.bits >>> 32).toUInt8], bits := s.bits <<< 8, bitsLeft := left }
      flushOn chk fuel
    else pure ()

/-- One iteration of `for &byte in src`, /repo/huffman/src/encoder/mod.rs:125-140. `bits_left - code_len` is evaluated twice, as a shift amount and in
`-=`. `<<<` of Lean takes the shift amount modulo 64, as a release build does. -/
def encodeByteOn (chk : Bool) (byte : UInt8) : M EncState EncErr Unit := do
  match ENCODE_TABLE[byte.toNat]? with
  | none => M.throw .InvalidInput
  | some (codeLen, code) => do
    let s ← M.get
    let left ← subOn chk 8 s.bitsLeft codeLen
    if chk = true ∧ 64 ≤ left then M.panic else
    M.modify fun s => { s with bits := s.bits ||| (UInt64.ofNat code <<< UInt64.ofNat left), bitsLeft := left }
    flushOn chk 8

/-- `for &byte in src`. /repo/huffman/src/encoder/mod.rs:125-140. -/
def encodeLoopOn (chk : Bool) : Bytes → M EncState EncErr Unit
  | [] => pure ()
  | b :: bs => do encodeByteOn chk b; encodeLoopOn chk bs

/-- `if bits_left != 40 {..}`, /repo/huffman/src/encoder/mod.rs:142-145. (`1 << bits_left` is never 0, so the subtraction is in range.) -/
def encodeFinishOn (chk : Bool) : M EncState EncErr Unit := do
  let s ← M.get
  if s.bitsLeft ≠ 40 then
    if chk = true ∧ 64 ≤ s.bitsLeft then M.panic else
    M.modify fun s =>
      { s with
        bits := s.bits ||| ((1 <<< UInt64.ofNat s.bitsLeft) - 1)
        dst := s.dst ++ [((s.bits ||| ((1 <<< UInt64.ofNat s.bitsLeft) - 1)) >>> 32).toUInt8] }
  else pure ()

/-- `encode`, /repo/huffman/src/encoder/mod.rs:120-148. -/
def encodeOn (chk : Bool) (src : Bytes) (dst : Bytes) : Res EncErr Unit × Bytes :=
  let r := (do encodeLoopOn chk src; encodeFinishOn chk : M EncState EncErr Unit) { bits := 0, bitsLeft := 40, dst := dst }
  (r.1, r.2.dst)

end Verif.Huffman
