import Verif.Protos.Encoder
import Verif.Protos.Decoder
/-! Code of a user of `Decoder`, not of the crate: how a stream of bytes is fed to `decode`. The properties about streaming
speak about these programs. -/
namespace Verif.Protos

/-- What `decode` appends for one field: tag, wire type and payload. The item type of `dst` in /repo/protos/src/decoder/mod.rs:74. -/
abbrev Rec := UInt32 × Typ × Bytes

/-- More bytes arrive at the end of the buffer. User code; `buf` is the parameter of /repo/protos/src/decoder/mod.rs:73. -/
def DState.app (s : DState) (x : Bytes) : DState := { s with buf := s.buf ++ x }

/-- Call `decode` until it returns 0, at most `fuel` times. User code around /repo/protos/src/decoder/mod.rs:71-108. -/
def drainLoop (chk : Bool) : Nat → M DState DecoderError Unit
  | 0 => M.hang
  | fuel + 1 => do
    let n ← decode chk
    if n = 0 then pure () else drainLoop chk fuel

/-- `while decoder.decode(&mut buf, &mut dst)? > 0 {}`. A call that does not return 0 removes a byte, hence the fuel.
User code around /repo/protos/src/decoder/mod.rs:71-108. -/
def drain (chk : Bool) : M DState DecoderError Unit := fun s => drainLoop chk (s.buf.length + 1) s

/-- `buf.extend(x)`. User code; `buf` is the parameter of /repo/protos/src/decoder/mod.rs:73. -/
def feed (x : Bytes) : M DState DecoderError Unit := M.modify (·.app x)

/-- For each chunk: append it and decode until `decode` returns 0; stop at the first failure.
User code around /repo/protos/src/decoder/mod.rs:71-108. -/
def pump (chk : Bool) : List Bytes → M DState DecoderError Unit
  | [] => pure ()
  | c :: cs => do
    feed c
    drain chk
    pump chk cs

/-- What a user may do next: append bytes that have arrived, or call `decode` once.
User code around /repo/protos/src/decoder/mod.rs:71-108. -/
inductive Action where
  | append (x : Bytes)
  | decode
  deriving DecidableEq, Repr

/-- Perform the actions in order; stop at the first failure. User code around /repo/protos/src/decoder/mod.rs:71-108. -/
def schedule (chk : Bool) : List Action → M DState DecoderError Unit
  | [] => pure ()
  | .append x :: as => do
    feed x
    schedule chk as
  | .decode :: as => do
    let _ ← Protos.decode chk
    schedule chk as

/-- The bytes appended by the actions. User code around /repo/protos/src/decoder/mod.rs:71-108. -/
def arrivals : List Action → Bytes
  | [] => []
  | .append x :: as => x ++ arrivals as
  | .decode :: as => arrivals as

/-- The states a user can bring a decoder into: a new decoder, any calls of `decode` (successful or not), and any change of
the buffer and of the destination, which belong to the user, between the calls.
User code around /repo/protos/src/decoder/mod.rs:71-108. -/
inductive Reachable (chk : Bool) : DState → Prop
  | fresh (buf dst) : Reachable chk (DState.fresh buf dst)
  | caller {s} (h : Reachable chk s) (buf dst) : Reachable chk { s with buf := buf, dst := dst }
  | decode {s} (h : Reachable chk s) : Reachable chk (decode chk s).2

/-- Encode fields one after the other with the same writer, `?` after each; the result is the sum of the sizes.
User code around `Encoder::encode`, /repo/protos/src/encoder/mod.rs:73-112. -/
def encodeAll {σ : Type} (w : Writer σ) : List (UInt32 × EncoderLit) → M σ EncoderError Nat
  | [] => pure 0
  | (tag, lit) :: fs => do
    let a ← Encoder.encode w tag lit
    let b ← encodeAll w fs
    pure (a + b)

/-- Perform the writes one after the other, stop at the first that fails. User code; `write_all` is the method of `std::io::Write`
that /repo/protos/src/encoder/primitives.rs calls. -/
def runPlan {σ : Type} (w : Writer σ) : List Bytes → σ → Bool × σ
  | [], s => (true, s)
  | b :: bs, s =>
    match w.writeAll s b with
    | (true, s') => runPlan w bs s'
    | (false, s') => (false, s')

end Verif.Protos
