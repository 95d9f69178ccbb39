import Verif.Protos.Client
/-! A writer that takes the bytes in pieces, as sockets and pipes do. Not code of the crate: it instantiates `Writer` with the
`write_all` that the standard library provides for every `Write` (its default method), which is what the crate calls. -/
namespace Verif.Protos

/-- What one call of `Write::write` does: it takes up to `n` bytes (`Ok(min n len)`; `Ok(0)` is possible), it fails with
`ErrorKind::Interrupted`, or it fails with another error.
The writer is the caller's; it is used at every `write_all`, e.g. /repo/protos/src/encoder/primitives.rs:41, 45. -/
inductive WriteOutcome where
  | accept (n : Nat)
  | interrupted
  | fail
  deriving DecidableEq, Repr

/-- `Write::write_all` of the standard library on a writer whose calls of `write` go as the schedule says (and which takes everything
after its end): as long as bytes are left, `write` is called; `Ok(0)` is an error (`WriteZero`), `Interrupted` means try again, any other
error ends the call. The state is the rest of the schedule and the bytes taken so far.
Used at every `write_all`, e.g. /repo/protos/src/encoder/primitives.rs:41, 45. -/
def socketWriteAll : List WriteOutcome → Bytes → Bytes → Bool × (List WriteOutcome × Bytes)
  | sc, sent, [] => (true, (sc, sent))
  | [], sent, b :: bs => (true, ([], sent ++ b :: bs))
  | .accept 0 :: sc, sent, _ :: _ => (false, (sc, sent))
  | .accept (n + 1) :: sc, sent, b :: bs => socketWriteAll sc (sent ++ b :: bs.take n) (bs.drop n)
  | .interrupted :: sc, sent, b :: bs => socketWriteAll sc sent (b :: bs)
  | .fail :: sc, sent, _ :: _ => (false, (sc, sent))

/-- The writer. Used at every `write_all`, e.g. /repo/protos/src/encoder/primitives.rs:41, 45. -/
def socketWriter : Writer (List WriteOutcome × Bytes) := ⟨fun s b => socketWriteAll s.1 s.2 b⟩

end Verif.Protos
