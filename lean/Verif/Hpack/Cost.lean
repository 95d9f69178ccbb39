import Verif.Hpack.Decoder
/-! The HPACK decoder with a counter for the octets that `Vec::drain` moves: /repo/hpack/src/decoder/mod.rs.
The functions are those of `Verif.Hpack.Decoder` with counting added (theorem `Hpack.decodeC_result`). -/
namespace Verif

/-- `Vec::drain(0..k)` on a vector of `before` elements of which `after` stay: dropping the iterator copies the elements that
stay to the front, unless nothing was taken out. Standard library, used at /repo/hpack/src/decoder/mod.rs:199, 347, 385 and
/repo/protos/src/decoder/mod.rs:118, 143, 169, 195, 241, 267. -/
def drainMoves (before after : Nat) : Nat := if after < before then after else 0

namespace Hpack

/-- The decoder with the counter. (Instrumentation, no line of /repo.) -/
abbrev MD := M (DecoderState × Nat) DecoderError

/-- Count the octets moved by one round: it drains at most once, `/repo/hpack/src/decoder/mod.rs:199, 347, 385`. -/
def counting {α : Type} (m : M DecoderState DecoderError α) : MD α := fun s =>
  ((m s.1).1, ((m s.1).2, s.2 + drainMoves s.1.buf.length (m s.1).2.buf.length))

/-- The loop of `decode_exact`, /repo/hpack/src/decoder/mod.rs:145-164. -/
def decodeExactLoopC : Nat → Nat → MD Nat
  | 0, total => pure total
  | limit + 1, total => do
    let s ← M.get
    if s.1.buf.isEmpty then pure total
    else do
      let n ← counting decodeOne
      decodeExactLoopC limit (total + n)

/-- `decode_exact`, /repo/hpack/src/decoder/mod.rs:138-165. -/
def decodeExactC (capacity : Nat) : MD Nat := decodeExactLoopC capacity 0

/-- The loop of `decode`, /repo/hpack/src/decoder/mod.rs:106-114. -/
def decodeLoopC : Nat → Nat → MD Nat
  | fuel, total => fun s =>
    if s.1.buf.isEmpty then (.ok total, s)
    else
      match fuel with
      | 0 => (.hang, s)
      | fuel + 1 =>
        match decodeExactC 1 ({ s.1 with dst := [] }, s.2) with
        | (.ok n, s') => decodeLoopC fuel (total + n) ({ s'.1 with dst := s.1.dst ++ s'.1.dst }, s'.2)
        | (.err e, s') => (.err e, ({ s'.1 with dst := s.1.dst }, s'.2))
        | (.panic, s') => (.panic, ({ s'.1 with dst := s.1.dst }, s'.2))
        | (.hang, s') => (.hang, ({ s'.1 with dst := s.1.dst }, s'.2))

/-- `decode`, /repo/hpack/src/decoder/mod.rs:100-115: result, decoder, octets moved. -/
def decodeC (s : DecoderState) : Res DecoderError Nat × DecoderState × Nat := decodeLoopC s.buf.length 0 (s, 0)

end Hpack
end Verif
