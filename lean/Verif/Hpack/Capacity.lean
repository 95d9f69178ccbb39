import Verif.Hpack.Decoder
/-! `Decoder::decode` with whatever capacity `Vec::with_capacity(1)` really grants.

The documentation of Rust promises only "at least 1". `Verif.Hpack.decode` takes it to be 1; here round `i` of the loop gets the
capacity `grant i`. -/
namespace Verif.Hpack

/-- The loop of `decode`, /repo/hpack/src/decoder/mod.rs:106-114, where `data` has capacity `grant i` in round `i`. -/
def decodeLoopGranted (grant : Nat → Nat) : Nat → Nat → Nat → M DecoderState DecoderError Nat
  | fuel, i, total => fun s =>
    if s.buf.isEmpty then (.ok total, s)
    else
      match fuel with
      | 0 => (.hang, s)
      | fuel + 1 =>
        match decodeExact (grant i) { s with dst := [] } with
        | (.ok n, s') => decodeLoopGranted grant fuel (i + 1) (total + n) { s' with dst := s.dst ++ s'.dst }
        | (.err e, s') => (.err e, { s' with dst := s.dst })
        | (.panic, s') => (.panic, { s' with dst := s.dst })
        | (.hang, s') => (.hang, { s' with dst := s.dst })

/-- `decode`, /repo/hpack/src/decoder/mod.rs:100-115. -/
def decodeGranted (grant : Nat → Nat) : M DecoderState DecoderError Nat := fun s => decodeLoopGranted grant s.buf.length 0 0 s

end Verif.Hpack
