import Verif.Hpack.Decoder
/-! Code of a user of the HPACK `Decoder`, not of the crate: a stream of octets arrives in chunks. -/
namespace Verif.Hpack

/-- `buf.extend(x)`: more octets arrive. User code; `buf` is the parameter of /repo/hpack/src/decoder/mod.rs:100-104. -/
def DecoderState.app (s : DecoderState) (x : Bytes) : DecoderState := { s with buf := s.buf ++ x }

/-- For each chunk: append it to the buffer and call `decode` once, whatever the call returns (an error or even a panic that
the user catches); the result is that of the last call. User code around /repo/hpack/src/decoder/mod.rs:100-128. -/
def feedAll : Res DecoderError Nat → List Bytes → DecoderState → Res DecoderError Nat × DecoderState
  | last, [], s => (last, s)
  | _, c :: cs, s => feedAll (decode (s.app c)).1 cs (decode (s.app c)).2

end Verif.Hpack
