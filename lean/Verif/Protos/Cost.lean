import Verif.Hpack.Cost
import Verif.Protos.Decoder
/-! The protos decoder with a counter for the octets that `Vec::drain` moves: /repo/protos/src/decoder/mod.rs.
The functions are those of `Verif.Protos.Decoder` with counting added (theorem `Protos.decodeC_result`). -/
namespace Verif.Protos

/-- One round, /repo/protos/src/decoder/mod.rs:78-95, with the octets moved so far; a round drains at most once (118, 143, 169, 195, 241, 267). -/
def decodeStepC (chk : Bool) : M (DState × Nat) DecoderError Nat := fun s =>
  ((decodeStep chk s.1).1, ((decodeStep chk s.1).2, s.2 + drainMoves s.1.buf.length (decodeStep chk s.1).2.buf.length))

/-- Loop of `Decoder::decode`, /repo/protos/src/decoder/mod.rs:77-101. -/
def decodeLoopC (chk : Bool) : Nat → Nat → M (DState × Nat) DecoderError Nat
  | 0, _ => M.hang
  | fuel + 1, total => do
    let size ← decodeStepC chk
    if size = 0 then pure total else decodeLoopC chk fuel (total + size)

/-- `Decoder::decode`, /repo/protos/src/decoder/mod.rs:71-102: result, decoder, octets moved. -/
def decodeC (chk : Bool) (s : DState) : Res DecoderError Nat × DState × Nat := decodeLoopC chk (s.buf.length + 1) 0 (s, 0)

end Verif.Protos
