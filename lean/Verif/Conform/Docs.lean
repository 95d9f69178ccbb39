import Verif.Huffman.Encoder
import Verif.Huffman.Decoder
import Verif.Hpack.Decoder
import Verif.Hpack.Encoder
import Verif.Protos.Encoder
import Verif.Protos.Decoder
/-! The examples of the documentation of the three crates (`lib.rs`, the READMEs and the doc comments of the functions): the calls they
unwrap succeed in the model, with these results. Tests of the model, checked by the kernel; the properties are proved elsewhere. -/
namespace Verif.Conform.Docs
open Verif
set_option synthInstance.maxSize 1000

/-- /repo/huffman/src/lib.rs:41-47: `encode` of "Hello world!". -/
example : Huffman.encode [72, 101, 108, 108, 111, 32, 119, 111, 114, 108, 100, 33] [] =
    (.ok (), [0xc6, 0x5a, 0x28, 0x3a, 0x9e, 0x0f, 0x65, 0x12, 0x7f, 0x1f]) := by decide +kernel

/-- /repo/huffman/src/lib.rs:51-58 and /repo/huffman/src/decoder/mod.rs:93-100: `decode` of 135, three bits at a time, is "A". -/
example : Huffman.decode [135] [] .ThreeBits = (.ok (), [65]) := by decide +kernel

/-- /repo/hpack/src/lib.rs:41-52 and /repo/hpack/src/encoder/mod.rs:128-136: ":method", "PATCH" with flags 0x2 | 0x4 | 0x10. -/
example : (match Hpack.encode (.ofLiteral ([58, 109, 101, 116, 104, 111, 100], [80, 65, 84, 67, 72], 0x16)) .default with
    | (.ok _, s) => some (s.dst, s.table.get 62) | _ => none) =
    some ([66, 133, 215, 14, 251, 216, 255], some ([58, 109, 101, 116, 104, 111, 100], [80, 65, 84, 67, 72])) := by decide +kernel

/-- The number returned, what is left of the buffer and the fields, of a successful call. -/
def decoded : Res Hpack.DecoderError Nat × Hpack.DecoderState → Option (Nat × Bytes × List Hpack.Field)
  | (.ok n, s) => some (n, s.buf, s.dst)
  | _ => none

/-- /repo/hpack/src/lib.rs:56-72 and /repo/hpack/src/decoder/mod.rs:89-96: `decode` of 0x82 is ":method", "GET", not sensitive. -/
example : decoded (Hpack.decode { Hpack.DecoderState.default with buf := [0x80 ||| 2] }) =
    some (1, [], [([58, 109, 101, 116, 104, 111, 100], [71, 69, 84], 0)]) := by decide +kernel

/-- /repo/hpack/src/decoder/mod.rs:127-134: `decode_exact` of two fields into a vector of capacity two. -/
example : decoded (Hpack.decodeExact 2 { Hpack.DecoderState.default with buf := [0x80 ||| 2, 0x80 ||| 3] }) =
    some (2, [], [([58, 109, 101, 116, 104, 111, 100], [71, 69, 84], 0), ([58, 109, 101, 116, 104, 111, 100], [80, 79, 83, 84], 0)]) := by
  decide +kernel

/-- /repo/protos/src/lib.rs:41-49 and /repo/protos/src/encoder/mod.rs:61-69: field 1, `150i32`, then field 2, `SInt32(-150)`. -/
example : (match Protos.Encoder.encode Protos.vecWriter 1 (.int32 150) [] with
    | (.ok n, d) => (match Protos.Encoder.encode Protos.vecWriter 2 (.sint32 (-150)) d with | (.ok k, d) => some (n, k, d) | _ => none)
    | _ => none) = some (3, 3, [0x08, 0x96, 0x01, 0x10, 0xab, 0x02]) := by decide +kernel

/-- /repo/protos/src/lib.rs:53-68 and /repo/protos/src/decoder/mod.rs:48-63: the example decodes a key (field 848, four octets) and one of its
four octets. The call is successful, delivers nothing and consumes the key, not "nothing" as the text below the example says of
insufficient data. -/
example : (match Protos.decode true (Protos.DState.fresh [0x85, 0x35, 0x85]) with
    | (.ok n, s) => some (n, s.buf, s.dst.length, s.key) | _ => none) = some (2, [0x85], 0, (848, .bit32)) := by decide +kernel

end Verif.Conform.Docs
