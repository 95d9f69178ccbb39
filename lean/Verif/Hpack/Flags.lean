import Verif.Hpack.Primitives
/-! The public flag constants of the HPACK crate. The code itself writes the numbers (as the model does), the
constants are what users combine. -/
namespace Verif.Hpack

/-- `Encoder::HUFFMAN_NAME`, /repo/hpack/src/encoder/mod.rs:86. -/
def Encoder.HUFFMAN_NAME : UInt8 := 0x1
/-- `Encoder::HUFFMAN_VALUE`, /repo/hpack/src/encoder/mod.rs:89. -/
def Encoder.HUFFMAN_VALUE : UInt8 := 0x2
/-- `Encoder::WITH_INDEXING`, /repo/hpack/src/encoder/mod.rs:92. -/
def Encoder.WITH_INDEXING : UInt8 := 0x4
/-- `Encoder::NEVER_INDEXED`, /repo/hpack/src/encoder/mod.rs:95. -/
def Encoder.NEVER_INDEXED : UInt8 := 0x8
/-- `Encoder::BEST_FORMAT`, /repo/hpack/src/encoder/mod.rs:99. -/
def Encoder.BEST_FORMAT : UInt8 := 0x10
/-- `Decoder::WITH_INDEXING`, /repo/hpack/src/decoder/mod.rs:47. -/
def Decoder.WITH_INDEXING : UInt8 := 0x4
/-- `Decoder::NEVER_INDEXED`, /repo/hpack/src/decoder/mod.rs:50. -/
def Decoder.NEVER_INDEXED : UInt8 := 0x8

end Verif.Hpack
