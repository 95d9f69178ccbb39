import Verif.Huffman.Encoder
import Verif.Huffman.Decoder
import Verif.Hpack.Primitives
import Verif.Protos.Types
/-! Model of the texts of the errors (`impl fmt::Display for ..`) of the three crates. -/
namespace Verif

/-- /repo/huffman/src/encoder/error.rs:13-19 `impl fmt::Display for EncoderError`. -/
def Huffman.EncErr.display : Huffman.EncErr → String
  | .InvalidInput => "Invalid input character."

/-- /repo/huffman/src/decoder/error.rs:13-19 `impl fmt::Display for DecoderError`. -/
def Huffman.DecErr.display : Huffman.DecErr → String
  | .InvalidInput => "Invalid Huffman sequence."

/-- /repo/hpack/src/encoder/error.rs:36-45 `impl fmt::Display for EncoderError`. -/
def Hpack.EncoderError.display : Hpack.EncoderError → String
  | .InvalidInput => "Invalid input character."
  | .InvalidIndex => "Invalid index."
  | .InvalidPrefix => "Invalid prefix."
  | .IntegerOverflow => "Too many bytes."

/-- /repo/hpack/src/decoder/error.rs:42-53 `impl fmt::Display for DecoderError`. -/
def Hpack.DecoderError.display : Hpack.DecoderError → String
  | .InvalidInput => "Invalid input character."
  | .InvalidIndex => "Invalid index."
  | .InvalidPrefix => "Invalid prefix."
  | .IntegerOverflow => "Too many bytes."
  | .IntegerUnderflow => "Not enough bytes."
  | .InvalidMaxDynamicSize => "New size exceeds hard limit."

/-- /repo/protos/src/encoder/error.rs:35-43 `impl fmt::Display for EncoderError`. -/
def Protos.EncoderError.display : Protos.EncoderError → String
  | .dataOverflow => "Available data type size exceeded."
  | .interrupted => "Write operation interrupted."
  | .invalidTag => "Found tag with invalid number."

/-- /repo/protos/src/decoder/error.rs:40-49 `impl fmt::Display for DecoderError`. -/
def Protos.DecoderError.display : Protos.DecoderError → String
  | .invalidInput => "Invalid byte stream."
  | .interrupted => "Read operation interrupted."
  | .inputUnderflow => "Not enough bytes."
  | .invalidTag => "Found tag with invalid number."

end Verif
