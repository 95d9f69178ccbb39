import Verif.Huffman.Flattener
import Verif.Huffman.Parser
import Verif.Huffman.Asset
import Verif.Huffman.Table
import Verif.Spec.RfcCodes
/-! Kernel evaluation of the modelled generator and parser on the whole shipped tables. -/
namespace Verif.Huffman

instance : DecidableEq (List (List Cell)) := inferInstance
instance : DecidableEq (Res Unit (List (List Cell))) := inferInstance

theorem flatten_table1 : flatten ENCODE_TABLE .OneBit = .ok DECODE_TABLE1 := by decide +kernel
theorem flatten_table2 : flatten ENCODE_TABLE .TwoBits = .ok DECODE_TABLE2 := by decide +kernel
theorem flatten_table3 : flatten ENCODE_TABLE .ThreeBits = .ok DECODE_TABLE3 := by decide +kernel
theorem flatten_table4 : flatten ENCODE_TABLE .FourBits = .ok DECODE_TABLE4 := by decide +kernel
theorem flatten_table5 : flatten ENCODE_TABLE .FiveBits = .ok DECODE_TABLE5 := by decide +kernel

theorem parse_asset : parse ASSET = .ok ENCODE_TABLE := by decide +kernel

/-- The binary column of every line, read by the modelled parser. -/
def binaryColumns : List Bytes → Res Unit (List (List Bool))
  | [] => .ok []
  | l :: ls => do
    let c ← binaryColumn ((l.drop 12).take 33)
    let cs ← binaryColumns ls
    .ok (c :: cs)

theorem asset_binary : binaryColumns (splitLines [] ASSET) = .ok Spec.rfcCodes := by decide +kernel

end Verif.Huffman
