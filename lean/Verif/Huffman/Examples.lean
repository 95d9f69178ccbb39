import Verif.Huffman.Flattener
import Verif.Huffman.Parser
import Verif.Huffman.Table
/-! Model of the example programs /repo/huffman/examples/{flatten,parse}.rs, which print the source code of the tables. The
standard output is a list of characters; a failure to write to it is not modelled. -/
namespace Verif.Huffman

/-- `print!` / `println!` of a literal text, /repo/huffman/examples/flatten.rs:16-36, /repo/huffman/examples/parse.rs:15-26. -/
def lit (s : String) : List Char := s.toList

/-- `{}` of an unsigned integer (Rust's `Display`: decimal without leading zeros). Used at /repo/huffman/examples/flatten.rs:19-21, /repo/huffman/examples/parse.rs:23. -/
def showDec (n : Nat) : List Char := Nat.toDigits 10 n

/-- `{:02x}` of an unsigned integer: lower case hexadecimal, at least two digits. Used at /repo/huffman/examples/parse.rs:23. -/
def showHex2 (n : Nat) : List Char :=
  List.replicate (2 - (Nat.toDigits 16 n).length) '0' ++ Nat.toDigits 16 n

/-- `{:?}` of an `Option` of an integer. Used at /repo/huffman/examples/flatten.rs:24. -/
def showOpt : Option Nat → List Char
  | none => lit "None"
  | some n => lit "Some(" ++ showDec n ++ lit ")"

/-- `{:?}` of `(Option<u8>, Option<u16>, u8)`. Used at /repo/huffman/examples/flatten.rs:24. -/
def showCell (c : Cell) : List Char :=
  lit "(" ++ showOpt c.1 ++ lit ", " ++ showOpt c.2.1 ++ lit ", " ++ showDec c.2.2 ++ lit ")"

/-- `{:?}` of a `DecoderSpeed` (derived `Debug`), /repo/huffman/src/decoder/speed.rs:3-19. Used at /repo/huffman/examples/flatten.rs:18. -/
def showSpeed : Speed → List Char
  | .OneBit => lit "OneBit"
  | .TwoBits => lit "TwoBits"
  | .ThreeBits => lit "ThreeBits"
  | .FourBits => lit "FourBits"
  | .FiveBits => lit "FiveBits"

/-- The inner loop, /repo/huffman/examples/flatten.rs:23-29; `j` is the counter of `enumerate`. `targets_len - 1` would underflow
only for rows without columns, which `flatten` never makes (C12). -/
def showCells (targetsLen : Nat) : Nat → List Cell → List Char
  | _, [] => []
  | j, c :: cs =>
    lit "        " ++ showCell c ++ (if j ≠ targetsLen - 1 then lit "," else []) ++ lit "\n" ++ showCells targetsLen (j + 1) cs

/-- The outer loop, /repo/huffman/examples/flatten.rs:20-35; `i` is the counter of `enumerate`. -/
def showRows (tableLen targetsLen : Nat) : Nat → List (List Cell) → List Char
  | _, [] => []
  | i, row :: rows =>
    lit "    [ // " ++ showDec i ++ lit "\n" ++ showCells targetsLen 0 row ++ lit "    ]" ++
      (if i ≠ tableLen - 1 then lit "," else []) ++ lit "\n" ++ showRows tableLen targetsLen (i + 1) rows

/-- Everything printed by /repo/huffman/examples/flatten.rs:12-37 for a table. `table[0]` panics if there are no rows. -/
def showDecodeTable (speed : Speed) (table : List (List Cell)) : Res Unit (List Char) :=
  match table with
  | [] => .panic
  | row :: _ =>
    .ok (lit "\n" ++
      lit "/// This is a static translation table for decoding Huffman sequence by reading\n" ++
      lit "/// " ++ showSpeed speed ++ lit "-bit(s) at at time.\n" ++
      lit "pub const DECODE_TABLE: [[(Option<u8>, Option<u16>, u8); " ++ showDec row.length ++ lit "]; " ++
      showDec table.length ++ lit "] = [ // (next_id, ascii, leftover)\n" ++
      showRows table.length row.length 0 table ++ lit "];\n" ++ lit "\n")

/-- `main` of /repo/huffman/examples/flatten.rs:10-38, with the speed of line 11 (`FourBits`) as a parameter. -/
def flattenMain (speed : Speed) : Res Unit (List Char) :=
  match flatten ENCODE_TABLE speed with
  | .ok table => showDecodeTable speed table
  | .err e => .err e
  | .panic => .panic
  | .hang => .hang

/-- The loop of /repo/huffman/examples/parse.rs:19-24; `i` is the counter of `enumerate`. -/
def showCodings : Nat → List (Nat × Nat) → List Char
  | _, [] => []
  | i, coding :: cs =>
    (if i > 0 then lit ",\n" else []) ++ lit "  (" ++ showDec coding.1 ++ lit ", 0x" ++ showHex2 coding.2 ++ lit ")" ++
      showCodings (i + 1) cs

/-- `main` of /repo/huffman/examples/parse.rs:10-28 after the file has been read: `data` is its text. -/
def parseMain (data : Bytes) : Res Unit (List Char) :=
  match parse data with
  | .ok codings =>
    .ok (lit "\n" ++
      lit "/// This is a static Huffman table built from the codes found in the official\n" ++
      lit "/// HPACK specification (Appendix B).\n" ++
      lit "pub const ENCODE_TABLE: [(u8, u32); 257] = [ // (length, msb)\n" ++
      showCodings 0 codings ++ lit "\n" ++ lit "];\n" ++ lit "\n")
  | .err e => .err e
  | .panic => .panic
  | .hang => .hang

end Verif.Huffman
