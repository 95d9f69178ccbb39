import Verif.Basic
/-! Model of /repo/huffman/src/parser/mod.rs. Text is its UTF-8 bytes. The model is exact for all UTF-8 text: where
`line[50..59]` panics because an end of the range is not a character boundary, the slice has a byte that is neither white space
nor a digit at that end, and the model panics at the digits instead. -/
namespace Verif.Huffman

/-- `str::lines`: split at `\n`, drop one trailing `\r` of each line, no empty line after a final `\n`.
Used at /repo/huffman/src/parser/mod.rs:33. -/
def splitLines : Bytes → Bytes → List Bytes
  | [], [] => []
  | cur, [] => [cur.reverse]
  | cur, b :: bs =>
    if b = 10 then
      (match cur with
       | 13 :: cur' => cur'.reverse
       | _ => cur.reverse) :: splitLines [] bs
    else splitLines (b :: cur) bs

/-- The loop over `line.as_bytes()[12..45]`, /repo/huffman/src/parser/mod.rs:49-57: keeps the bits, skips `|` and space, panics on
anything else. -/
def binaryColumn : Bytes → Res Unit (List Bool)
  | [] => .ok []
  | b :: bs =>
    if b = 49 then do let r ← binaryColumn bs; .ok (true :: r)
    else if b = 48 then do let r ← binaryColumn bs; .ok (false :: r)
    else if b = 124 ∨ b = 32 then binaryColumn bs
    else .panic

/-- One hexadecimal digit as accepted by `u32::from_str_radix(_, 16)`. Used at /repo/huffman/src/parser/mod.rs:59. -/
def hexDigit (b : UInt8) : Option Nat :=
  if 48 ≤ b ∧ b ≤ 57 then some (b.toNat - 48)
  else if 97 ≤ b ∧ b ≤ 102 then some (b.toNat - 87)
  else if 65 ≤ b ∧ b ≤ 70 then some (b.toNat - 55)
  else none

/-- Digits of `u32::from_str_radix`, with overflow detection. `none` stands for its `Err`.
Used at /repo/huffman/src/parser/mod.rs:59. -/
def hexDigits : Nat → Bytes → Option Nat
  | acc, [] => some acc
  | acc, b :: bs =>
    match hexDigit b with
    | none => none
    | some d => if acc * 16 + d < 2 ^ 32 then hexDigits (acc * 16 + d) bs else none

/-- `u32::from_str_radix(s, 16)`: empty is an error, one leading `+` is allowed. Used at /repo/huffman/src/parser/mod.rs:59. -/
def fromStrRadix16 : Bytes → Option Nat
  | [] => none
  | [43] => none
  | 43 :: bs => hexDigits 0 bs
  | bs => hexDigits 0 bs

/-- The white space characters of three bytes in UTF-8: U+1680, U+2000 to U+200A, U+2028, U+2029, U+202F, U+205F, U+3000.
For `trim`, /repo/huffman/src/parser/mod.rs:59. -/
def isWs3 (a b c : UInt8) : Bool :=
  (a == 0xE1 && b == 0x9A && c == 0x80) ||
  (a == 0xE2 && b == 0x80 && ((0x80 ≤ c && c ≤ 0x8A) || c == 0xA8 || c == 0xA9 || c == 0xAF)) ||
  (a == 0xE2 && b == 0x81 && c == 0x9F) || (a == 0xE3 && b == 0x80 && c == 0x80)

/-- The white space characters of two bytes: U+0085 and U+00A0. For `trim`, /repo/huffman/src/parser/mod.rs:59. -/
def isWs2 (a b : UInt8) : Bool := a == 0xC2 && (b == 0x85 || b == 0xA0)

/-- The white space characters of one byte: U+0009 to U+000D and the space. For `trim`, /repo/huffman/src/parser/mod.rs:59. -/
def isWs1 (a : UInt8) : Bool := a == 32 || (9 ≤ a && a ≤ 13)

/-- Remove one white space character (`char::is_whitespace`) at the front; `none` if there is none.
For `trim`, /repo/huffman/src/parser/mod.rs:59. -/
def wsFront : Bytes → Option Bytes
  | a :: b :: c :: r => if isWs1 a then some (b :: c :: r) else if isWs2 a b then some (c :: r) else if isWs3 a b c then some r else none
  | [a, b] => if isWs1 a then some [b] else if isWs2 a b then some [] else none
  | [a] => if isWs1 a then some [] else none
  | [] => none

/-- The same on reversed text, for the end. For `trim`, /repo/huffman/src/parser/mod.rs:59. -/
def wsBack : Bytes → Option Bytes
  | c :: b :: a :: r => if isWs1 c then some (b :: a :: r) else if isWs2 b c then some (a :: r) else if isWs3 a b c then some r else none
  | [c, b] => if isWs1 c then some [b] else if isWs2 b c then some [] else none
  | [c] => if isWs1 c then some [] else none
  | [] => none

/-- Remove white space characters as long as there are any; at most `fuel`, which is the number of bytes.
For `trim`, /repo/huffman/src/parser/mod.rs:59. -/
def trimLoop (f : Bytes → Option Bytes) : Nat → Bytes → Bytes
  | 0, bs => bs
  | fuel + 1, bs =>
    match f bs with
    | none => bs
    | some r => trimLoop f fuel r

/-- `str::trim` of the Rust standard library, called in /repo/huffman/src/parser/mod.rs:59. -/
def trim (bs : Bytes) : Bytes :=
  let l := trimLoop wsFront bs.length bs
  (trimLoop wsBack l.length l.reverse).reverse

/-- `parse_line`, /repo/huffman/src/parser/mod.rs:47-63. Slicing beyond the end panics, `expect` panics. -/
def parseLine (line : Bytes) : Res Unit (Nat × Nat) := do
  if line.length < 45 then .panic else
  let msb ← binaryColumn ((line.drop 12).take 33)
  if line.length < 59 then .panic else
  match fromStrRadix16 (trim ((line.drop 50).take 9)) with
  | none => .panic
  | some lsb => .ok (msb.length, lsb)

/-- The loop of `parse`, /repo/huffman/src/parser/mod.rs:36-39. -/
def parseLines : List Bytes → Res Unit (List (Nat × Nat))
  | [] => .ok []
  | l :: ls => do
    let c ← parseLine l
    let cs ← parseLines ls
    .ok (c :: cs)

/-- `parse`, /repo/huffman/src/parser/mod.rs:32-42. -/
def parse (data : Bytes) : Res Unit (List (Nat × Nat)) := parseLines (splitLines [] data)

end Verif.Huffman
