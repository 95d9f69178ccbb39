import Verif.Spec.Bits
/-! The text format of the code table in RFC 7541 appendix B (and /repo/huffman/assets/hpack-huffman.txt): one line per symbol,

`    ( 10)  |11111111|11111111|11111111|111100      3ffffffc  [30]`

with the bits of the code from column 12 on (a bar after every eight bits), the hexadecimal value right-aligned to column 58, and
other text around them. Independent of the model. -/
namespace Verif.Spec.CodeText

/-- A hexadecimal digit. -/
def hexChar (d : Nat) : UInt8 := if d < 10 then UInt8.ofNat (48 + d) else UInt8.ofNat (87 + d)

/-- Hexadecimal number without leading zeros. -/
def hex (n : Nat) : List UInt8 := if n < 16 then [hexChar n] else hex (n / 16) ++ [hexChar (n % 16)]
termination_by n
decreasing_by omega

/-- Bits as characters, a bar before every bit that follows a full group of eight; `k` bits are in the current group. -/
def column : Nat → List Bool → List UInt8
  | _, [] => []
  | k, b :: bs => if k = 8 then 124 :: (if b then 49 else 48) :: column 1 bs else (if b then 49 else 48) :: column (k + 1) bs

/-- A line: the code and the text around it. -/
structure Line where
  /-- Columns 0 to 11: the symbol and the first bar. -/
  label : List UInt8
  bits : List Bool
  /-- Columns 45 to 49. -/
  gap : List UInt8
  /-- What follows the value. -/
  tail : List UInt8
  /-- Does the line end with CR LF? -/
  crlf : Bool

/-- The characters of a line. -/
def Line.text (l : Line) : List UInt8 :=
  let bits := column 0 l.bits
  let value := hex (bitsVal l.bits)
  l.label ++ (bits ++ List.replicate (33 - bits.length) 32) ++ l.gap ++ (List.replicate (9 - value.length) 32 ++ value) ++ l.tail

/-- A line has the format: the columns have their widths, the code at most 30 bits, the text around it has no line breaks. -/
def Line.Good (l : Line) : Prop :=
  l.label.length = 12 ∧ l.gap.length = 5 ∧ l.bits.length ≤ 30 ∧ ∀ b ∈ l.label ++ l.gap ++ l.tail, b ≠ 10 ∧ b ≠ 13

/-- A file. -/
def file (ls : List Line) : List UInt8 := ls.flatMap fun l => l.text ++ (if l.crlf then [13, 10] else [10])

end Verif.Spec.CodeText
