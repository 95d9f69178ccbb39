import Verif.Spec.CodeText
import Verif.Spec.Utf8
/-! What a line of text means as a row of a code table, for arbitrary text: lines, white space, hexadecimal numbers. Independent
of the model. -/
namespace Verif.Spec.CodeText

/-- The lines of a text: a line ends with LF or CR LF; after the last line ending there is no empty line. -/
inductive IsLines : List UInt8 → List (List UInt8) → Prop
  | nil : IsLines [] []
  | last {t} (h : t ≠ []) (h1 : 10 ∉ t) : IsLines t [t]
  | lf {t rest ls} (h : 10 ∉ t) (h1 : t.getLast? ≠ some 13) (h2 : IsLines rest ls) : IsLines (t ++ 10 :: rest) (t :: ls)
  | crlf {t rest ls} (h : 10 ∉ t) (h2 : IsLines rest ls) : IsLines (t ++ 13 :: 10 :: rest) (t :: ls)

/-- The characters with the Unicode property White_Space. -/
def whiteSpace : List Nat :=
  [9, 10, 11, 12, 13, 32, 0x85, 0xA0, 0x1680, 0x2000, 0x2001, 0x2002, 0x2003, 0x2004, 0x2005, 0x2006, 0x2007, 0x2008, 0x2009, 0x200A,
   0x2028, 0x2029, 0x202F, 0x205F, 0x3000]

/-- A sequence of white space characters in UTF-8. -/
def WhiteText (bs : List UInt8) : Prop := ∃ cs : List Nat, (∀ c ∈ cs, c ∈ whiteSpace) ∧ bs = cs.flatMap utf8

/-- The character `b` is the hexadecimal digit `d`, in lower or upper case. -/
def IsHexDigit (b : UInt8) (d : Nat) : Prop :=
  (d < 10 ∧ b.toNat = 48 + d) ∨ (10 ≤ d ∧ d < 16 ∧ b.toNat = 97 + (d - 10)) ∨ (10 ≤ d ∧ d < 16 ∧ b.toNat = 65 + (d - 10))

/-- A sequence of digits, one by one. -/
def DigitText : List UInt8 → List Nat → Prop
  | [], [] => True
  | b :: bs, d :: ds => IsHexDigit b d ∧ DigitText bs ds
  | _, _ => False

/-- The text of a hexadecimal number below 2^32, with or without a plus sign. -/
def NumberText (bs : List UInt8) (v : Nat) : Prop :=
  ∃ digits ds, (bs = digits ∨ bs = 43 :: digits) ∧ digits ≠ [] ∧ DigitText digits ds ∧ v = ds.foldl (fun a d => 16 * a + d) 0 ∧ v < 2 ^ 32

/-- A line means a row: columns 12 to 44 hold bits, bars and spaces, of which the bits are counted; columns 50 to 58 hold the
value, with white space around it. -/
def LineMeans (line : List UInt8) (row : Nat × Nat) : Prop :=
  59 ≤ line.length ∧
  (∀ b ∈ (line.drop 12).take 33, b ∈ [(48 : UInt8), 49, 124, 32]) ∧
  row.1 = ((line.drop 12).take 33).countP (fun b => b == 48 || b == 49) ∧
  ∃ pre num post, (line.drop 50).take 9 = pre ++ num ++ post ∧ WhiteText pre ∧ WhiteText post ∧ NumberText num row.2

/-- Line by line. -/
def LinesMean : List (List UInt8) → List (Nat × Nat) → Prop
  | [], [] => True
  | l :: ls, r :: rs => LineMeans l r ∧ LinesMean ls rs
  | _, _ => False

end Verif.Spec.CodeText
