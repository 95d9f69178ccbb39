/-! How a Rust compiler reads the constants the example programs print: tokens of a source text without its white space and
`//` comments, and array literals of numbers, tuples and options. Only the part of the language that is needed; whatever else
occurs is refused. Independent of the model. -/
namespace Verif.Spec.RustSource

/-- Tokens: number literals by their value, other words, and single punctuation characters. -/
inductive Tok where
  | num (n : Nat)
  | word (w : List Char)
  | punct (c : Char)
  deriving Repr, DecidableEq

/-- Value of a hexadecimal digit. -/
def digitVal (c : Char) : Option Nat :=
  if '0' ≤ c ∧ c ≤ '9' then some (c.toNat - '0'.toNat)
  else if 'a' ≤ c ∧ c ≤ 'f' then some (c.toNat - 'a'.toNat + 10)
  else if 'A' ≤ c ∧ c ≤ 'F' then some (c.toNat - 'A'.toNat + 10)
  else none

/-- Value of digits in a base, most significant first, after the digits with value `acc`. -/
def digitsVal (base : Nat) : Nat → List Char → Option Nat
  | acc, [] => some acc
  | acc, c :: cs =>
    match digitVal c with
    | some d => if d < base then digitsVal base (base * acc + d) cs else none
    | none => none

/-- A run of letters, digits and underscores: a number (decimal, or hexadecimal after `0x`) or a word. -/
def classify (w : List Char) : Tok :=
  match w with
  | '0' :: 'x' :: c :: cs =>
    match digitsVal 16 0 (c :: cs) with
    | some n => .num n
    | none => .word w
  | _ =>
    match digitsVal 10 0 w with
    | some n => .num n
    | none => .word w

/-- Characters of words and numbers. -/
def wordChar (c : Char) : Bool := c.isAlphanum || c == '_'

/-- Where the lexer is: between tokens, in a word, after one slash, in a comment. -/
inductive Pos where
  | between
  | inWord (w : List Char)
  | slash
  | comment
  deriving Repr, DecidableEq

/-- The token that ends here. -/
def flush : Pos → List Tok
  | .between => []
  | .inWord w => [classify w]
  | .slash => [.punct '/']
  | .comment => []

/-- The tokens of a text. -/
def lex : Pos → List Char → List Tok
  | p, [] => flush p
  | .comment, c :: cs => if c = '\n' then lex .between cs else lex .comment cs
  | .inWord w, c :: cs =>
    if wordChar c then lex (.inWord (w ++ [c])) cs
    else if c.isWhitespace then classify w :: lex .between cs
    else if c = '/' then classify w :: lex .slash cs
    else classify w :: .punct c :: lex .between cs
  | .slash, c :: cs =>
    if c = '/' then lex .comment cs
    else if wordChar c then .punct '/' :: lex (.inWord [c]) cs
    else if c.isWhitespace then .punct '/' :: lex .between cs
    else .punct '/' :: .punct c :: lex .between cs
  | .between, c :: cs =>
    if wordChar c then lex (.inWord [c]) cs
    else if c.isWhitespace then lex .between cs
    else if c = '/' then lex .slash cs
    else .punct c :: lex .between cs

/-- Something read from the front of a list of tokens, and what is left. -/
abbrev Reader (α : Type) := List Tok → Option (α × List Tok)

/-- A number. -/
def number : Reader Nat
  | .num n :: ts => some (n, ts)
  | _ => none

/-- A punctuation character. -/
def sign (c : Char) : Reader Unit
  | .punct d :: ts => if c = d then some ((), ts) else none
  | _ => none

/-- `None` or `Some(n)`. -/
def option : Reader (Option Nat)
  | .word w :: ts =>
    if w = ['N', 'o', 'n', 'e'] then some (none, ts)
    else if w = ['S', 'o', 'm', 'e'] then
      match ts with
      | .punct '(' :: .num n :: .punct ')' :: ts => some (some n, ts)
      | _ => none
    else none
  | _ => none

/-- `(option, option, number)`. -/
def cell : Reader (Option Nat × Option Nat × Nat) := fun ts => do
  let (_, ts) ← sign '(' ts
  let (a, ts) ← option ts
  let (_, ts) ← sign ',' ts
  let (b, ts) ← option ts
  let (_, ts) ← sign ',' ts
  let (n, ts) ← number ts
  let (_, ts) ← sign ')' ts
  some ((a, b, n), ts)

/-- `(number, number)`. -/
def pair : Reader (Nat × Nat) := fun ts => do
  let (_, ts) ← sign '(' ts
  let (a, ts) ← number ts
  let (_, ts) ← sign ',' ts
  let (b, ts) ← number ts
  let (_, ts) ← sign ')' ts
  some ((a, b), ts)

/-- Items separated by commas, up to a closing bracket (at most `fuel` items). -/
def items {α : Type} (p : Reader α) : Nat → Reader (List α)
  | 0, _ => none
  | fuel + 1, ts =>
    match p ts with
    | some (a, .punct ',' :: ts) =>
      match items p fuel ts with
      | some (as, ts) => some (a :: as, ts)
      | none => none
    | some (a, .punct ']' :: ts) => some ([a], ts)
    | _ => none

/-- An array literal `[item, ..., item]`. -/
def array {α : Type} (p : Reader α) : Reader (List α)
  | .punct '[' :: .punct ']' :: ts => some ([], ts)
  | .punct '[' :: ts => items p ts.length ts
  | _ => none

/-- Given tokens. -/
def expect (pre : List Tok) : Reader Unit := fun ts =>
  if pre.isPrefixOf ts then some ((), ts.drop pre.length) else none

/-- The tokens of a text fragment. -/
def toks (s : String) : List Tok := lex .between s.toList

/-- The constant `DECODE_TABLE`: declared number of columns, declared number of rows, contents. -/
def decodeConst (text : List Char) : Option (Nat × Nat × List (List (Option Nat × Option Nat × Nat))) := do
  let ts := lex .between text
  let (_, ts) ← expect (toks "pub const DECODE_TABLE: [[(Option<u8>, Option<u16>, u8);") ts
  let (w, ts) ← number ts
  let (_, ts) ← expect (toks "];") ts
  let (h, ts) ← number ts
  let (_, ts) ← expect (toks "] =") ts
  let (t, ts) ← array (array cell) ts
  let (_, ts) ← expect (toks ";") ts
  if ts = [] then some (w, h, t) else none

/-- The constant `ENCODE_TABLE`: declared number of entries, contents. -/
def encodeConst (text : List Char) : Option (Nat × List (Nat × Nat)) := do
  let ts := lex .between text
  let (_, ts) ← expect (toks "pub const ENCODE_TABLE: [(u8, u32);") ts
  let (n, ts) ← number ts
  let (_, ts) ← expect (toks "] =") ts
  let (t, ts) ← array pair ts
  let (_, ts) ← expect (toks ";") ts
  if ts = [] then some (n, t) else none

end Verif.Spec.RustSource
