import Verif.Spec.Bits
/-! Specification vocabulary for decoding matrices: what it means to walk a matrix of cells
`(next row, symbol, number of unused bits)` in chunks of a fixed number of bits. Independent of the model. -/
namespace Verif.Spec.Matrix

/-- A decoding matrix: rows of cells `(next row, symbol, leftover)`. -/
abbrev Mat := List (List (Option Nat × Option Nat × Nat))

/-- The cell in column `key` of row `row`. -/
def cell (t : Mat) (row key : Nat) : Option (Option Nat × Option Nat × Nat) := t[row]?.bind (·[key]?)

/-- The row reached from `row` by following the `next` pointers along `keys`. -/
def rowAt (t : Mat) (row : Nat) : List Nat → Option Nat
  | [] => some row
  | key :: keys => ((cell t row key).bind (·.1)).bind (rowAt t · keys)

/-- The cell found when all of `keys` but the last are followed from the root row 0 and the last one is looked up. -/
def visit (t : Mat) (keys : List Nat) (key : Nat) : Option (Option Nat × Option Nat × Nat) :=
  (rowAt t 0 keys).bind (cell t · key)

/-- The bits of a list of chunks of `s` bits each. -/
def chunkBits (s : Nat) (keys : List Nat) : List Bool := keys.flatMap (natBits s)

/-- The bits of a code given as `(length, value)`. -/
def codeBits (c : Nat × Nat) : List Bool := natBits c.1 c.2

/-- Every code has 1 to 30 bits. -/
def WellFormed (codes : List (Nat × Nat)) : Prop := ∀ c ∈ codes, 1 ≤ c.1 ∧ c.1 ≤ 30 ∧ c.2 < 2 ^ c.1

/-- The number of bits of `n` bits filled up to whole chunks of `s` bits. -/
def filled (s n : Nat) : Nat := (n + s - 1) / s * s

/-- A code, filled up with zeros to whole chunks of `s` bits, is a number of 32 bits, and there are not more chunks than 32 bits need. -/
def Fits32 (s : Nat) (c : Nat × Nat) : Prop := filled s c.1 < 32 + s ∧ c.2 * 2 ^ (filled s c.1 - c.1) < 2 ^ 32

/-- Every code has at least one bit, its value does not have more bits than its length says, and it fits in 32 bits. -/
def WellFormedAt (s : Nat) (codes : List (Nat × Nat)) : Prop := ∀ c ∈ codes, 1 ≤ c.1 ∧ Fits32 s c ∧ c.2 < 2 ^ c.1

/-- No code is a prefix of the code at another position. -/
def PrefixFree (codes : List (Nat × Nat)) : Prop :=
  ∀ (a b : Nat) (ca cb : Nat × Nat) (r : List Bool), codes[a]? = some ca → codes[b]? = some cb →
    codeBits cb = codeBits ca ++ r → a = b

end Verif.Spec.Matrix
