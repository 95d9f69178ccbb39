/-! Specification vocabulary: bit strings, most significant bit first. -/
namespace Verif.Spec

/-- The number a bit string denotes. -/
def bitsVal (bs : List Bool) : Nat := bs.foldl (fun acc b => 2 * acc + b.toNat) 0

/-- The `n` low bits of `v`, most significant first. -/
def natBits : Nat → Nat → List Bool
  | 0, _ => []
  | n + 1, v => v.testBit n :: natBits n v

/-- The eight bits of an octet. -/
def byteBits (b : UInt8) : List Bool := natBits 8 b.toNat

/-- The bits of an octet string. -/
def bytesBits (bs : List UInt8) : List Bool := bs.flatMap byteBits

end Verif.Spec
