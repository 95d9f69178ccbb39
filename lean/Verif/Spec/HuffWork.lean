import Verif.Spec.Huffman
/-! How much work Huffman decoding needs when `s` bits are looked at together. Independent of the model. -/
namespace Verif.Spec

/-- Rounds needed to read `n` bits `s` at a time, the last group possibly incomplete. -/
def groupsOf (s n : Nat) : Nat := (n + s - 1) / s

/-- Rounds needed for the octets `o`: every code starts a new group. -/
def roundsFor (s : Nat) (o : List UInt8) : Nat := (o.map fun b => groupsOf s (code b.toNat).length).sum

end Verif.Spec
