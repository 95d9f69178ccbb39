import Verif.Spec.HpackEncode
/-! Sizes of the octets of RFC 7541 representations, written as short as possible. -/
namespace Verif.Spec

/-- 5.1: number of groups of seven bits of `v` (at least one). -/
def groups (v : Nat) : Nat := if v < 128 then 1 else 1 + groups (v / 128)
termination_by v
decreasing_by omega

/-- 5.1: octets of the integer `v` with an `n`-bit prefix. -/
def intLen (n v : Nat) : Nat := if v < 2 ^ n - 1 then 1 else 1 + groups (v - (2 ^ n - 1))

/-- 5.2: octets of a string literal. -/
def strOctets (huff : Bool) (s : Octets) : Nat := intLen 7 (strLen huff s) + strLen huff s

/-- 6: octets of a representation; `hn` and `hv` say whether a name and a value are Huffman-coded. -/
def repOctets (hn hv : Bool) : Rep → Nat
  | .indexed i => intLen 7 i
  | .literal m (.index i) v => intLen m.bits i + strOctets hv v
  | .literal _ (.new n) v => 1 + strOctets hn n + strOctets hv v
  | .sizeUpdate n => intLen 5 n

end Verif.Spec
