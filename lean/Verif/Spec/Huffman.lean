import Verif.Spec.Bits
import Verif.Spec.RfcCodes
/-! Specification of the RFC 7541 Huffman code on bit strings. Independent of the model. -/
namespace Verif.Spec

/-- Code of symbol `a` (0-255 octets, 256 EOS); the empty list for anything else. -/
def code (a : Nat) : List Bool := rfcCodes.getD a []

/-- Concatenated codes of an octet string. -/
def codesOf (s : List UInt8) : List Bool := s.flatMap (fun b => code b.toNat)

/-- `p` is a prefix of `l`. -/
def IsPrefix (p l : List Bool) : Prop := ∃ r, l = p ++ r

/-- No complete code (of an octet or EOS) starts at the front of `r`. -/
def NoCode (r : List Bool) : Prop := ∀ a, a ≤ 256 → ¬ IsPrefix (code a) r

/-- RFC 7541 5.2: the EOS code's prefix of `k` bits, `k < 8`, pads to the octet boundary. -/
def padOnes (k : Nat) : List Bool := List.replicate k true

/-- `bs` is the Huffman encoding of `s`: codes of `s` then fewer than eight 1-bits, a whole number of octets
(this is automatic, since `bs` consists of octets). -/
def IsHuffEnc (s : List UInt8) (bs : List UInt8) : Prop :=
  ∃ k, k < 8 ∧ bytesBits bs = codesOf s ++ padOnes k

/-- The remainders the decoder of this crate accepts, spelled out: the eight RFC paddings and eleven others. -/
def lenientPads : List (List Bool) :=
  (List.range 8).map (List.replicate · true) ++
  [[false], [false, false], [false, false, false], [false, false, false, false],
   [false, true], [false, true, true], [false, true, true, true], [false, true, true, true, true],
   [false, false, true], [false, false, true, true], [false, false, false, true]]

/-- Sum of the code lengths. -/
def codeLenSum (s : List UInt8) : Nat := (s.map fun b => (code b.toNat).length).sum

end Verif.Spec
