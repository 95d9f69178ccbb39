import Verif.Spec.Hpack
import Verif.Hpack.Types
/-! Specification of the errors of the HPACK decoder: which defect of the input is reported as which error. -/
namespace Verif.Spec
open Verif.Hpack (DecoderError)

/-- The octets start with an integer with an `n`-bit prefix of more than five octets. -/
def IntLong (n : Nat) (bs : Octets) : Prop :=
  ∃ b0 tl, bs = b0 :: tl ∧ b0.toNat % 2 ^ n = 2 ^ n - 1 ∧ 4 ≤ tl.length ∧ ∀ c ∈ tl.take 4, 128 ≤ c.toNat

/-- The octets start with a defective string. -/
inductive StrDefect (pads : List (List Bool)) : Octets → DecoderError → Prop where
  /-- The integer for the length has more than five octets. -/
  | lengthTooLong {bs : Octets} (h : IntLong 7 bs) : StrDefect pads bs .IntegerOverflow
  /-- The input ends before the string does. -/
  | cut {hi v : Nat} {len r : Octets} (hhi : hi = 0 ∨ hi = 128) (h : IntWireLim 5 7 hi v len) (hr : r.length < v) :
      StrDefect pads (len ++ r) .IntegerUnderflow
  /-- The octets of a Huffman-coded string are not a sequence of codes followed by an allowed padding. -/
  | badCode {len q r : Octets} (h : IntWireLim 5 7 128 q.length len) (hq : ∀ s, ∀ t ∈ pads, bytesBits q ≠ codesOf s ++ t) :
      StrDefect pads (len ++ (q ++ r)) .InvalidInput

/-- Prefix length of the integer in the first octet of a representation. -/
def firstBits (b0 : UInt8) : Nat :=
  if 128 ≤ b0.toNat then 7 else if 64 ≤ b0.toNat then 6 else if 32 ≤ b0.toNat then 5 else 4

/-- The octets start with a defective representation, for the decoder with table `t` and limit `limit`. -/
inductive RepDefect (pads : List (List Bool)) (limit : Nat) (t : SpecTable) : Octets → DecoderError → Prop where
  /-- The integer in the first octet has more than five octets. -/
  | intTooLong {b0 : UInt8} {tl : Octets} (h : IntLong (firstBits b0) (b0 :: tl)) : RepDefect pads limit t (b0 :: tl) .IntegerOverflow
  /-- An indexed header whose index has no entry. -/
  | index {i : Nat} {b r : Octets} (h : IntWireLim 5 7 128 i b) (hi : t.addr i = none) : RepDefect pads limit t (b ++ r) .InvalidIndex
  /-- A literal whose name index has no entry. -/
  | nameIndex (m : Indexing) {i : Nat} {b r : Octets} (h0 : 0 < i) (h : IntWireLim 5 m.bits m.pattern i b) (hi : t.addr i = none) :
      RepDefect pads limit t (b ++ r) .InvalidIndex
  /-- A size update beyond the limit. -/
  | size {n : Nat} {b r : Octets} (h : IntWireLim 5 5 32 n b) (hn : limit < n) : RepDefect pads limit t (b ++ r) .InvalidMaxDynamicSize
  /-- The value after a valid name index. -/
  | valueAfterIndex (m : Indexing) {i : Nat} {b r : Octets} {e : DecoderError} (h0 : 0 < i) (h : IntWireLim 5 m.bits m.pattern i b)
      (hi : (t.addr i).isSome) (hr : StrDefect pads r e) : RepDefect pads limit t (b ++ r) e
  /-- The name of a literal. -/
  | name (m : Indexing) {b r : Octets} {e : DecoderError} (h : IntWireLim 5 m.bits m.pattern 0 b) (hr : StrDefect pads r e) :
      RepDefect pads limit t (b ++ r) e
  /-- The value after a valid name. -/
  | value (m : Indexing) {n b b2 r : Octets} {e : DecoderError} (h : IntWireLim 5 m.bits m.pattern 0 b) (h2 : StrWire pads 5 n b2)
      (hr : StrDefect pads r e) : RepDefect pads limit t (b ++ (b2 ++ r)) e

end Verif.Spec
