import Verif.Spec.Hpack
import Verif.Hpack.Types
/-! Specification of the documented choice of a representation by the encoder (/repo/hpack/src/encoder/mod.rs:15-77,
109-140): from the input and its flags to the RFC 7541 representation. Only the input type comes from the model. -/
namespace Verif.Spec
open Verif.Hpack (EncoderInput)

/-- Flags 0x4 (with indexing) and 0x8 (never indexed) decide the kind of literal; 0x4 wins. -/
def flagMode (f : UInt8) : Indexing :=
  if f.toNat.testBit 2 then .incremental else if f.toNat.testBit 3 then .never else .without

/-- The flags of an input. -/
def flagsOf : EncoderInput → UInt8
  | .Indexed _ => 0
  | .IndexedName _ _ f => f
  | .Literal _ _ f => f

/-- Flag 0x1: Huffman-code the name. -/
def huffName (input : EncoderInput) : Bool := (flagsOf input).toNat.testBit 0
/-- Flag 0x2: Huffman-code the value. -/
def huffValue (input : EncoderInput) : Bool := (flagsOf input).toNat.testBit 1

/-- `i` is the lowest index whose entry satisfies `P`. -/
def LowestAt (t : SpecTable) (P : Octets × Octets → Prop) (i : Nat) : Prop :=
  (∃ e, t.addr i = some e ∧ P e) ∧ ∀ j, j < i → ∀ e, t.addr j = some e → ¬ P e

/-- The representation chosen for an input. -/
inductive Chosen (t : SpecTable) : EncoderInput → Rep → Prop where
  | indexed (i : UInt32) : Chosen t (.Indexed i) (.indexed i.toNat)
  | indexedName (i : UInt32) (v : Octets) (f : UInt8) :
      Chosen t (.IndexedName i v f) (.literal (flagMode f) (.index i.toNat) v)
  | literal (n v : Octets) (f : UInt8) (hf : f.toNat.testBit 4 = false) :
      Chosen t (.Literal n v f) (.literal (flagMode f) (.new n) v)
  | bestFull (n v : Octets) (f : UInt8) (hf : f.toNat.testBit 4 = true) (i : Nat) (h : LowestAt t (· = (n, v)) i) :
      Chosen t (.Literal n v f) (.indexed i)
  | bestName (n v : Octets) (f : UInt8) (hf : f.toNat.testBit 4 = true) (hn : ∀ j, t.addr j ≠ some (n, v)) (i : Nat)
      (h : LowestAt t (·.1 = n) i) : Chosen t (.Literal n v f) (.literal (flagMode f) (.index i) v)
  | bestNew (n v : Octets) (f : UInt8) (hf : f.toNat.testBit 4 = true) (hn : ∀ j e, t.addr j = some e → e.1 ≠ n) :
      Chosen t (.Literal n v f) (.literal (flagMode f) (.new n) v)

/-- Every string a representation carries has fewer than `lim` octets in the given form. -/
def RepFits (lim : Nat) (hn hv : Bool) : Rep → Prop
  | .literal _ (.new n) v => strLen hn n < lim ∧ strLen hv v < lim
  | .literal _ (.index _) v => strLen hv v < lim
  | _ => True

/-- `bs` are the octets of the representation that come before the first string that is too long (2^32 octets or more in the form
chosen). -/
def RepUntilTooLong (pads : List (List Bool)) (hn hv : Bool) : Rep → Octets → Prop
  | .literal m (.index i) v, bs => 2 ^ 32 ≤ strLen hv v ∧ IntWireLim 5 m.bits m.pattern i bs
  | .literal m (.new n) v, bs =>
    (2 ^ 32 ≤ strLen hn n ∧ IntWireLim 5 m.bits m.pattern 0 bs) ∨
    (2 ^ 32 ≤ strLen hv v ∧ ∃ b1 b2, IntWireLim 5 m.bits m.pattern 0 b1 ∧ StrWireAs pads 6 hn n b2 ∧ bs = b1 ++ b2)
  | _, _ => False

end Verif.Spec
