import Verif.Spec.Protos
/-! Specification of an arbitrary peer that follows the protobuf wire format, independent of the model: which bytes another implementation may
write for a list of fields. It uses only the data types of the API. -/
namespace Verif.Spec.Proto
open Verif.Protos (EncoderLit)

/-- A varint of at most ten bytes, not necessarily the shortest, of a number of 64 bits. -/
def AnyVarint (bs : Octets) (n : Nat) : Prop := IsCont bs ∧ bs.length ≤ 10 ∧ contVal bs = n ∧ n < 2 ^ 64

/-- Any number but 0 is true. -/
def BoolAs (bs : Octets) (v : Bool) : Prop := ∃ n, AnyVarint bs n ∧ (n = 0 ↔ v = false)
/-- A number with these low 32 bits: negative numbers extended to 64 bits (as the format prescribes) or not. -/
def Int32As (bs : Octets) (v : Int32) : Prop := ∃ n, AnyVarint bs n ∧ n % 2 ^ 32 = twos 32 v.toInt
def Int64As (bs : Octets) (v : Int64) : Prop := AnyVarint bs (twos 64 v.toInt)
def Uint32As (bs : Octets) (v : UInt32) : Prop := ∃ n, AnyVarint bs n ∧ n % 2 ^ 32 = v.toNat
def Uint64As (bs : Octets) (v : UInt64) : Prop := AnyVarint bs v.toNat
def Sint32As (bs : Octets) (v : Int32) : Prop := AnyVarint bs (zigzag v.toInt)
def Sint64As (bs : Octets) (v : Int64) : Prop := AnyVarint bs (zigzag v.toInt)
def Fixed32As (bs : Octets) (v : UInt32) : Prop := bs = le 4 v.toNat
def Fixed64As (bs : Octets) (v : UInt64) : Prop := bs = le 8 v.toNat
def Sfixed32As (bs : Octets) (v : Int32) : Prop := bs = le 4 (twos 32 v.toInt)
def Sfixed64As (bs : Octets) (v : Int64) : Prop := bs = le 8 (twos 64 v.toInt)

/-- `p` is a payload that a peer may write for the value. -/
def Stands (p : Octets) : EncoderLit → Prop
  | .bytes b => p = b
  | .bool v => BoolAs p v
  | .int32 v => Int32As p v
  | .int64 v => Int64As p v
  | .uint32 v => Uint32As p v
  | .uint64 v => Uint64As p v
  | .sint32 v => Sint32As p v
  | .sint64 v => Sint64As p v
  | .fixed32 v => Fixed32As p v
  | .fixed64 v => Fixed64As p v
  | .sfixed32 v => Sfixed32As p v
  | .sfixed64 v => Sfixed64As p v
  | .float v => Fixed32As p v
  | .double v => Fixed64As p v
  | .boolVec vs => PackedWire BoolAs vs p
  | .int32Vec vs => PackedWire Int32As vs p
  | .int64Vec vs => PackedWire Int64As vs p
  | .uint32Vec vs => PackedWire Uint32As vs p
  | .uint64Vec vs => PackedWire Uint64As vs p
  | .sint32Vec vs => PackedWire Sint32As vs p
  | .sint64Vec vs => PackedWire Sint64As vs p
  | .fixed32Vec vs => PackedWire Fixed32As vs p
  | .fixed64Vec vs => PackedWire Fixed64As vs p
  | .sfixed32Vec vs => PackedWire Sfixed32As vs p
  | .sfixed64Vec vs => PackedWire Sfixed64As vs p
  | .floatVec vs => PackedWire Fixed32As vs p
  | .doubleVec vs => PackedWire Fixed64As vs p

/-- `bs` is what a peer may write for a field, with the payload `p`. -/
def PeerField (f : UInt32 × EncoderLit) (p bs : Octets) : Prop :=
  1 ≤ f.1.toNat ∧ f.1.toNat < 2 ^ 29 ∧ Stands p f.2 ∧ ∃ key len, AnyVarint key (8 * f.1.toNat + typNum (wireType f.2)) ∧
    (wireType f.2 = .lengthDelimited → AnyVarint len p.length) ∧ (wireType f.2 ≠ .lengthDelimited → len = []) ∧ bs = key ++ len ++ p

/-- `bs` is what a peer may write for a list of fields, with the payloads `ps`. -/
inductive PeerMessage : List (UInt32 × EncoderLit) → List Octets → Octets → Prop where
  | nil : PeerMessage [] [] []
  | cons {f : UInt32 × EncoderLit} {fs : List (UInt32 × EncoderLit)} {p : Octets} {ps : List Octets} {b c : Octets}
      (h : PeerField f p b) (hr : PeerMessage fs ps c) : PeerMessage (f :: fs) (p :: ps) (b ++ c)

end Verif.Spec.Proto
