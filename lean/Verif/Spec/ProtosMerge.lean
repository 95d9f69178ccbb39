import Verif.Spec.Protos
/-! What a reader of a protobuf message looks at: the fields of a tag. Independent of the decoder. -/
namespace Verif.Spec.Proto
open Verif.Protos

/-- The fields with a given tag, in the order of the message: wire types and payloads. -/
def ofTag (tag : UInt32) (recs : List (UInt32 × Typ × Octets)) : List (Typ × Octets) :=
  (recs.filter fun r => r.1 = tag).map (·.2)

/-- The value of a field that is not repeated: the last one with the tag counts. -/
def lastOf (tag : UInt32) (recs : List (UInt32 × Typ × Octets)) : Option (Typ × Octets) := (ofTag tag recs).getLast?

end Verif.Spec.Proto
