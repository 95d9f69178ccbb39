import Verif.Spec.Protos
import Verif.Spec.ProtosValues
import Verif.Protos.Client
/-! Messages inside messages: code of a user of the crate, and what it means that a message was read back. -/
namespace Verif.Protos

/-- A field of a message: a value, or a message. -/
inductive Field where
  | value (tag : UInt32) (lit : EncoderLit)
  | message (tag : UInt32) (fields : List Field)

mutual
/-- Write a field as a user of the crate has to (there is no variant for messages): a message is first encoded
into a vector of its own, which is then written as `EncoderLit::Bytes`. -/
def encodeField : Field → M Bytes EncoderError Nat
  | .value tag lit => Encoder.encode vecWriter tag lit
  | .message tag fs => fun dst =>
    match encodeFields fs [] with
    | (.ok _, sub) => Encoder.encode vecWriter tag (.bytes sub) dst
    | (.err e, _) => (.err e, dst)
    | (.panic, _) => (.panic, dst)
    | (.hang, _) => (.hang, dst)
/-- Write fields one after the other, `?` after each; the result is the sum of the sizes. -/
def encodeFields : List Field → M Bytes EncoderError Nat
  | [] => pure 0
  | f :: fs => do
    let a ← encodeField f
    let b ← encodeFields fs
    pure (a + b)
end

end Verif.Protos

namespace Verif.Spec.Proto
open Verif Verif.Protos

mutual
/-- The wire format of a field. -/
def nestedBytes : Field → Octets
  | .value tag lit => fieldBytes tag.toNat lit
  | .message tag fs => record tag.toNat .lengthDelimited (messageBytes fs)
/-- The wire format of a message. -/
def messageBytes : List Field → Octets
  | [] => []
  | f :: fs => nestedBytes f ++ messageBytes fs
end

mutual
/-- Tags from 1 to 2^29-1, values and messages that fit in the memory. -/
def GoodNested : Field → Prop
  | .value tag lit => GoodField (tag, lit)
  | .message tag fs => 1 ≤ tag.toNat ∧ tag.toNat ≤ 2 ^ 29 - 1 ∧ (messageBytes fs).length < 2 ^ 64 ∧ GoodMessage fs
def GoodMessage : List Field → Prop
  | [] => True
  | f :: fs => GoodNested f ∧ GoodMessage fs
end

mutual
/-- What `decode` delivered is the field: tag, wire type, and the payload converts back into the value, or the payload is in
turn read (by a new decoder) as the message. -/
def FieldRead (chk : Bool) : Field → UInt32 × Typ × Bytes → Prop
  | .value tag lit, r => r.1 = tag ∧ r.2.1 = wireType lit ∧ ConvertsBack chk r.2.2 lit
  | .message tag fs, r => r.1 = tag ∧ r.2.1 = .lengthDelimited ∧
      ∃ recs, drain chk (DState.fresh r.2.2 []) = (.ok (), DState.fresh [] recs) ∧ FieldsRead chk fs recs
/-- The same for all fields of a message, in order. -/
def FieldsRead (chk : Bool) : List Field → List (UInt32 × Typ × Bytes) → Prop
  | [], recs => recs = []
  | f :: fs, recs => ∃ r rs, recs = r :: rs ∧ FieldRead chk f r ∧ FieldsRead chk fs rs
end

/-- The bytes are read as the message `fs`: calling `decode` until 0 empties the buffer and delivers its fields. -/
def MessageRead (chk : Bool) (fs : List Field) (bs : Octets) : Prop :=
  ∃ recs, drain chk (DState.fresh bs []) = (.ok (), DState.fresh [] recs) ∧ FieldsRead chk fs recs

end Verif.Spec.Proto
