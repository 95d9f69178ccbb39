import Verif.Spec.HpackEncode
/-! Specification of a session: a history of encoder calls and what it means. -/
namespace Verif.Spec
open Verif.Hpack (EncoderInput)

/-- One call of the encoder. -/
inductive SessionOp where
  | header (input : EncoderInput)
  | resize (n : UInt32)

/-- Meaning of a history, starting with table `t`: the headers (with flags) and the final table. `limit` bounds the
size updates. -/
inductive SessionMeans (limit : Nat) : SpecTable → List SessionOp → List (Octets × Octets × UInt8) → SpecTable → Prop where
  | nil (t : SpecTable) : SessionMeans limit t [] [] t
  | header {t t1 t2 : SpecTable} {input : EncoderInput} {rep : Rep} {h : Octets × Octets × UInt8}
      {ops : List SessionOp} {hs : List (Octets × Octets × UInt8)} (hc : Chosen t input rep)
      (ha : rep.apply limit t = some (some h, t1)) (hr : SessionMeans limit t1 ops hs t2) :
      SessionMeans limit t (.header input :: ops) (h :: hs) t2
  | resize {t t2 : SpecTable} {n : UInt32} {ops : List SessionOp} {hs : List (Octets × Octets × UInt8)}
      (hn : n.toNat ≤ limit) (hr : SessionMeans limit (t.resize n.toNat) ops hs t2) :
      SessionMeans limit t (.resize n :: ops) hs t2

/-- The strings of an input, in the form asked for, have lengths that the decoder can read; the name counts only if
the input has one. -/
def InputFits (input : EncoderInput) : Prop :=
  match input with
  | .Indexed _ => True
  | .IndexedName _ v f => strLen (f.toNat.testBit 1) v < 2 ^ 28 + 127
  | .Literal n v f => strLen (f.toNat.testBit 0) n < 2 ^ 28 + 127 ∧ strLen (f.toNat.testBit 1) v < 2 ^ 28 + 127

/-- A call whose output the decoder accepts: strings of readable length, size updates within the limit. -/
def OpFits (limit : Nat) : SessionOp → Prop
  | .header input => InputFits input
  | .resize n => n.toNat ≤ limit ∧ n.toNat < 2 ^ 28 + 31

end Verif.Spec
