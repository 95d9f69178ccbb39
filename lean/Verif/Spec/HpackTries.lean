import Verif.Spec.HpackSession
/-! Specification of a session in which some calls are refused. -/
namespace Verif.Spec
open Verif.Hpack (EncoderInput)

/-- The input names an index that has no header. -/
def BadIndex (t : SpecTable) (input : EncoderInput) : Prop :=
  ∃ i : UInt32, t.addr i.toNat = none ∧ (input = .Indexed i ∨ ∃ v f, input = .IndexedName i v f)

/-- Meaning of a history of calls in which calls with a bad index are refused and forgotten: like `SessionMeans`, but a call
with a bad index means nothing. The list of verdicts tells which calls were accepted. -/
inductive SessionTries (limit : Nat) :
    SpecTable → List SessionOp → List Bool → List (Octets × Octets × UInt8) → SpecTable → Prop where
  | nil (t : SpecTable) : SessionTries limit t [] [] [] t
  | header {t t1 t2 : SpecTable} {input : EncoderInput} {rep : Rep} {h : Octets × Octets × UInt8}
      {ops : List SessionOp} {oks : List Bool} {hs : List (Octets × Octets × UInt8)} (hc : Chosen t input rep)
      (ha : rep.apply limit t = some (some h, t1)) (hr : SessionTries limit t1 ops oks hs t2) :
      SessionTries limit t (.header input :: ops) (true :: oks) (h :: hs) t2
  | refused {t t2 : SpecTable} {input : EncoderInput} {ops : List SessionOp} {oks : List Bool}
      {hs : List (Octets × Octets × UInt8)} (hb : BadIndex t input) (hr : SessionTries limit t ops oks hs t2) :
      SessionTries limit t (.header input :: ops) (false :: oks) hs t2
  | resize {t t2 : SpecTable} {n : UInt32} {ops : List SessionOp} {oks : List Bool} {hs : List (Octets × Octets × UInt8)}
      (hn : n.toNat ≤ limit) (hr : SessionTries limit (t.resize n.toNat) ops oks hs t2) :
      SessionTries limit t (.resize n :: ops) (true :: oks) hs t2

end Verif.Spec
