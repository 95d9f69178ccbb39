import Verif.Spec.HpackTries
/-! Specification of a connection: header blocks in one direction, limit changes of the receiver in between. -/
namespace Verif.Spec

/-- What happens on a connection: the sender makes some encoder calls and the octets are sent as one block, or the receiver
sets a new limit for the table size. -/
inductive ConnEvent where
  | block (ops : List SessionOp)
  | limit (n : UInt32)

/-- All strings have readable lengths, and every size update is within the limit in force at that moment. -/
def EventsFit : Nat → List ConnEvent → Prop
  | _, [] => True
  | l, .block ops :: es => (∀ op ∈ ops, OpFits l op) ∧ EventsFit l es
  | _, .limit n :: es => EventsFit n.toNat es

/-- Meaning of a history of a connection: which calls were accepted, the headers, and the final table. -/
inductive ConnMeans : Nat → SpecTable → List ConnEvent → List Bool → List (Octets × Octets × UInt8) → SpecTable → Prop where
  | nil (l : Nat) (t : SpecTable) : ConnMeans l t [] [] [] t
  | block {l : Nat} {t t1 t2 : SpecTable} {ops : List SessionOp} {es : List ConnEvent} {oks oks' : List Bool}
      {hs hs' : List (Octets × Octets × UInt8)} (h : SessionTries l t ops oks hs t1) (hr : ConnMeans l t1 es oks' hs' t2) :
      ConnMeans l t (.block ops :: es) (oks ++ oks') (hs ++ hs') t2
  | limit {l : Nat} {t t2 : SpecTable} {n : UInt32} {es : List ConnEvent} {oks : List Bool}
      {hs : List (Octets × Octets × UInt8)} (hr : ConnMeans n.toNat t es oks hs t2) :
      ConnMeans l t (.limit n :: es) oks hs t2

end Verif.Spec
