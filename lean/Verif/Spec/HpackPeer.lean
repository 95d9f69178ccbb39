import Verif.Spec.Hpack
/-! Specification of an arbitrary peer that follows RFC 7541, independent of the model: what such an encoder may send and what such a
decoder understands. -/
namespace Verif.Spec

/-- RFC 7541 4.2 and 6: a header block. First any number of size updates, none above the limit, then representations of headers; strings
padded as 5.2 demands, integers of at most `lim` octets; read with the table `t` it means the headers `hs` and leaves the table `t'`. -/
def RfcBlock (lim limit : Nat) (t : SpecTable) (bs : Octets) (hs : List (Octets × Octets × UInt8)) (t' : SpecTable) : Prop :=
  ∃ us ws : List (Rep × Octets), (∀ w ∈ us ++ ws, RepWire rfcPads lim w.1 w.2) ∧
    (∀ w ∈ us, w.1.isHeader = false) ∧ (∀ w ∈ ws, w.1.isHeader = true) ∧
    bs = wireOf (us ++ ws) ∧ applyAll limit t ((us ++ ws).map (·.1)) = some (hs, t')

/-- One block on a connection: the limit in force, the octets, the headers. -/
structure Exchange where
  limit : UInt32
  octets : Octets
  headers : List (Octets × Octets × UInt8)

/-- The blocks of one direction of a connection, each read with the table the block before left. -/
inductive RfcConnection (lim : Nat) : SpecTable → List Exchange → SpecTable → Prop where
  | nil (t : SpecTable) : RfcConnection lim t [] t
  | cons {t t1 t2 : SpecTable} {x : Exchange} {xs : List Exchange} (h : RfcBlock lim x.limit.toNat t x.octets x.headers t1)
      (hr : RfcConnection lim t1 xs t2) : RfcConnection lim t (x :: xs) t2

end Verif.Spec
