import Verif.Hpack.Table
import Verif.Spec.Hpack
/-! How a table of the model corresponds to the table of the specification. -/
namespace Verif.Hpack
open Verif.Spec

/-- Accounting: the stored size is the sum of the entry sizes. -/
def Dynamic.Acc (d : Dynamic) : Prop := d.size = tableSize d.inner

/-- Invariant of every table between calls. -/
def Dynamic.WF (d : Dynamic) : Prop := d.Acc ∧ tableSize d.inner ≤ d.maxSize.toNat

/-- Invariant of every table between calls. -/
def Table.WF (t : Table) : Prop := t.dynamic.WF

/-- The abstract table of the specification. -/
def Table.spec (t : Table) : SpecTable := ⟨t.dynamic.inner, t.dynamic.maxSize.toNat⟩

/-- The model table with given contents. -/
def Table.ofEntries (l : List Entry) (m : UInt32) : Table := ⟨⟨l, tableSize l, m⟩⟩

end Verif.Hpack
