import Verif.Basic
import Verif.Hpack.StaticTable
/-! Model of /repo/hpack/src/table/{dynamic,iter,mod}.rs. -/
namespace Verif.Hpack

/-- A header, `(Vec<u8>, Vec<u8>)`, /repo/hpack/src/table/dynamic.rs:8-23. -/
abbrev Entry := Bytes × Bytes

/-- `DynamicTable`, /repo/hpack/src/table/dynamic.rs:8-23. `inner` has the newest entry first (`VecDeque` front).
`size: usize` is an unbounded natural (the sum of lengths of live vectors cannot overflow a 64-bit `usize`). -/
structure Dynamic where
  inner : List Entry
  size : Nat
  maxSize : UInt32
  deriving Repr, DecidableEq

/-- `DynamicTable::with_size`, /repo/hpack/src/table/dynamic.rs:28-34. -/
def Dynamic.withSize (maxSize : UInt32) : Dynamic := { inner := [], size := 0, maxSize := maxSize }

/-- `consolidate`, /repo/hpack/src/table/dynamic.rs:95-101: `while self.size > self.max_size { if let Some(header) = pop_back() {..} }`.
With an empty deque and `size > max_size` the loop would spin for ever (`hang`); the subtraction is checked. The fuel
is one more than the number of entries. -/
def Dynamic.consolidateLoop {ε : Type} : Nat → Dynamic → Res ε Dynamic
  | 0, d => if d.size > d.maxSize.toNat then .hang else .ok d
  | fuel + 1, d =>
    if d.size > d.maxSize.toNat then
      match d.inner.getLast? with
      | some header =>
        let n := header.1.length + header.2.length + 32
        if n ≤ d.size then consolidateLoop fuel { d with inner := d.inner.dropLast, size := d.size - n } else .panic
      | none => consolidateLoop fuel d
    else .ok d

/-- `consolidate`, /repo/hpack/src/table/dynamic.rs:95-101, with enough fuel. -/
def Dynamic.consolidate {ε : Type} (d : Dynamic) : Res ε Dynamic := consolidateLoop (d.inner.length + 1) d

/-- `update_max_size`, /repo/hpack/src/table/dynamic.rs:56-60. -/
def Dynamic.updateMaxSize {ε : Type} (d : Dynamic) (size : UInt32) : Res ε Dynamic :=
  Dynamic.consolidate { d with maxSize := size }

/-- `DynamicTable::get`, /repo/hpack/src/table/dynamic.rs:63-68. -/
def Dynamic.get (d : Dynamic) (index : Nat) : Option Entry := d.inner[index]?

/-- `DynamicTable::insert`, /repo/hpack/src/table/dynamic.rs:85-90. -/
def Dynamic.insert {ε : Type} (d : Dynamic) (name value : Bytes) : Res ε Dynamic :=
  Dynamic.consolidate
    { d with size := d.size + (name.length + value.length + 32), inner := (name, value) :: d.inner }

/-- `Table`, /repo/hpack/src/table/mod.rs:80-86. The static table is always `STATIC_TABLE`, so the model keeps only
the dynamic part. -/
structure Table where
  dynamic : Dynamic
  deriving Repr, DecidableEq

/-- `Table::with_dynamic_size`, /repo/hpack/src/table/mod.rs:91-96. -/
def Table.withDynamicSize (maxSize : UInt32) : Table := ⟨Dynamic.withSize maxSize⟩

/-- `Default for Table`, /repo/hpack/src/table/mod.rs:188-195 with /repo/hpack/src/table/dynamic.rs:104-108 (4096). -/
def Table.default : Table := Table.withDynamicSize 4096

/-- `Table::len`, /repo/hpack/src/table/mod.rs:100-102. -/
def Table.len (t : Table) : Nat := STATIC_TABLE.length + t.dynamic.inner.length
/-- `Table::dynamic_len`, /repo/hpack/src/table/mod.rs:105-107 and /repo/hpack/src/table/dynamic.rs:37-39. -/
def Table.dynamicLen (t : Table) : Nat := t.dynamic.inner.length
/-- `Table::dynamic_size`, /repo/hpack/src/table/mod.rs:111-113 and /repo/hpack/src/table/dynamic.rs:42-44 (`self.size as u32` truncates). -/
def Table.dynamicSize (t : Table) : UInt32 := UInt32.ofNat t.dynamic.size
/-- `Table::max_dynamic_size`, /repo/hpack/src/table/mod.rs:116-118 and /repo/hpack/src/table/dynamic.rs:47-49. -/
def Table.maxDynamicSize (t : Table) : UInt32 := t.dynamic.maxSize

/-- `Table::update_max_dynamic_size`, /repo/hpack/src/table/mod.rs:121-123. -/
def Table.updateMaxDynamicSize {ε : Type} (t : Table) (size : UInt32) : Res ε Table :=
  match t.dynamic.updateMaxSize (ε := ε) size with
  | .ok d => .ok ⟨d⟩
  | .err e => .err e
  | .panic => .panic
  | .hang => .hang

/-- `Table::get`, /repo/hpack/src/table/mod.rs:141-154. `self.static_table[index]` is in range by the test before it. -/
def Table.get (t : Table) (index : UInt32) : Option Entry :=
  if index = 0 then none
  else
    let index := index.toNat - 1
    if index < STATIC_TABLE.length then STATIC_TABLE[index]?
    else t.dynamic.get (index - STATIC_TABLE.length)

/-- `Table::insert`, /repo/hpack/src/table/mod.rs:183-185. -/
def Table.insert {ε : Type} (t : Table) (name value : Bytes) : Res ε Table :=
  match t.dynamic.insert (ε := ε) name value with
  | .ok d => .ok ⟨d⟩
  | .err e => .err e
  | .panic => .panic
  | .hang => .hang

/-- `TableIter::next`, /repo/hpack/src/table/iter.rs:13-21: the item and the new `index`. `self.index += 1` panics at the
largest `u32` with overflow checks (`chk`) and wraps without. -/
def Table.iterNext (chk : Bool) (t : Table) (index : UInt32) : Res Unit (Option Entry × UInt32) :=
  if chk = true ∧ index = 0xFFFFFFFF then .panic else .ok (t.get index, index + 1)

/-- The results of `n` calls of `next`, from an iterator at `index`.
User code around `TableIter::next`, /repo/hpack/src/table/iter.rs:16-20. -/
def Table.iterTake (chk : Bool) (t : Table) : Nat → UInt32 → Res Unit (List (Option Entry))
  | 0, _ => .ok []
  | n + 1, index => do
    let (item, index) ← t.iterNext chk index
    let items ← t.iterTake chk n index
    .ok (item :: items)

/-- Draining the iterator of `Table::iter` (/repo/hpack/src/table/mod.rs:132-134, /repo/hpack/src/table/iter.rs:13-21): `get` at 1, 2, ... until `None`. `none`
means that the iterator did not end within the fuel (`self.index += 1` overflows after 2^32 items at the earliest). -/
def Table.iterFrom (t : Table) : Nat → UInt32 → Option (List Entry)
  | 0, _ => none
  | fuel + 1, index =>
    match t.get index with
    | none => some []
    | some h => (t.iterFrom fuel (index + 1)).map (h :: ·)

/-- `Table::iter`, /repo/hpack/src/table/mod.rs:132-134, iterated to the end. -/
def Table.iter (t : Table) : Option (List Entry) := t.iterFrom (t.len + 1) 1

/-- The `for (i, h) in self.iter().enumerate()` loop of `Table::find`, /repo/hpack/src/table/mod.rs:166-179, over the iterated headers. -/
def findLoop (name value : Bytes) : Nat → Option Nat → List Entry → Option (Nat × Bool)
  | _, nameMatch, [] =>
    match nameMatch with
    | some i => some (i, false)
    | none => none
  | i, nameMatch, h :: hs =>
    if name = h.1 then
      if value = h.2 then some (i + 1, true)
      else if nameMatch.isNone then findLoop name value (i + 1) (some (i + 1)) hs
      else findLoop name value (i + 1) nameMatch hs
    else findLoop name value (i + 1) nameMatch hs

/-- `Table::find`, /repo/hpack/src/table/mod.rs:163-180. `none` of the outer option: the iterator did not end (theorem: it does). -/
def Table.find (t : Table) (name value : Bytes) : Option (Option (Nat × Bool)) :=
  t.iter.map (findLoop name value 0 none)

end Verif.Hpack
