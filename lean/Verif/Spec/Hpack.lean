import Verif.Spec.Huffman
import Verif.Spec.RfcStatic
/-! Specification of HPACK (RFC 7541), independent of the model.

* section 5.1 integers: `IntWire`; section 5.2 strings: `StrWire`;
* section 6 representations: `Rep` and their octets `RepWire`;
* sections 2.3, 4: the tables `SpecTable` and the meaning `Rep.apply` of a representation. -/
namespace Verif.Spec

abbrev Octets := List UInt8

/-! ### Tables (RFC 7541 2.3 and 4) -/

/-- 4.1: size of an entry. -/
def entrySize (e : Octets × Octets) : Nat := e.1.length + e.2.length + 32

/-- 4.1: size of the dynamic table. -/
def tableSize (l : List (Octets × Octets)) : Nat := (l.map entrySize).sum

/-- What is left of a dynamic table (newest entry first) after evicting from its end until its size is at most `max`:
the newest entries, as long as they fit. -/
def keepFitting : Nat → List (Octets × Octets) → List (Octets × Octets)
  | _, [] => []
  | max, e :: es => if entrySize e ≤ max then e :: keepFitting (max - entrySize e) es else []

/-- Dynamic table with its current maximum size. -/
structure SpecTable where
  entries : List (Octets × Octets)
  max : Nat

/-- 2.3.3: the index address space. -/
def SpecTable.addr (t : SpecTable) (i : Nat) : Option (Octets × Octets) :=
  if i = 0 then none
  else if i ≤ 61 then rfcStatic[i - 1]?
  else t.entries[i - 62]?

/-- 4.4: insertion. Entries are evicted until the new one fits or the table is empty; it is added if it fits. -/
def SpecTable.insert (t : SpecTable) (e : Octets × Octets) : SpecTable :=
  if entrySize e ≤ t.max then { t with entries := e :: keepFitting (t.max - entrySize e) t.entries }
  else { t with entries := [] }

/-- 4.3: change of the maximum size. -/
def SpecTable.resize (t : SpecTable) (max : Nat) : SpecTable :=
  { entries := keepFitting max t.entries, max := max }

/-! ### Representations (RFC 7541 6) -/

/-- The three kinds of literal representation: 6.2.1, 6.2.2, 6.2.3. -/
inductive Indexing where
  | incremental | without | never
  deriving DecidableEq, Repr

inductive NameRef where
  | index (i : Nat)
  | new (name : Octets)
  deriving DecidableEq, Repr

inductive Rep where
  | indexed (i : Nat)
  | literal (m : Indexing) (name : NameRef) (value : Octets)
  | sizeUpdate (n : Nat)
  deriving DecidableEq, Repr

/-- Flag the decoder reports for a literal: 4 "with indexing", 8 "never indexed", 0 otherwise. -/
def Indexing.flag : Indexing → UInt8
  | .incremental => 4
  | .without => 0
  | .never => 8

/-- Name denoted by a name reference. An index of zero is not a reference. -/
def NameRef.resolve (t : SpecTable) : NameRef → Option Octets
  | .index i => (t.addr i).map (·.1)
  | .new n => some n

/-- Meaning of a representation: the header (with flag) it adds to the header list, if any, and the new table. `none`
when it is a decoding error. `limit` is the limit set by the protocol for the table size. -/
def Rep.apply (limit : Nat) (t : SpecTable) : Rep → Option (Option (Octets × Octets × UInt8) × SpecTable)
  | .indexed i =>
    match t.addr i with
    | some (n, v) => some (some (n, v, 0), t)
    | none => none
  | .literal m name value =>
    match name.resolve t with
    | some n =>
      some (some (n, value, m.flag), if m = .incremental then t.insert (n, value) else t)
    | none => none
  | .sizeUpdate n => if n ≤ limit then some (none, t.resize n) else none

/-! ### Octets -/

/-- 5.1: value of the continuation octets, least significant group of seven bits first. -/
def contVal : Octets → Nat
  | [] => 0
  | c :: cs => c.toNat % 128 + 128 * contVal cs

/-- 5.1: all continuation octets but the last have the top bit set. -/
def IsCont : Octets → Prop
  | [] => False
  | [c] => c.toNat < 128
  | c :: cs => 128 ≤ c.toNat ∧ IsCont cs

/-- 5.1: `bs` represents the integer `v` with an `n`-bit prefix in an octet whose other bits are `hi` (a multiple of
`2^n`). Representations need not be of minimal length. -/
def IntWire (n hi v : Nat) (bs : Octets) : Prop :=
  (v < 2 ^ n - 1 ∧ bs = [UInt8.ofNat (hi + v)]) ∨
  (∃ cs, IsCont cs ∧ v = 2 ^ n - 1 + contVal cs ∧ bs = UInt8.ofNat (hi + (2 ^ n - 1)) :: cs)

/-- An integer representation of at most `lim` octets. -/
def IntWireLim (lim n hi v : Nat) (bs : Octets) : Prop := IntWire n hi v bs ∧ bs.length ≤ lim

/-- The paddings of RFC 7541 5.2: the most significant bits of EOS, fewer than eight. -/
def rfcPads : List (List Bool) := (List.range 8).map padOnes

/-- 5.2: `bs` represents the string `s`, plain (top bit clear) or Huffman-coded (top bit set). `pads` are the bit
strings allowed after the codes, `lim` the number of octets allowed for the length. -/
def StrWireAs (pads : List (List Bool)) (lim : Nat) : Bool → Octets → Octets → Prop
  | false, s, bs => ∃ len, IntWireLim lim 7 0 s.length len ∧ bs = len ++ s
  | true, s, bs =>
    ∃ len h, IntWireLim lim 7 128 h.length len ∧ (∃ t ∈ pads, bytesBits h = codesOf s ++ t) ∧ bs = len ++ h

/-- 5.2: either form. -/
def StrWire (pads : List (List Bool)) (lim : Nat) (s bs : Octets) : Prop := ∃ huff, StrWireAs pads lim huff s bs

/-- Number of octets of a string in the given form, without the length prefix. -/
def strLen (huff : Bool) (s : Octets) : Nat := if huff then (codeLenSum s + 7) / 8 else s.length

/-- Prefix length of a literal representation. -/
def Indexing.bits : Indexing → Nat
  | .incremental => 6
  | .without => 4
  | .never => 4

/-- First octet pattern of a literal representation. -/
def Indexing.pattern : Indexing → Nat
  | .incremental => 64
  | .without => 0
  | .never => 16

/-- 6: `bs` are octets of the representation; `hn` and `hv` say whether a name and a value are Huffman-coded. -/
def RepWireAs (pads : List (List Bool)) (lim : Nat) (hn hv : Bool) : Rep → Octets → Prop
  | .indexed i, bs => IntWireLim lim 7 128 i bs
  | .literal m (.index i) value, bs =>
    0 < i ∧ ∃ b1 b2, IntWireLim lim m.bits m.pattern i b1 ∧ StrWireAs pads lim hv value b2 ∧ bs = b1 ++ b2
  | .literal m (.new name) value, bs =>
    ∃ b1 b2 b3, IntWireLim lim m.bits m.pattern 0 b1 ∧ StrWireAs pads lim hn name b2 ∧
      StrWireAs pads lim hv value b3 ∧ bs = b1 ++ (b2 ++ b3)
  | .sizeUpdate n, bs => IntWireLim lim 5 32 n bs

/-- 6: octets of the representation, in any form. -/
def RepWire (pads : List (List Bool)) (lim : Nat) (r : Rep) (bs : Octets) : Prop :=
  ∃ hn hv, RepWireAs pads lim hn hv r bs

/-! ### Header blocks: sequences of representations -/

/-- Meaning of a sequence of representations. -/
def applyAll (limit : Nat) (t : SpecTable) : List Rep → Option (List (Octets × Octets × UInt8) × SpecTable)
  | [] => some ([], t)
  | r :: rs =>
    match r.apply limit t with
    | none => none
    | some (h, t') =>
      match applyAll limit t' rs with
      | none => none
      | some (hs, t'') => some (h.toList ++ hs, t'')

/-- Does the representation add a header? -/
def Rep.isHeader : Rep → Bool
  | .sizeUpdate _ => false
  | _ => true

/-- The octets of a sequence of representations with their octets. -/
def wireOf (ws : List (Rep × Octets)) : Octets := ws.flatMap (·.2)

/-- The octets of those representations that add a header. -/
def headerOctets (ws : List (Rep × Octets)) : Octets := (ws.filter (·.1.isHeader)).flatMap (·.2)

/-- `bs` read as the representations `ws` (each with its octets), starting with table `t` and the limit `limit` for
its size, means the headers `hs` and leaves table `t'`. -/
def Block (pads : List (List Bool)) (limit : Nat) (t : SpecTable) (bs : Octets) (ws : List (Rep × Octets))
    (hs : List (Octets × Octets × UInt8)) (t' : SpecTable) : Prop :=
  (∀ w ∈ ws, RepWire pads 5 w.1 w.2) ∧ bs = wireOf ws ∧ applyAll limit t (ws.map (·.1)) = some (hs, t')

/-! ### Truncated input -/

/-- `bs` is a non-empty proper beginning (of at most four octets) of integers with an `n`-bit prefix: the prefix is
full and every continuation octet so far announces another. -/
def IntCut (n : Nat) (bs : Octets) : Prop :=
  ∃ b0 tl, bs = b0 :: tl ∧ b0.toNat % 2 ^ n = 2 ^ n - 1 ∧ tl.length < 4 ∧ ∀ c ∈ tl, 128 ≤ c.toNat

/-- The length of a string is missing or cut off. -/
def StrCut (bs : Octets) : Prop := bs = [] ∨ IntCut 7 bs

/-- The integer in the first octet is cut off. -/
def FirstIntCut (bs : Octets) : Prop :=
  ∃ b0 tl, bs = b0 :: tl ∧
    ((128 ≤ b0.toNat ∧ IntCut 7 bs) ∨ (64 ≤ b0.toNat ∧ b0.toNat < 128 ∧ IntCut 6 bs) ∨
     (32 ≤ b0.toNat ∧ b0.toNat < 64 ∧ IntCut 5 bs) ∨ (b0.toNat < 32 ∧ IntCut 4 bs))

/-- The input ends inside (or just before) an integer of the representation it starts with: the integer of the first
octet, the length of the name, or the length of the value (of a literal whose name is known). -/
def RepCut (pads : List (List Bool)) (t : SpecTable) (bs : Octets) : Prop :=
  FirstIntCut bs ∨
  (∃ m : Indexing, ∃ i b1 r,
    0 < i ∧ (t.addr i).isSome ∧ IntWireLim 5 m.bits m.pattern i b1 ∧ StrCut r ∧ bs = b1 ++ r) ∨
  (∃ m : Indexing, ∃ b1 r, IntWireLim 5 m.bits m.pattern 0 b1 ∧ StrCut r ∧ bs = b1 ++ r) ∨
  (∃ m : Indexing, ∃ n b1 b2 r,
    IntWireLim 5 m.bits m.pattern 0 b1 ∧ StrWire pads 5 n b2 ∧ StrCut r ∧ bs = b1 ++ (b2 ++ r))

end Verif.Spec
