import Verif.Protos.Types
import Verif.Spec.Hpack
/-! Specification of the protobuf wire format, independent of the model (it uses only the data types of the API).

* what an encoder has to write: `varint`, `le`, `zigzag`, `payload`, `wireType`, `record`;
* what a decoder accepts: `VarintWire`, `KeyWire`, `BodyWire`, `RecordWire`, `MessageWire`; `HeaderWire` describes the bytes
  of a field read so far. -/
namespace Verif.Spec.Proto
open Verif.Protos (Typ EncoderLit)

/-! ### Writing -/

/-- Base-128 digits, least significant first; all but the last have the top bit set. -/
def varint (n : Nat) : Octets :=
  if n < 128 then [UInt8.ofNat n] else UInt8.ofNat (128 + n % 128) :: varint (n / 128)

/-- `n` in `k` bytes, least significant first. -/
def le : Nat → Nat → Octets
  | 0, _ => []
  | k + 1, n => UInt8.ofNat (n % 256) :: le k (n / 256)

/-- The two's complement of `v` with `k` bits, as an unsigned number. -/
def twos (k : Nat) (v : Int) : Nat := (v % 2 ^ k).toNat

/-- ZigZag: 0, -1, 1, -2, ... are numbered 0, 1, 2, 3, ... -/
def zigzag (v : Int) : Nat := if 0 ≤ v then 2 * v.toNat else 2 * (-v).toNat - 1

/-- The number of a wire type. `unknown` has none; 8 stands for it. -/
def typNum : Typ → Nat
  | .varint => 0
  | .bit64 => 1
  | .lengthDelimited => 2
  | .bit32 => 5
  | .unknown => 8

/-- The wire type of a format. -/
def wireType : EncoderLit → Typ
  | .bool _ | .int32 _ | .int64 _ | .uint32 _ | .uint64 _ | .sint32 _ | .sint64 _ => .varint
  | .float _ | .fixed32 _ | .sfixed32 _ => .bit32
  | .double _ | .fixed64 _ | .sfixed64 _ => .bit64
  | .bytes _ | .boolVec _ | .int32Vec _ | .int64Vec _ | .uint32Vec _ | .uint64Vec _ | .sint32Vec _ | .sint64Vec _
  | .floatVec _ | .fixed32Vec _ | .sfixed32Vec _ | .doubleVec _ | .fixed64Vec _ | .sfixed64Vec _ => .lengthDelimited

/-- The bytes of a value. -/
def payload : EncoderLit → Octets
  | .bytes b => b
  | .bool v => varint v.toNat
  | .int32 v => varint (twos 64 v.toInt)
  | .int64 v => varint (twos 64 v.toInt)
  | .uint32 v => varint v.toNat
  | .uint64 v => varint v.toNat
  | .sint32 v => varint (zigzag v.toInt)
  | .sint64 v => varint (zigzag v.toInt)
  | .fixed32 v => le 4 v.toNat
  | .fixed64 v => le 8 v.toNat
  | .sfixed32 v => le 4 (twos 32 v.toInt)
  | .sfixed64 v => le 8 (twos 64 v.toInt)
  | .float v => le 4 v.toNat
  | .double v => le 8 v.toNat
  | .boolVec vs => vs.flatMap fun v => varint v.toNat
  | .int32Vec vs => vs.flatMap fun v => varint (twos 64 v.toInt)
  | .int64Vec vs => vs.flatMap fun v => varint (twos 64 v.toInt)
  | .uint32Vec vs => vs.flatMap fun v => varint v.toNat
  | .uint64Vec vs => vs.flatMap fun v => varint v.toNat
  | .sint32Vec vs => vs.flatMap fun v => varint (zigzag v.toInt)
  | .sint64Vec vs => vs.flatMap fun v => varint (zigzag v.toInt)
  | .fixed32Vec vs => vs.flatMap fun v => le 4 v.toNat
  | .fixed64Vec vs => vs.flatMap fun v => le 8 v.toNat
  | .sfixed32Vec vs => vs.flatMap fun v => le 4 (twos 32 v.toInt)
  | .sfixed64Vec vs => vs.flatMap fun v => le 8 (twos 64 v.toInt)
  | .floatVec vs => vs.flatMap fun v => le 4 v.toNat
  | .doubleVec vs => vs.flatMap fun v => le 8 v.toNat

/-- A field: key, for length-delimited fields the length, payload. -/
def record (tag : Nat) (typ : Typ) (p : Octets) : Octets :=
  varint (8 * tag + typNum typ) ++ (if typ = .lengthDelimited then varint p.length else []) ++ p

/-- The bytes of a field holding `lit`. -/
def fieldBytes (tag : Nat) (lit : EncoderLit) : Octets := record tag (wireType lit) (payload lit)

/-! ### Reading -/

/-- What 64-bit hardware without overflow checks makes of a varint of any length: the seven-bit group number `i` is shifted
by `7 * i` modulo 64, bits beyond 64 are lost, the groups are combined by bitwise or. -/
def maskedVal : Nat → Octets → Nat
  | _, [] => 0
  | i, c :: cs => (c.toNat % 128) * 2 ^ (7 * i % 64) % 2 ^ 64 ||| maskedVal (i + 1) cs

/-- `bs` is a varint with value `v`. Up to ten bytes long the value is the base-128 number modulo 2^64. Longer ones are read
only without overflow checks (`chk = false`), with the value `maskedVal`. -/
def VarintWire (chk : Bool) (bs : Octets) (v : Nat) : Prop :=
  IsCont bs ∧ (bs.length ≤ 10 → v = contVal bs % 2 ^ 64) ∧ (10 < bs.length → chk = false ∧ v = maskedVal 0 bs)

/-- The inverse numbering of ZigZag. -/
def unzigzag (n : Nat) : Int := if n % 2 = 0 then (n / 2 : Nat) else -((n / 2 : Nat) : Int) - 1

/-- The number written by `le`. -/
def leVal : Octets → Nat
  | [] => 0
  | c :: cs => c.toNat + 256 * leVal cs

/-- A key that no field can have: number above 2^32-1, tag 0, or an unassigned wire type. -/
def BadKey (v : Nat) : Prop := 2 ^ 32 ≤ v ∨ v / 8 = 0 ∨ v % 8 = 3 ∨ v % 8 = 4 ∨ v % 8 = 6 ∨ v % 8 = 7

/-- `bs` is a sequence of elements, each of which is as `W` says. -/
def PackedWire {α : Type} (W : Octets → α → Prop) : List α → Octets → Prop
  | [], bs => bs = []
  | v :: vs, bs => ∃ b c, bs = b ++ c ∧ W b v ∧ PackedWire W vs c

/-- An element of a varint format: its value is computed by `f` from the number. -/
def VarintItem {α : Type} (chk : Bool) (f : Nat → α) (bs : Octets) (v : α) : Prop :=
  ∃ n, VarintWire chk bs n ∧ v = f n

/-- An element of a fixed-size format with `k` bytes. -/
def FixedItem {α : Type} (k : Nat) (f : Nat → α) (bs : Octets) (v : α) : Prop :=
  bs.length = k ∧ v = f (leVal bs)

/-- `bs` is a key with this tag and wire type. -/
def KeyWire (chk : Bool) (bs : Octets) (tag : Nat) (typ : Typ) : Prop :=
  1 ≤ tag ∧ tag < 2 ^ 29 ∧ typ ≠ .unknown ∧ VarintWire chk bs (8 * tag + typNum typ)

/-- `bs` is the part of a field after its key, with the payload `p`. -/
def BodyWire (chk : Bool) (typ : Typ) (bs p : Octets) : Prop :=
  match typ with
  | .varint => bs = p ∧ IsCont p
  | .bit32 => bs = p ∧ p.length = 4
  | .bit64 => bs = p ∧ p.length = 8
  | .lengthDelimited => ∃ l, bs = l ++ p ∧ VarintWire chk l p.length
  | .unknown => False

/-- `bs` is a field with this tag, wire type and payload. -/
def RecordWire (chk : Bool) (r : UInt32 × Typ × Octets) (bs : Octets) : Prop :=
  ∃ k b, bs = k ++ b ∧ KeyWire chk k r.1.toNat r.2.1 ∧ BodyWire chk r.2.1 b r.2.2

/-- `bs` is a sequence of fields. -/
def MessageWire (chk : Bool) : List (UInt32 × Typ × Octets) → Octets → Prop
  | [], bs => bs = []
  | r :: rs, bs => ∃ b c, bs = b ++ c ∧ RecordWire chk r b ∧ MessageWire chk rs c

/-- `bs` are the bytes of an unfinished field which a decoder has read and remembers as `key` and `len`: nothing, or a key,
or a key and a length that is not zero. -/
def HeaderWire (chk : Bool) (key : UInt32 × Typ) (len : Option UInt64) (bs : Octets) : Prop :=
  (key = (0, .unknown) ∧ len = none ∧ bs = []) ∨
  (KeyWire chk bs key.1.toNat key.2 ∧ len = none) ∨
  (∃ k l n, bs = k ++ l ∧ KeyWire chk k key.1.toNat key.2 ∧ key.2 = .lengthDelimited ∧ len = some n ∧ n ≠ 0 ∧
    VarintWire chk l n.toNat)

/-- `buf` ends before the next part of the field whose header was read as `key` and `len`: inside a varint (the key, a
varint value or a length), or before the last byte of a fixed-size or length-delimited value. -/
def Incomplete (key : UInt32 × Typ) (len : Option UInt64) (buf : Octets) : Prop :=
  match key.2, len with
  | .unknown, _ | .varint, _ | .lengthDelimited, none => ∀ c ∈ buf, 128 ≤ c.toNat
  | .bit32, _ => buf.length < 4
  | .bit64, _ => buf.length < 8
  | .lengthDelimited, some n => buf.length < n.toNat

/-- The next part of the field whose header was read as `key` and `len` is a varint whose value is needed: a key or a length. -/
def AtNumber (key : UInt32 × Typ) (len : Option UInt64) : Prop :=
  key.2 = .unknown ∨ (key.2 = .lengthDelimited ∧ len = none)

/-- `buf` starts with a varint of more than ten bytes. -/
def Overlong (buf : Octets) : Prop := 10 < buf.length ∧ ∀ c ∈ buf.take 10, 128 ≤ c.toNat

/-- How reading fields until nothing is left that can be read must end, when the header of the current field was read as
`key` and `len` and `rest` are the bytes that are left: it waits for more bytes, it refuses a bad key, or, with overflow checks,
it panics because of a key or length that is too long. -/
inductive Ending (chk : Bool) (key : UInt32 × Typ) (len : Option UInt64) (rest : Octets) : Verif.Res Verif.Protos.DecoderError Unit → Prop
  | waits (h : Incomplete key len rest) (h2 : chk = true → AtNumber key len → rest.length ≤ 10) : Ending chk key len rest (.ok ())
  | refuses (cs r : Octets) (v : Nat) (h : key = (0, .unknown)) (h2 : rest = cs ++ r) (h3 : VarintWire chk cs v) (h4 : BadKey v) :
      Ending chk key len rest (.err .invalidInput)
  | panics (h : chk = true) (h2 : AtNumber key len) (h3 : Overlong rest) : Ending chk key len rest .panic

end Verif.Spec.Proto
