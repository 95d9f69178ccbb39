import Verif.Protos.Decoder
import Verif.Protos.From
/-! Generated by tools/gen_conform.py from the unit tests of /repo/protos: the model computes what the tests of the repository assert.
Tests of the model, checked by the kernel; the properties are proved elsewhere. -/
namespace Verif.Conform.Proto
open Verif Verif.Protos

/-! `encodes_*`, protos/src/encoder/primitives.rs:368-590. `f32::MIN` etc. are given by their bits. -/

example : encodeVarint vecWriter 0 [] = (.ok 1, [0]) := by decide +kernel
example : encodeVarint vecWriter 18446744073709551615 [] = (.ok 10, [255, 255, 255, 255, 255, 255, 255, 255, 255, 1]) := by decide +kernel
example : encodeKey vecWriter 123456789 .varint [] = (.ok 5, [168, 209, 249, 214, 3]) := by decide +kernel
example : encodeKey vecWriter 1234 .bit32 [] = (.ok 2, [149, 77]) := by decide +kernel
example : encodeInt32 vecWriter (-2147483648) [] = (.ok 10, [128, 128, 128, 128, 248, 255, 255, 255, 255, 1]) := by decide +kernel
example : encodeInt32 vecWriter 2147483647 [] = (.ok 5, [255, 255, 255, 255, 7]) := by decide +kernel
example : encodeUint32 vecWriter 0 [] = (.ok 1, [0]) := by decide +kernel
example : encodeUint32 vecWriter 4294967295 [] = (.ok 5, [255, 255, 255, 255, 15]) := by decide +kernel
example : encodeSint32 vecWriter (-2147483648) [] = (.ok 5, [255, 255, 255, 255, 15]) := by decide +kernel
example : encodeSint32 vecWriter 2147483647 [] = (.ok 5, [254, 255, 255, 255, 15]) := by decide +kernel
example : encodeInt64 vecWriter (-9223372036854775808) [] = (.ok 10, [128, 128, 128, 128, 128, 128, 128, 128, 128, 1]) := by decide +kernel
example : encodeInt64 vecWriter 9223372036854775807 [] = (.ok 9, [255, 255, 255, 255, 255, 255, 255, 255, 127]) := by decide +kernel
example : encodeUint64 vecWriter 0 [] = (.ok 1, [0]) := by decide +kernel
example : encodeUint64 vecWriter 18446744073709551615 [] = (.ok 10, [255, 255, 255, 255, 255, 255, 255, 255, 255, 1]) := by decide +kernel
example : encodeSint64 vecWriter (-9223372036854775808) [] = (.ok 10, [255, 255, 255, 255, 255, 255, 255, 255, 255, 1]) := by decide +kernel
example : encodeSint64 vecWriter 9223372036854775807 [] = (.ok 10, [254, 255, 255, 255, 255, 255, 255, 255, 255, 1]) := by decide +kernel
example : encodeBool vecWriter true [] = (.ok 1, [1]) := by decide +kernel
example : encodeBool vecWriter false [] = (.ok 1, [0]) := by decide +kernel
example : encodeFixed64 vecWriter 0 [] = (.ok 8, [0, 0, 0, 0, 0, 0, 0, 0]) := by decide +kernel
example : encodeFixed64 vecWriter 18446744073709551615 [] = (.ok 8, [255, 255, 255, 255, 255, 255, 255, 255]) := by decide +kernel
example : encodeSfixed64 vecWriter (-9223372036854775808) [] = (.ok 8, [0, 0, 0, 0, 0, 0, 0, 128]) := by decide +kernel
example : encodeSfixed64 vecWriter 9223372036854775807 [] = (.ok 8, [255, 255, 255, 255, 255, 255, 255, 127]) := by decide +kernel
example : encodeDouble vecWriter 0xFFEFFFFFFFFFFFFF [] = (.ok 8, [255, 255, 255, 255, 255, 255, 239, 255]) := by decide +kernel
example : encodeDouble vecWriter 0x7FEFFFFFFFFFFFFF [] = (.ok 8, [255, 255, 255, 255, 255, 255, 239, 127]) := by decide +kernel
example : encodeFixed32 vecWriter 0 [] = (.ok 4, [0, 0, 0, 0]) := by decide +kernel
example : encodeFixed32 vecWriter 4294967295 [] = (.ok 4, [255, 255, 255, 255]) := by decide +kernel
example : encodeSfixed32 vecWriter (-2147483648) [] = (.ok 4, [0, 0, 0, 128]) := by decide +kernel
example : encodeSfixed32 vecWriter 2147483647 [] = (.ok 4, [255, 255, 255, 127]) := by decide +kernel
example : encodeFloat vecWriter 0xFF7FFFFF [] = (.ok 4, [255, 255, 127, 255]) := by decide +kernel
example : encodeFloat vecWriter 0x7F7FFFFF [] = (.ok 4, [255, 255, 127, 127]) := by decide +kernel
example : encodeBytes vecWriter [1, 2, 3, 4, 5] [] = (.ok 6, [5, 1, 2, 3, 4, 5]) := by decide +kernel

/-! `decodes_*`, protos/src/decoder/primitives.rs:690-. -/

example : (match decodeVarint true [185] with | .err _ => true | _ => false) = true := by decide +kernel
example : decodeVarint true [185, 96, 133] = .ok (12345, 2) := by decide +kernel
example : decodeVarint true [133, 53, 133] = .ok (6789, 2) := by decide +kernel
example : decodeKey true [205, 131, 6, 170] = .ok ((12345, .bit32), 3) := by decide +kernel
example : decodeKey true [170, 168, 3, 3] = .ok ((6789, .lengthDelimited), 3) := by decide +kernel
example : decodeBool true [0] = .ok (false, 1) := by decide +kernel
example : decodeBool true [1] = .ok (true, 1) := by decide +kernel
example : decodeInt32 true [128, 128, 128, 128, 248, 255, 255, 255, 255, 1, 255] = .ok ((-2147483648), 10) := by decide +kernel
example : decodeInt32 true [255, 255, 255, 255, 7] = .ok (2147483647, 5) := by decide +kernel
example : decodeInt64 true [128, 128, 128, 128, 128, 128, 128, 128, 128, 1] = .ok ((-9223372036854775808), 10) := by decide +kernel
example : decodeInt64 true [255, 255, 255, 255, 255, 255, 255, 255, 127] = .ok (9223372036854775807, 9) := by decide +kernel
example : decodeUint32 true [0] = .ok (0, 1) := by decide +kernel
example : decodeUint32 true [255, 255, 255, 255, 15] = .ok (4294967295, 5) := by decide +kernel
example : decodeUint64 true [0] = .ok (0, 1) := by decide +kernel
example : decodeUint64 true [255, 255, 255, 255, 255, 255, 255, 255, 255, 1] = .ok (18446744073709551615, 10) := by decide +kernel
example : decodeSint32 true [255, 255, 255, 255, 15] = .ok ((-2147483648), 5) := by decide +kernel
example : decodeSint32 true [254, 255, 255, 255, 15] = .ok (2147483647, 5) := by decide +kernel
example : decodeSint64 true [255, 255, 255, 255, 255, 255, 255, 255, 255, 1] = .ok ((-9223372036854775808), 10) := by decide +kernel
example : decodeSint64 true [254, 255, 255, 255, 255, 255, 255, 255, 255, 1] = .ok (9223372036854775807, 10) := by decide +kernel
example : (match decodeFixed32 [0] with | .err _ => true | _ => false) = true := by decide +kernel
example : decodeFixed32 [0, 0, 0, 0] = .ok (0, 4) := by decide +kernel
example : decodeFixed32 [255, 255, 255, 255] = .ok (4294967295, 4) := by decide +kernel
example : (match decodeFixed64 [0] with | .err _ => true | _ => false) = true := by decide +kernel
example : decodeFixed64 [0, 0, 0, 0, 0, 0, 0, 0, 255] = .ok (0, 8) := by decide +kernel
example : decodeFixed64 [255, 255, 255, 255, 255, 255, 255, 255, 255] = .ok (18446744073709551615, 8) := by decide +kernel
example : (match decodeSfixed32 [0] with | .err _ => true | _ => false) = true := by decide +kernel
example : decodeSfixed32 [0, 0, 0, 128] = .ok ((-2147483648), 4) := by decide +kernel
example : decodeSfixed32 [255, 255, 255, 127] = .ok (2147483647, 4) := by decide +kernel
example : (match decodeSfixed64 [0] with | .err _ => true | _ => false) = true := by decide +kernel
example : decodeSfixed64 [0, 0, 0, 0, 0, 0, 0, 128] = .ok ((-9223372036854775808), 8) := by decide +kernel
example : decodeSfixed64 [255, 255, 255, 255, 255, 255, 255, 127] = .ok (9223372036854775807, 8) := by decide +kernel
example : (match decodeFloat [0] with | .err _ => true | _ => false) = true := by decide +kernel
example : decodeFloat [255, 255, 127, 255] = .ok (0xFF7FFFFF, 4) := by decide +kernel
example : decodeFloat [255, 255, 127, 127] = .ok (0x7F7FFFFF, 4) := by decide +kernel
example : (match decodeDouble [0] with | .err _ => true | _ => false) = true := by decide +kernel
example : decodeDouble [255, 255, 255, 255, 255, 255, 239, 255] = .ok (0xFFEFFFFFFFFFFFFF, 8) := by decide +kernel
example : decodeDouble [255, 255, 255, 255, 255, 255, 239, 127] = .ok (0x7FEFFFFFFFFFFFFF, 8) := by decide +kernel

/-- The octets of `encodes_supported` and `decodes_supported`. -/
def wire : Bytes := [10, 3, 102, 111, 111, 16, 1, 26, 2, 0, 1, 32, 1, 42, 11, 156, 255, 255, 255, 255, 255, 255, 255, 255, 1, 100, 48, 1, 58, 11, 156, 255, 255, 255, 255, 255, 255, 255, 255, 1, 100, 64, 1, 74, 2, 1, 2, 80, 1, 90, 2, 1, 2, 101, 0, 0, 128, 63, 106, 8, 0, 0, 128, 63, 0, 0, 0, 64, 113, 0, 0, 0, 0, 0, 0, 240, 63, 122, 16, 0, 0, 0, 0, 0, 0, 240, 63, 0, 0, 0, 0, 0, 0, 0, 64, 130, 1, 3, 102, 111, 111, 136, 1, 19, 146, 1, 2, 19, 20, 152, 1, 19, 162, 1, 2, 19, 20, 173, 1, 10, 0, 0, 0, 178, 1, 8, 1, 0, 0, 0, 2, 0, 0, 0, 185, 1, 10, 0, 0, 0, 0, 0, 0, 0, 194, 1, 16, 1, 0, 0, 0, 0, 0, 0, 0, 2, 0, 0, 0, 0, 0, 0, 0, 205, 1, 246, 255, 255, 255, 210, 1, 8, 246, 255, 255, 255, 10, 0, 0, 0, 217, 1, 246, 255, 255, 255, 255, 255, 255, 255, 226, 1, 16, 246, 255, 255, 255, 255, 255, 255, 255, 10, 0, 0, 0, 0, 0, 0, 0]

/-- The fields of `encodes_supported`, protos/src/encoder/mod.rs:682-712. -/
def fields : List (UInt32 × EncoderLit) := [
  (1, .ofBytes [102, 111, 111]), (2, .ofBool true), (3, .ofBoolVec [false, true]), (4, .ofI32 1), (5, .ofI32Vec [-100, 100]), (6, .ofI64 1),
  (7, .ofI64Vec [-100, 100]), (8, .ofU32 1), (9, .ofU32Vec [1, 2]), (10, .ofU64 1), (11, .ofU64Vec [1, 2]), (12, .ofF32 0x3F800000),
  (13, .ofF32Vec [0x3F800000, 0x40000000]), (14, .ofF64 0x3FF0000000000000), (15, .ofF64Vec [0x3FF0000000000000, 0x4000000000000000]),
  (16, .ofBytes [102, 111, 111]), (17, .sint32 (-10)), (18, .sint32Vec [-10, 10]), (19, .sint64 (-10)), (20, .sint64Vec [-10, 10]),
  (21, .fixed32 10), (22, .fixed32Vec [1, 2]), (23, .fixed64 10), (24, .fixed64Vec [1, 2]), (25, .sfixed32 (-10)), (26, .sfixed32Vec [-10, 10]),
  (27, .sfixed64 (-10)), (28, .sfixed64Vec [-10, 10])]

def writeAll : List (UInt32 × EncoderLit) → Nat → Bytes → Option (Nat × Bytes)
  | [], n, dst => some (n, dst)
  | (tag, lit) :: r, n, dst => match Encoder.encode vecWriter tag lit dst with | (.ok k, dst) => writeAll r (n + k) dst | _ => none

example : writeAll fields 0 [] = some (209, wire) := by decide +kernel

/-- `decodes_supported`, protos/src/decoder/mod.rs:294-423: tags, wire types and count. -/
example : (match decode true (DState.fresh wire) with | (.ok n, s) => some (n, s.dst.map fun f => (f.1, f.2.1)) | _ => none) =
    some (209, [(1, .lengthDelimited), (2, .varint), (3, .lengthDelimited), (4, .varint), (5, .lengthDelimited), (6, .varint), (7, .lengthDelimited), (8, .varint), (9, .lengthDelimited), (10, .varint), (11, .lengthDelimited), (12, .bit32), (13, .lengthDelimited), (14, .bit64), (15, .lengthDelimited), (16, .lengthDelimited), (17, .varint), (18, .lengthDelimited), (19, .varint), (20, .lengthDelimited), (21, .bit32), (22, .lengthDelimited), (23, .bit64), (24, .lengthDelimited), (25, .bit32), (26, .lengthDelimited), (27, .bit64), (28, .lengthDelimited)]) := by decide +kernel

/-- The values. -/
def payloads : List Bytes := (decode true (DState.fresh wire)).2.dst.map fun f => f.2.2

example :
    DecoderLit.toBytes (.bytes (payloads.getD 0 [])) = [102, 111, 111] ∧
    DecoderLit.toBool true (.bool (payloads.getD 1 [])) = .ok true ∧
    DecoderLit.toBoolVec true (.boolVec (payloads.getD 2 [])) = .ok [false, true] ∧
    DecoderLit.toI32 true (.int32 (payloads.getD 3 [])) = .ok 1 ∧
    DecoderLit.toI32Vec true (.int32Vec (payloads.getD 4 [])) = .ok [(-100), 100] ∧
    DecoderLit.toI64 true (.int64 (payloads.getD 5 [])) = .ok 1 ∧
    DecoderLit.toI64Vec true (.int64Vec (payloads.getD 6 [])) = .ok [(-100), 100] ∧
    DecoderLit.toU32 true (.uint32 (payloads.getD 7 [])) = .ok 1 ∧
    DecoderLit.toU32Vec true (.uint32Vec (payloads.getD 8 [])) = .ok [1, 2] ∧
    DecoderLit.toU64 true (.uint64 (payloads.getD 9 [])) = .ok 1 ∧
    DecoderLit.toU64Vec true (.uint64Vec (payloads.getD 10 [])) = .ok [1, 2] ∧
    DecoderLit.toF32 (.float (payloads.getD 11 [])) = .ok 0x3F800000 ∧
    DecoderLit.toF32Vec (.floatVec (payloads.getD 12 [])) = .ok [0x3F800000, 0x40000000] ∧
    DecoderLit.toF64 (.double (payloads.getD 13 [])) = .ok 0x3FF0000000000000 ∧
    DecoderLit.toF64Vec (.doubleVec (payloads.getD 14 [])) = .ok [0x3FF0000000000000, 0x4000000000000000] ∧
    DecoderLit.toBytes (.bytes (payloads.getD 15 [])) = [102, 111, 111] ∧
    DecoderLit.toI32 true (.sint32 (payloads.getD 16 [])) = .ok (-10) ∧
    DecoderLit.toI32Vec true (.sint32Vec (payloads.getD 17 [])) = .ok [(-10), 10] ∧
    DecoderLit.toI64 true (.sint64 (payloads.getD 18 [])) = .ok (-10) ∧
    DecoderLit.toI64Vec true (.sint64Vec (payloads.getD 19 [])) = .ok [(-10), 10] ∧
    DecoderLit.toU32 true (.fixed32 (payloads.getD 20 [])) = .ok 10 ∧
    DecoderLit.toU32Vec true (.fixed32Vec (payloads.getD 21 [])) = .ok [1, 2] ∧
    DecoderLit.toU64 true (.fixed64 (payloads.getD 22 [])) = .ok 10 ∧
    DecoderLit.toU64Vec true (.fixed64Vec (payloads.getD 23 [])) = .ok [1, 2] ∧
    DecoderLit.toI32 true (.sfixed32 (payloads.getD 24 [])) = .ok (-10) ∧
    DecoderLit.toI32Vec true (.sfixed32Vec (payloads.getD 25 [])) = .ok [(-10), 10] ∧
    DecoderLit.toI64 true (.sfixed64 (payloads.getD 26 [])) = .ok (-10) ∧
    DecoderLit.toI64Vec true (.sfixed64Vec (payloads.getD 27 [])) = .ok [(-10), 10] := by
  decide +kernel

/-- The last lines of `decodes_supported`: a key of zero is an error. -/
example : ∃ e s, decode true (DState.fresh [0]) = (.err e, s) := ⟨_, _, rfl⟩

end Verif.Conform.Proto
