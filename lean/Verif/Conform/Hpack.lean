import Verif.Hpack.Decoder
import Verif.Hpack.Encoder
/-! Generated by tools/gen_conform.py from the unit tests of /repo/hpack: the model computes what the tests of the repository assert.
Tests of the model, checked by the kernel; the properties are proved elsewhere. -/
namespace Verif.Conform.Hpack
open Verif Verif.Hpack

/-- `encodes_integer`, hpack/src/encoder/primitives.rs:123-145. -/
example :
    encodeInteger 10 0 5 = .ok [10] ∧
    encodeInteger 1337 0 5 = .ok [31, 154, 10] ∧
    encodeInteger 42 0 8 = .ok [42] ∧
    encodeInteger 127 0 7 = .ok [127, 0] ∧
    encodeInteger 255 0 8 = .ok [255, 0] ∧
    encodeInteger 254 0 8 = .ok [254] ∧
    encodeInteger 1 0 8 = .ok [1] ∧
    encodeInteger 0 0 8 = .ok [0] ∧
    encodeInteger 255 0 7 = .ok [127, 128, 1] ∧
    encodeInteger 10 128 5 = .ok [138] ∧
    encodeInteger 10 64 5 = .ok [74] ∧
    encodeInteger 10 16 5 = .ok [10] ∧
    encodeInteger 1337 64 5 = .ok [95, 154, 10] := by decide +kernel

/-- `encodes_string`, hpack/src/encoder/primitives.rs:151-161. -/
example : encodeString [102, 111, 111] false = .ok [3, 102, 111, 111] ∧ encodeString [102, 111, 111] true = .ok [130, 148, 231] := by decide +kernel

/-- `decodes_integer`, hpack/src/decoder/primitives.rs:136-158. -/
example :
    decodeInteger [10] 5 = .ok (10, 1) ∧
    decodeInteger [31, 154, 10] 5 = .ok (1337, 3) ∧
    decodeInteger [63, 154, 10] 5 = .ok (1337, 3) ∧
    decodeInteger [95, 154, 10] 5 = .ok (1337, 3) ∧
    decodeInteger [31, 154, 10, 111, 22] 5 = .ok (1337, 3) ∧
    decodeInteger [42] 8 = .ok (42, 1) ∧
    decodeInteger [127, 0] 7 = .ok (127, 2) ∧
    decodeInteger [255, 0] 7 = .ok (127, 2) ∧
    decodeInteger [254] 8 = .ok (254, 1) ∧
    decodeInteger [1] 8 = .ok (1, 1) ∧
    decodeInteger [0] 8 = .ok (0, 1) ∧
    decodeInteger [127, 128, 1] 7 = .ok (255, 3) ∧
    decodeInteger [255, 255, 255, 255, 127] 8 = .ok (268435710, 5) := by decide +kernel

/-- `decodes_string`, hpack/src/decoder/primitives.rs:164-174. -/
example : decodeString [3, 102, 111, 111] .FourBits = .ok ([102, 111, 111], 4) ∧ decodeString [130, 148, 231] .FourBits = .ok ([102, 111, 111], 3) := by decide +kernel

/-- Insertions one after the other. -/
def inserts (t : Table) : List (Bytes × Bytes) → Option Table
  | [] => some t
  | (n, v) :: r => match (t.insert n v : Res Unit Table) with | .ok t => inserts t r | _ => none

/-- `inserts_new_headers`, hpack/src/table/dynamic.rs:118-133 and hpack/src/table/mod.rs:205-220. -/
example : (inserts Table.default []).map (fun t => (t.len, t.dynamicLen, t.dynamicSize)) = some (61, 0, 0) ∧
    (inserts Table.default [([97, 48], [98, 48])]).map (fun t => (t.len, t.dynamicLen, t.dynamicSize)) = some (62, 1, 36) ∧
    (inserts Table.default [([97, 48], [98, 48]), ([97, 49], [98, 49])]).map (fun t => (t.len, t.dynamicLen, t.dynamicSize)) = some (63, 2, 72) ∧
    (inserts Table.default [([97, 48], [98, 48]), ([97, 49], [98, 49])]).map (fun t => (t.dynamic.get 0, t.dynamic.get 1)) = some (some ([97, 49], [98, 49]), some ([97, 48], [98, 48])) := by
  decide +kernel

/-- `evicts_headers_on_insert`, hpack/src/table/dynamic.rs:140-151. -/
example : (inserts (Table.withDynamicSize 36) [([97, 48], [98, 48])]).map (fun t => (t.dynamicLen, t.dynamicSize)) = some (1, 36) ∧
    (inserts (Table.withDynamicSize 36) [([97, 48], [98, 48]), ([97, 49], [98, 49])]).map (fun t => (t.dynamicLen, t.dynamicSize)) = some (1, 36) ∧
    (inserts (Table.withDynamicSize 36) [([97, 48], [98, 48]), ([97, 49], [98, 49]), ([98, 105, 103], [98, 105, 103])]).map (fun t => (t.dynamicLen, t.dynamicSize)) = some (0, 0) := by
  decide +kernel

/-- `evicts_headers_on_size_update`, hpack/src/table/dynamic.rs:157-169. -/
example : ((inserts (Table.withDynamicSize 108) [([97, 48], [98, 48]), ([97, 49], [98, 49]), ([97, 50], [98, 50])]).map fun t => (t.dynamicLen, t.dynamicSize)) = some (3, 108) ∧
    ((inserts (Table.withDynamicSize 108) [([97, 48], [98, 48]), ([97, 49], [98, 49]), ([97, 50], [98, 50])]).map fun t => match (t.updateMaxDynamicSize 40 : Res Unit Table) with
      | .ok t => (t.dynamicLen, t.dynamicSize, t.dynamic.get 0) | _ => (0, 0, none)) = some (1, 36, some ([97, 50], [98, 50])) := by
  decide +kernel

/-- `iters_through_all_headers`, hpack/src/table/mod.rs:223-230. -/
example : ((inserts Table.default [([97, 48], [98, 48])]).bind Table.iter).map (fun l => (l.length, l.getLast?)) = some (62, some ([97, 48], [98, 48])) := by decide +kernel

/-- `find_header_by_index`, hpack/src/table/mod.rs:236-249. -/
example : (inserts Table.default [([97, 48], [98, 48])]).map (fun t => [t.get 0, t.get 1, t.get 2, t.get 61, t.get 62]) =
    some [none, some ([58, 97, 117, 116, 104, 111, 114, 105, 116, 121], []), some ([58, 109, 101, 116, 104, 111, 100], [71, 69, 84]), some ([119, 119, 119, 45, 97, 117, 116, 104, 101, 110, 116, 105, 99, 97, 116, 101], []), some ([97, 48], [98, 48])] := by decide +kernel

/-- `find_header_match`, hpack/src/table/mod.rs:255-274. -/
example : (inserts Table.default [([97], [98]), ([97], [99])]).map (fun t => [t.find [58, 109, 101, 116, 104, 111, 100] [80, 79, 83, 84], t.find [97] [98], t.find [58, 109, 101, 116, 104, 111, 100] [68, 69, 76, 69, 84, 69], t.find [97] [120], t.find [120] [120]]) =
    some [some (some (3, true)), some (some (63, true)), some (some (2, false)), some (some (62, false)), some none] := by decide +kernel

/-- Calls of `encode` one after the other, into one vector. -/
def encodeAll (s : EncoderState) : List EncoderInput → Option EncoderState
  | [] => some s
  | f :: r => match encode f s with | (.ok _, s) => encodeAll s r | _ => none

/-- The octets written and the number of entries of the table. -/
def written (s : EncoderState) (fs : List EncoderInput) : Option (Bytes × Nat) := (encodeAll s fs).map fun s => (s.dst, s.table.len)

/-- `encodes_indexed`, hpack/src/encoder/mod.rs:420-436 (one vector instead of four). -/
example : (inserts Table.default [([110, 97, 109, 101, 54, 50], [118, 97, 108, 117, 101, 54, 50])]).bind (fun t => written { table := t, dst := [] } [.ofIndex 2, .ofIndex 3, .ofIndex 14, .ofIndex 62]) =
    some ([0x82, 0x83, 0x8e, 0xbe], 62) := by decide +kernel

/-- `encodes_indexed_name_with_indexing`, hpack/src/encoder/mod.rs:443-460. -/
example : written .default [.ofIndexedName (2, [80, 65, 84, 67, 72], 6)] = some ([66, 133, 215, 14, 251, 216, 255], 62) ∧
    (encodeAll .default [.ofIndexedName (2, [80, 65, 84, 67, 72], 6)]).map (fun s => s.table.get 62) = some (some ([58, 109, 101, 116, 104, 111, 100], [80, 65, 84, 67, 72])) := by decide +kernel

/-- `encodes_literal_with_indexing`, hpack/src/encoder/mod.rs:467-485. -/
example : written .default [.ofLiteral ([102, 111, 111], [98, 97, 114], 7)] = some ([64, 130, 148, 231, 131, 140, 118, 127], 62) ∧
    (encodeAll .default [.ofLiteral ([102, 111, 111], [98, 97, 114], 7)]).map (fun s => s.table.get 62) = some (some ([102, 111, 111], [98, 97, 114])) := by decide +kernel

/-- `encodes_indexed_name_without_indexing`, hpack/src/encoder/mod.rs:492-500. -/
example : written .default [.ofIndexedName (13, [80, 65, 84, 67, 72], 0)] = some ([13, 5, 80, 65, 84, 67, 72], 61) := by decide +kernel

/-- `encodes_literal_without_indexing`, hpack/src/encoder/mod.rs:508-517. -/
example : written .default [.ofLiteral ([102, 111, 111], [98, 97, 114], 1)] = some ([0, 130, 148, 231, 3, 98, 97, 114], 61) := by decide +kernel

/-- `encodes_indexed_name_never_indexed`, hpack/src/encoder/mod.rs:526-534. -/
example : written .default [.ofIndexedName (13, [80, 65, 84, 67, 72], 8)] = some ([16 + 13, 5, 80, 65, 84, 67, 72], 61) := by decide +kernel

/-- `encodes_literal_never_indexed`, hpack/src/encoder/mod.rs:542-551. -/
example : written .default [.ofLiteral ([102, 111, 111], [98, 97, 114], 8)] = some ([16, 3, 102, 111, 111, 3, 98, 97, 114], 61) := by decide +kernel

/-- `encodes_literal_automatically`, hpack/src/encoder/mod.rs:556-570 (one vector instead of three). -/
example : written .default [.ofLiteral ([58, 109, 101, 116, 104, 111, 100], [71, 69, 84], 0x10), .ofLiteral ([58, 109, 101, 116, 104, 111, 100], [68, 69, 76, 69, 84, 69], 0x14), .ofLiteral ([97], [98], 0x11)] =
    some ([130] ++ [66, 6, 68, 69, 76, 69, 84, 69] ++ [0, 129, 31, 1, 98], 62) := by decide +kernel

/-- `updates_max_dynamic_size`, hpack/src/encoder/mod.rs:573-583. -/
example : (inserts (Table.withDynamicSize 70) [([97], [97]), ([98], [98])]).map (fun t => match encUpdateMaxDynamicSize 50 { table := t, dst := [] } with
    | (.ok _, s) => (s.dst, s.table.dynamicLen) | _ => ([], 0)) = some ([63, 19], 1) := by decide +kernel

/-- The headers and the number of entries of the table after a successful `decode`. -/
def decoded (s : DecoderState) (buf : Bytes) : Option (List Field × Nat) :=
  match decode { s with buf := buf } with | (.ok _, s) => some (s.dst, s.table.len) | _ => none

/-- `decodes_indexed`, hpack/src/decoder/mod.rs:410-424. -/
example : decoded .default [130, 142] =
    some ([([58, 109, 101, 116, 104, 111, 100], [71, 69, 84], 0x0), ([58, 115, 116, 97, 116, 117, 115], [53, 48, 48], 0x0)], 61) := by decide +kernel

/-- `decodes_indexed_name_with_indexing`, hpack/src/decoder/mod.rs:431-446. -/
example : decoded .default [66, 133, 215, 14, 251, 216, 255, 78, 130, 108, 1] =
    some ([([58, 109, 101, 116, 104, 111, 100], [80, 65, 84, 67, 72], 0x4), ([58, 115, 116, 97, 116, 117, 115], [53, 48, 49], 0x4)], 63) := by decide +kernel

/-- `decodes_literal_with_indexing`, hpack/src/decoder/mod.rs:453-468. -/
example : decoded .default [64, 131, 148, 231, 7, 131, 148, 231, 15, 64, 131, 140, 118, 3, 131, 140, 118, 7] =
    some ([([102, 111, 111, 48], [102, 111, 111, 49], 0x4), ([98, 97, 114, 48], [98, 97, 114, 49], 0x4)], 63) := by decide +kernel

/-- `decodes_indexed_name_without_indexing`, hpack/src/decoder/mod.rs:474-489. -/
example : decoded .default [2, 5, 80, 65, 84, 67, 72, 14, 130, 108, 1] =
    some ([([58, 109, 101, 116, 104, 111, 100], [80, 65, 84, 67, 72], 0x0), ([58, 115, 116, 97, 116, 117, 115], [53, 48, 49], 0x0)], 61) := by decide +kernel

/-- `decodes_literal_without_indexing`, hpack/src/decoder/mod.rs:495-510. -/
example : decoded .default [0, 4, 102, 111, 111, 48, 4, 98, 97, 114, 48, 0, 131, 148, 231, 15, 131, 140, 118, 7] =
    some ([([102, 111, 111, 48], [98, 97, 114, 48], 0x0), ([102, 111, 111, 49], [98, 97, 114, 49], 0x0)], 61) := by decide +kernel

/-- `decodes_indexed_name_never_indexed`, hpack/src/decoder/mod.rs:516-531. -/
example : decoded .default [18, 5, 80, 65, 84, 67, 72, 30, 130, 108, 1] =
    some ([([58, 109, 101, 116, 104, 111, 100], [80, 65, 84, 67, 72], 0x8), ([58, 115, 116, 97, 116, 117, 115], [53, 48, 49], 0x8)], 61) := by decide +kernel

/-- `decodes_literal_never_indexed`, hpack/src/decoder/mod.rs:537-552. -/
example : decoded .default [16, 4, 102, 111, 111, 48, 4, 98, 97, 114, 48, 16, 4, 102, 111, 111, 49, 4, 98, 97, 114, 49] =
    some ([([102, 111, 111, 48], [98, 97, 114, 48], 0x8), ([102, 111, 111, 49], [98, 97, 114, 49], 0x8)], 61) := by decide +kernel

/-- `decodes_exact`, hpack/src/decoder/mod.rs:554-564. -/
example : (decodeExact 1 { DecoderState.default with buf := [0x82, 0x8e] }).2.dst.length = 1 := by decide +kernel

/-- `decodes_max_dynamic_size`, hpack/src/decoder/mod.rs:568-578. -/
example : (inserts (Table.withDynamicSize 70) [([97], [97]), ([98], [98])]).map (fun t => match decode { DecoderState.withDynamicSize 70 with table := t, buf := [63, 19] } with
    | (.ok _, s) => (s.dst, s.table.maxDynamicSize, s.table.dynamicLen) | _ => ([], 0, 0)) = some ([], 50, 1) := by decide +kernel

/-- `decodes_incomplete_block`, hpack/src/decoder/mod.rs:582-594. -/
example : (match decode { DecoderState.default with buf := [16, 4, 102, 111, 111, 48, 4, 98, 97, 114, 48, 16, 4, 102, 111, 111] } with
    | (.err _, s) => some (s.dst.length, s.buf) | _ => none) = some (1, [16, 4, 102, 111, 111]) := by decide +kernel

/-- `encodes_and_decodes_requests`, hpack/tests/specs.rs: each round is encoded, compared with the expected octets, decoded and compared. -/
def rounds (e : EncoderState) (d : DecoderState) : List (List (Bytes × Bytes × UInt8) × Bytes) → Bool
  | [] => true
  | (fields, wire) :: r =>
    match encodeAll { e with dst := [] } (fields.map EncoderInput.ofLiteral) with
    | none => false
    | some e =>
      if e.dst ≠ wire then false else
      match decode { d with buf := e.dst, dst := [] } with
      | (.ok _, d) => d.dst.map (fun h => (h.1, h.2.1)) = fields.map (fun h => (h.1, h.2.1)) && rounds e d r
      | _ => false

example : rounds .default .default [
    ([([58, 109, 101, 116, 104, 111, 100], [71, 69, 84], 20), ([58, 115, 99, 104, 101, 109, 101], [104, 116, 116, 112], 20), ([58, 112, 97, 116, 104], [47], 20), ([58, 97, 117, 116, 104, 111, 114, 105, 116, 121], [119, 119, 119, 46, 101, 120, 97, 109, 112, 108, 101, 46, 99, 111, 109], 20)],
      [130, 134, 132, 65, 15, 119, 119, 119, 46, 101, 120, 97, 109, 112, 108, 101, 46, 99, 111, 109]),
    ([([58, 109, 101, 116, 104, 111, 100], [71, 69, 84], 20), ([58, 115, 99, 104, 101, 109, 101], [104, 116, 116, 112], 20), ([58, 112, 97, 116, 104], [47], 20), ([58, 97, 117, 116, 104, 111, 114, 105, 116, 121], [119, 119, 119, 46, 101, 120, 97, 109, 112, 108, 101, 46, 99, 111, 109], 20), ([99, 97, 99, 104, 101, 45, 99, 111, 110, 116, 114, 111, 108], [110, 111, 45, 99, 97, 99, 104, 101], 20)],
      [130, 134, 132, 190, 88, 8, 110, 111, 45, 99, 97, 99, 104, 101]),
    ([([58, 109, 101, 116, 104, 111, 100], [71, 69, 84], 20), ([58, 115, 99, 104, 101, 109, 101], [104, 116, 116, 112, 115], 20), ([58, 112, 97, 116, 104], [47, 105, 110, 100, 101, 120, 46, 104, 116, 109, 108], 20), ([58, 97, 117, 116, 104, 111, 114, 105, 116, 121], [119, 119, 119, 46, 101, 120, 97, 109, 112, 108, 101, 46, 99, 111, 109], 20), ([99, 117, 115, 116, 111, 109, 45, 107, 101, 121], [99, 117, 115, 116, 111, 109, 45, 118, 97, 108, 117, 101], 20)],
      [130, 135, 133, 191, 64, 10, 99, 117, 115, 116, 111, 109, 45, 107, 101, 121, 12, 99, 117, 115, 116, 111, 109, 45, 118, 97, 108, 117, 101])] = true := by decide +kernel

example : rounds .default .default [
    ([([58, 109, 101, 116, 104, 111, 100], [71, 69, 84], 23), ([58, 115, 99, 104, 101, 109, 101], [104, 116, 116, 112], 23), ([58, 112, 97, 116, 104], [47], 23), ([58, 97, 117, 116, 104, 111, 114, 105, 116, 121], [119, 119, 119, 46, 101, 120, 97, 109, 112, 108, 101, 46, 99, 111, 109], 23)],
      [130, 134, 132, 65, 140, 241, 227, 194, 229, 242, 58, 107, 160, 171, 144, 244, 255]),
    ([([58, 109, 101, 116, 104, 111, 100], [71, 69, 84], 23), ([58, 115, 99, 104, 101, 109, 101], [104, 116, 116, 112], 23), ([58, 112, 97, 116, 104], [47], 23), ([58, 97, 117, 116, 104, 111, 114, 105, 116, 121], [119, 119, 119, 46, 101, 120, 97, 109, 112, 108, 101, 46, 99, 111, 109], 23), ([99, 97, 99, 104, 101, 45, 99, 111, 110, 116, 114, 111, 108], [110, 111, 45, 99, 97, 99, 104, 101], 23)],
      [130, 134, 132, 190, 88, 134, 168, 235, 16, 100, 156, 191]),
    ([([58, 109, 101, 116, 104, 111, 100], [71, 69, 84], 23), ([58, 115, 99, 104, 101, 109, 101], [104, 116, 116, 112, 115], 23), ([58, 112, 97, 116, 104], [47, 105, 110, 100, 101, 120, 46, 104, 116, 109, 108], 23), ([58, 97, 117, 116, 104, 111, 114, 105, 116, 121], [119, 119, 119, 46, 101, 120, 97, 109, 112, 108, 101, 46, 99, 111, 109], 23), ([99, 117, 115, 116, 111, 109, 45, 107, 101, 121], [99, 117, 115, 116, 111, 109, 45, 118, 97, 108, 117, 101], 23)],
      [130, 135, 133, 191, 64, 136, 37, 168, 73, 233, 91, 169, 125, 127, 137, 37, 168, 73, 233, 91, 184, 232, 180, 191])] = true := by decide +kernel

example : rounds .default .default [
    ([([58, 115, 116, 97, 116, 117, 115], [51, 48, 50], 20), ([99, 97, 99, 104, 101, 45, 99, 111, 110, 116, 114, 111, 108], [112, 114, 105, 118, 97, 116, 101], 20), ([100, 97, 116, 101], [77, 111, 110, 44, 32, 50, 49, 32, 79, 99, 116, 32, 50, 48, 49, 51, 32, 50, 48, 58, 49, 51, 58, 50, 49, 32, 71, 77, 84], 20), ([108, 111, 99, 97, 116, 105, 111, 110], [104, 116, 116, 112, 115, 58, 47, 47, 119, 119, 119, 46, 101, 120, 97, 109, 112, 108, 101, 46, 99, 111, 109], 20)],
      [72, 3, 51, 48, 50, 88, 7, 112, 114, 105, 118, 97, 116, 101, 97, 29, 77, 111, 110, 44, 32, 50, 49, 32, 79, 99, 116, 32, 50, 48, 49, 51, 32, 50, 48, 58, 49, 51, 58, 50, 49, 32, 71, 77, 84, 110, 23, 104, 116, 116, 112, 115, 58, 47, 47, 119, 119, 119, 46, 101, 120, 97, 109, 112, 108, 101, 46, 99, 111, 109]),
    ([([58, 115, 116, 97, 116, 117, 115], [51, 48, 55], 20), ([99, 97, 99, 104, 101, 45, 99, 111, 110, 116, 114, 111, 108], [112, 114, 105, 118, 97, 116, 101], 20), ([100, 97, 116, 101], [77, 111, 110, 44, 32, 50, 49, 32, 79, 99, 116, 32, 50, 48, 49, 51, 32, 50, 48, 58, 49, 51, 58, 50, 49, 32, 71, 77, 84], 20), ([108, 111, 99, 97, 116, 105, 111, 110], [104, 116, 116, 112, 115, 58, 47, 47, 119, 119, 119, 46, 101, 120, 97, 109, 112, 108, 101, 46, 99, 111, 109], 20)],
      [72, 3, 51, 48, 55, 193, 192, 191]),
    ([([58, 115, 116, 97, 116, 117, 115], [50, 48, 48], 20), ([99, 97, 99, 104, 101, 45, 99, 111, 110, 116, 114, 111, 108], [112, 114, 105, 118, 97, 116, 101], 20), ([100, 97, 116, 101], [77, 111, 110, 44, 32, 50, 49, 32, 79, 99, 116, 32, 50, 48, 49, 51, 32, 50, 48, 58, 49, 51, 58, 50, 50, 32, 71, 77, 84], 20), ([108, 111, 99, 97, 116, 105, 111, 110], [104, 116, 116, 112, 115, 58, 47, 47, 119, 119, 119, 46, 101, 120, 97, 109, 112, 108, 101, 46, 99, 111, 109], 20), ([99, 111, 110, 116, 101, 110, 116, 45, 101, 110, 99, 111, 100, 105, 110, 103], [103, 122, 105, 112], 20), ([115, 101, 116, 45, 99, 111, 111, 107, 105, 101], [102, 111, 111, 61, 65, 83, 68, 74, 75, 72, 81, 75, 66, 90, 88, 79, 81, 87, 69, 79, 80, 73, 85, 65, 88, 81, 87, 69, 79, 73, 85, 59, 32, 109, 97, 120, 45, 97, 103, 101, 61, 51, 54, 48, 48, 59, 32, 118, 101, 114, 115, 105, 111, 110, 61, 49], 20)],
      [136, 193, 97, 29, 77, 111, 110, 44, 32, 50, 49, 32, 79, 99, 116, 32, 50, 48, 49, 51, 32, 50, 48, 58, 49, 51, 58, 50, 50, 32, 71, 77, 84, 192, 90, 4, 103, 122, 105, 112, 119, 56, 102, 111, 111, 61, 65, 83, 68, 74, 75, 72, 81, 75, 66, 90, 88, 79, 81, 87, 69, 79, 80, 73, 85, 65, 88, 81, 87, 69, 79, 73, 85, 59, 32, 109, 97, 120, 45, 97, 103, 101, 61, 51, 54, 48, 48, 59, 32, 118, 101, 114, 115, 105, 111, 110, 61, 49])] = true := by decide +kernel

example : rounds .default .default [
    ([([58, 115, 116, 97, 116, 117, 115], [51, 48, 50], 23), ([99, 97, 99, 104, 101, 45, 99, 111, 110, 116, 114, 111, 108], [112, 114, 105, 118, 97, 116, 101], 23), ([100, 97, 116, 101], [77, 111, 110, 44, 32, 50, 49, 32, 79, 99, 116, 32, 50, 48, 49, 51, 32, 50, 48, 58, 49, 51, 58, 50, 49, 32, 71, 77, 84], 23), ([108, 111, 99, 97, 116, 105, 111, 110], [104, 116, 116, 112, 115, 58, 47, 47, 119, 119, 119, 46, 101, 120, 97, 109, 112, 108, 101, 46, 99, 111, 109], 23)],
      [72, 130, 100, 2, 88, 133, 174, 195, 119, 26, 75, 97, 150, 208, 122, 190, 148, 16, 84, 212, 68, 168, 32, 5, 149, 4, 11, 129, 102, 224, 130, 166, 45, 27, 255, 110, 145, 157, 41, 173, 23, 24, 99, 199, 143, 11, 151, 200, 233, 174, 130, 174, 67, 211]),
    ([([58, 115, 116, 97, 116, 117, 115], [51, 48, 55], 23), ([99, 97, 99, 104, 101, 45, 99, 111, 110, 116, 114, 111, 108], [112, 114, 105, 118, 97, 116, 101], 23), ([100, 97, 116, 101], [77, 111, 110, 44, 32, 50, 49, 32, 79, 99, 116, 32, 50, 48, 49, 51, 32, 50, 48, 58, 49, 51, 58, 50, 49, 32, 71, 77, 84], 23), ([108, 111, 99, 97, 116, 105, 111, 110], [104, 116, 116, 112, 115, 58, 47, 47, 119, 119, 119, 46, 101, 120, 97, 109, 112, 108, 101, 46, 99, 111, 109], 23)],
      [72, 131, 100, 14, 255, 193, 192, 191]),
    ([([58, 115, 116, 97, 116, 117, 115], [50, 48, 48], 23), ([99, 97, 99, 104, 101, 45, 99, 111, 110, 116, 114, 111, 108], [112, 114, 105, 118, 97, 116, 101], 23), ([100, 97, 116, 101], [77, 111, 110, 44, 32, 50, 49, 32, 79, 99, 116, 32, 50, 48, 49, 51, 32, 50, 48, 58, 49, 51, 58, 50, 50, 32, 71, 77, 84], 23), ([108, 111, 99, 97, 116, 105, 111, 110], [104, 116, 116, 112, 115, 58, 47, 47, 119, 119, 119, 46, 101, 120, 97, 109, 112, 108, 101, 46, 99, 111, 109], 23), ([99, 111, 110, 116, 101, 110, 116, 45, 101, 110, 99, 111, 100, 105, 110, 103], [103, 122, 105, 112], 23), ([115, 101, 116, 45, 99, 111, 111, 107, 105, 101], [102, 111, 111, 61, 65, 83, 68, 74, 75, 72, 81, 75, 66, 90, 88, 79, 81, 87, 69, 79, 80, 73, 85, 65, 88, 81, 87, 69, 79, 73, 85, 59, 32, 109, 97, 120, 45, 97, 103, 101, 61, 51, 54, 48, 48, 59, 32, 118, 101, 114, 115, 105, 111, 110, 61, 49], 23)],
      [136, 193, 97, 150, 208, 122, 190, 148, 16, 84, 212, 68, 168, 32, 5, 149, 4, 11, 129, 102, 224, 132, 166, 45, 27, 255, 192, 90, 131, 155, 217, 171, 119, 173, 148, 231, 130, 29, 215, 242, 230, 199, 179, 53, 223, 223, 205, 91, 57, 96, 213, 175, 39, 8, 127, 54, 114, 193, 171, 39, 15, 181, 41, 31, 149, 135, 49, 96, 101, 192, 3, 237, 78, 229, 177, 6, 61, 80, 7])] = true := by decide +kernel

end Verif.Conform.Hpack
