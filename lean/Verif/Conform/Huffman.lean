import Verif.Huffman.Flattener
import Verif.Huffman.Encoder
import Verif.Huffman.Parser
import Verif.Huffman.Asset
import Verif.Props.Huffman
/-! Generated by tools/gen_conform.py from the unit tests of /repo/huffman: the model computes what the tests of the repository assert.
Tests of the model, checked by the kernel; the properties are proved elsewhere. -/
namespace Verif.Conform.Huff
open Verif Verif.Huffman

/-- `decodes_characters`, huffman/src/decoder/mod.rs:126-386 and 480-490. -/
def validCharacters : List (Bytes × Bytes) := [
  ([0], [255, 199]),
  ([1], [255, 255, 177]),
  ([2], [255, 255, 254, 47]),
  ([3], [255, 255, 254, 63]),
  ([4], [255, 255, 254, 79]),
  ([5], [255, 255, 254, 95]),
  ([6], [255, 255, 254, 111]),
  ([7], [255, 255, 254, 127]),
  ([8], [255, 255, 254, 143]),
  ([9], [255, 255, 234]),
  ([10], [255, 255, 255, 243]),
  ([11], [255, 255, 254, 159]),
  ([12], [255, 255, 254, 175]),
  ([13], [255, 255, 255, 247]),
  ([14], [255, 255, 254, 191]),
  ([15], [255, 255, 254, 207]),
  ([16], [255, 255, 254, 223]),
  ([17], [255, 255, 254, 239]),
  ([18], [255, 255, 254, 255]),
  ([19], [255, 255, 255, 15]),
  ([20], [255, 255, 255, 31]),
  ([21], [255, 255, 255, 47]),
  ([22], [255, 255, 255, 251]),
  ([23], [255, 255, 255, 63]),
  ([24], [255, 255, 255, 79]),
  ([25], [255, 255, 255, 95]),
  ([26], [255, 255, 255, 111]),
  ([27], [255, 255, 255, 127]),
  ([28], [255, 255, 255, 143]),
  ([29], [255, 255, 255, 159]),
  ([30], [255, 255, 255, 175]),
  ([31], [255, 255, 255, 191]),
  ([32], [83]),
  ([33], [254, 63]),
  ([34], [254, 127]),
  ([35], [255, 175]),
  ([36], [255, 207]),
  ([37], [87]),
  ([38], [248]),
  ([39], [255, 95]),
  ([40], [254, 191]),
  ([41], [254, 255]),
  ([42], [249]),
  ([43], [255, 127]),
  ([44], [250]),
  ([45], [91]),
  ([46], [95]),
  ([47], [99]),
  ([48], [7]),
  ([49], [15]),
  ([50], [23]),
  ([51], [103]),
  ([52], [107]),
  ([53], [111]),
  ([54], [115]),
  ([55], [119]),
  ([56], [123]),
  ([57], [127]),
  ([58], [185]),
  ([59], [251]),
  ([60], [255, 249]),
  ([61], [131]),
  ([62], [255, 191]),
  ([63], [255, 63]),
  ([64], [255, 215]),
  ([65], [135]),
  ([66], [187]),
  ([67], [189]),
  ([68], [191]),
  ([69], [193]),
  ([70], [195]),
  ([71], [197]),
  ([72], [199]),
  ([73], [201]),
  ([74], [203]),
  ([75], [205]),
  ([76], [207]),
  ([77], [209]),
  ([78], [211]),
  ([79], [213]),
  ([80], [215]),
  ([81], [217]),
  ([82], [219]),
  ([83], [221]),
  ([84], [223]),
  ([85], [225]),
  ([86], [227]),
  ([87], [229]),
  ([88], [252]),
  ([89], [231]),
  ([90], [253]),
  ([91], [255, 223]),
  ([92], [255, 254, 31]),
  ([93], [255, 231]),
  ([94], [255, 243]),
  ([95], [139]),
  ([96], [255, 251]),
  ([97], [31]),
  ([98], [143]),
  ([99], [39]),
  ([100], [147]),
  ([101], [47]),
  ([102], [151]),
  ([103], [155]),
  ([104], [159]),
  ([105], [55]),
  ([106], [233]),
  ([107], [235]),
  ([108], [163]),
  ([109], [167]),
  ([110], [171]),
  ([111], [63]),
  ([112], [175]),
  ([113], [237]),
  ([114], [179]),
  ([115], [71]),
  ([116], [79]),
  ([117], [183]),
  ([118], [239]),
  ([119], [241]),
  ([120], [243]),
  ([121], [245]),
  ([122], [247]),
  ([123], [255, 253]),
  ([124], [255, 159]),
  ([125], [255, 247]),
  ([126], [255, 239]),
  ([127], [255, 255, 255, 207]),
  ([128], [255, 254, 111]),
  ([129], [255, 255, 75]),
  ([130], [255, 254, 127]),
  ([131], [255, 254, 143]),
  ([132], [255, 255, 79]),
  ([133], [255, 255, 83]),
  ([134], [255, 255, 87]),
  ([135], [255, 255, 179]),
  ([136], [255, 255, 91]),
  ([137], [255, 255, 181]),
  ([138], [255, 255, 183]),
  ([139], [255, 255, 185]),
  ([140], [255, 255, 187]),
  ([141], [255, 255, 189]),
  ([142], [255, 255, 235]),
  ([143], [255, 255, 191]),
  ([144], [255, 255, 236]),
  ([145], [255, 255, 237]),
  ([146], [255, 255, 95]),
  ([147], [255, 255, 193]),
  ([148], [255, 255, 238]),
  ([149], [255, 255, 195]),
  ([150], [255, 255, 197]),
  ([151], [255, 255, 199]),
  ([152], [255, 255, 201]),
  ([153], [255, 254, 231]),
  ([154], [255, 255, 99]),
  ([155], [255, 255, 203]),
  ([156], [255, 255, 103]),
  ([157], [255, 255, 205]),
  ([158], [255, 255, 207]),
  ([159], [255, 255, 239]),
  ([160], [255, 255, 107]),
  ([161], [255, 254, 239]),
  ([162], [255, 254, 159]),
  ([163], [255, 255, 111]),
  ([164], [255, 255, 115]),
  ([165], [255, 255, 209]),
  ([166], [255, 255, 211]),
  ([167], [255, 254, 247]),
  ([168], [255, 255, 213]),
  ([169], [255, 255, 119]),
  ([170], [255, 255, 123]),
  ([171], [255, 255, 240]),
  ([172], [255, 254, 255]),
  ([173], [255, 255, 127]),
  ([174], [255, 255, 215]),
  ([175], [255, 255, 217]),
  ([176], [255, 255, 7]),
  ([177], [255, 255, 15]),
  ([178], [255, 255, 131]),
  ([179], [255, 255, 23]),
  ([180], [255, 255, 219]),
  ([181], [255, 255, 135]),
  ([182], [255, 255, 221]),
  ([183], [255, 255, 223]),
  ([184], [255, 254, 175]),
  ([185], [255, 255, 139]),
  ([186], [255, 255, 143]),
  ([187], [255, 255, 147]),
  ([188], [255, 255, 225]),
  ([189], [255, 255, 151]),
  ([190], [255, 255, 155]),
  ([191], [255, 255, 227]),
  ([192], [255, 255, 248, 63]),
  ([193], [255, 255, 248, 127]),
  ([194], [255, 254, 191]),
  ([195], [255, 254, 63]),
  ([196], [255, 255, 159]),
  ([197], [255, 255, 229]),
  ([198], [255, 255, 163]),
  ([199], [255, 255, 246, 127]),
  ([200], [255, 255, 248, 191]),
  ([201], [255, 255, 248, 255]),
  ([202], [255, 255, 249, 63]),
  ([203], [255, 255, 251, 223]),
  ([204], [255, 255, 251, 255]),
  ([205], [255, 255, 249, 127]),
  ([206], [255, 255, 241]),
  ([207], [255, 255, 246, 255]),
  ([208], [255, 254, 95]),
  ([209], [255, 255, 31]),
  ([210], [255, 255, 249, 191]),
  ([211], [255, 255, 252, 31]),
  ([212], [255, 255, 252, 63]),
  ([213], [255, 255, 249, 255]),
  ([214], [255, 255, 252, 95]),
  ([215], [255, 255, 242]),
  ([216], [255, 255, 39]),
  ([217], [255, 255, 47]),
  ([218], [255, 255, 250, 63]),
  ([219], [255, 255, 250, 127]),
  ([220], [255, 255, 255, 223]),
  ([221], [255, 255, 252, 127]),
  ([222], [255, 255, 252, 159]),
  ([223], [255, 255, 252, 191]),
  ([224], [255, 254, 207]),
  ([225], [255, 255, 243]),
  ([226], [255, 254, 223]),
  ([227], [255, 255, 55]),
  ([228], [255, 255, 167]),
  ([229], [255, 255, 63]),
  ([230], [255, 255, 71]),
  ([231], [255, 255, 231]),
  ([232], [255, 255, 171]),
  ([233], [255, 255, 175]),
  ([234], [255, 255, 247, 127]),
  ([235], [255, 255, 247, 255]),
  ([236], [255, 255, 244]),
  ([237], [255, 255, 245]),
  ([238], [255, 255, 250, 191]),
  ([239], [255, 255, 233]),
  ([240], [255, 255, 250, 255]),
  ([241], [255, 255, 252, 223]),
  ([242], [255, 255, 251, 63]),
  ([243], [255, 255, 251, 127]),
  ([244], [255, 255, 252, 255]),
  ([245], [255, 255, 253, 31]),
  ([246], [255, 255, 253, 63]),
  ([247], [255, 255, 253, 95]),
  ([248], [255, 255, 253, 127]),
  ([249], [255, 255, 255, 239]),
  ([250], [255, 255, 253, 159]),
  ([251], [255, 255, 253, 191]),
  ([252], [255, 255, 253, 223]),
  ([253], [255, 255, 253, 255]),
  ([254], [255, 255, 254, 31]),
  ([255], [255, 255, 251, 191])]

example : ∀ sp ∈ Speed.known, ∀ x ∈ validCharacters, decode x.2 [] sp = (.ok (), x.1) := by decide +kernel

/-- `valid_literals`, huffman/src/decoder/mod.rs:387-460. -/
def validLiterals : List (Bytes × Bytes) := [
  ([3, 4, 1, 2], [255, 255, 254, 63, 255, 255, 228, 255, 255, 177, 255, 255, 252, 95]),
  ([58, 109, 101, 116, 104, 111, 100], [185, 73, 83, 57, 228]),
  ([58, 115, 99, 104, 101, 109, 101], [184, 130, 78, 90, 75]),
  ([58, 97, 117, 116, 104, 111, 114, 105, 116, 121], [184, 59, 83, 57, 236, 50, 125, 127]),
  ([110, 105, 98, 98, 115, 116, 97, 99, 107, 46, 99, 111, 109], [168, 209, 198, 132, 140, 157, 87, 33, 233]),
  ([71, 69, 84], [197, 131, 127]),
  ([104, 116, 116, 112], [157, 41, 175]),
  ([58, 112, 97, 116, 104], [185, 88, 211, 63]),
  ([47, 105, 109, 97, 103, 101, 115, 47, 116, 111, 112, 47, 115, 112, 50, 47, 99, 109, 110, 47, 108, 111, 103, 111, 45, 110, 115, 45, 49, 51, 48, 53, 50, 56, 46, 112, 110, 103], [96, 212, 142, 98, 161, 132, 158, 182, 17, 88, 152, 37, 53, 49, 65, 230, 58, 213, 33, 96, 178, 6, 196, 242, 245, 213, 55]),
  ([104, 112, 97, 99, 107, 45, 116, 101, 115, 116], [158, 177, 147, 170, 201, 42, 19]),
  ([120, 120, 120, 120, 120, 120, 120, 49], [243, 231, 207, 159, 62, 124, 135]),
  ([77, 111, 122, 105, 108, 108, 97, 47, 53, 46, 48, 32, 40, 77, 97, 99, 105, 110, 116, 111, 115, 104, 59, 32, 73, 110, 116, 101, 108, 32, 77, 97, 99, 32, 79, 83, 32, 88, 32, 49, 48, 46, 56, 59, 32, 114, 118, 58, 49, 54, 46, 48, 41, 32, 71, 101, 99, 107, 111, 47, 50, 48, 49, 48, 48, 49, 48, 49, 32, 70, 105, 114, 101, 102, 111, 120, 47, 49, 54, 46, 48], [208, 127, 102, 162, 129, 176, 218, 224, 83, 250, 208, 50, 26, 164, 157, 19, 253, 169, 146, 164, 150, 133, 52, 12, 138, 106, 220, 167, 226, 129, 2, 239, 125, 169, 103, 123, 129, 113, 112, 127, 106, 98, 41, 58, 157, 129, 0, 32, 0, 64, 21, 48, 154, 194, 202, 127, 44, 5, 197, 193]),
  ([97, 99, 99, 101, 112, 116], [25, 8, 90, 211]),
  ([65, 99, 99, 101, 112, 116], [132, 132, 45, 105]),
  ([116, 101, 120, 116, 47, 104, 116, 109, 108, 44, 97, 112, 112, 108, 105, 99, 97, 116, 105, 111, 110, 47, 120, 104, 116, 109, 108, 43, 120, 109, 108, 44, 97, 112, 112, 108, 105, 99, 97, 116, 105, 111, 110, 47, 120, 109, 108, 59, 113, 61, 48, 46, 57, 44, 42, 47, 42, 59, 113, 61, 48, 46, 56], [73, 124, 165, 137, 211, 77, 31, 67, 174, 186, 12, 65, 164, 199, 169, 143, 51, 166, 154, 63, 223, 154, 104, 250, 29, 117, 208, 98, 13, 38, 61, 76, 121, 166, 143, 190, 208, 1, 119, 254, 190, 88, 249, 251, 237, 0, 23, 123]),
  ([99, 111, 111, 107, 105, 101], [33, 207, 212, 197]),
  ([66, 61, 49, 49, 50, 51, 49, 50, 53, 50, 122, 100, 102, 38, 98, 61, 51, 38, 115, 61, 48, 98], [187, 0, 66, 38, 66, 38, 197, 238, 73, 126, 35, 129, 159, 132, 64, 8, 255]),
  ([84, 69], [223, 131]),
  ([76, 111, 114, 101, 109, 32, 105, 112, 115, 117, 109, 32, 100, 111, 108, 111, 114, 32, 115, 105, 116, 32, 97, 109, 101, 116, 44, 32, 99, 111, 110, 115, 101, 99, 116, 101, 116, 117, 114, 32, 97, 100, 105, 112, 105, 115, 99, 105, 110, 103, 32, 101, 108, 105, 116, 46, 32, 77, 111, 114, 98, 105, 32, 110, 111, 110, 32, 98, 105, 98, 101, 110, 100, 117, 109, 32, 108, 105, 98, 101, 114, 111, 46, 32, 69, 116, 105, 97, 109, 32, 117, 108, 116, 114, 105, 99, 101, 115, 32, 108, 111, 114, 101, 109, 32, 117, 116, 46], [206, 123, 11, 74, 134, 173, 22, 210, 164, 135, 160, 246, 40, 131, 37, 65, 210, 84, 253, 40, 67, 212, 130, 145, 37, 77, 182, 40, 57, 13, 89, 144, 67, 85, 50, 133, 160, 201, 93, 77, 7, 178, 51, 41, 81, 234, 82, 51, 70, 90, 164, 182, 149, 40, 52, 101, 176, 235, 169, 129, 38, 29, 42, 91, 66, 108, 49, 10, 133, 40, 61, 133, 165, 75, 82, 191]),
  ([33, 36, 37, 38, 65], [254, 63, 242, 175, 196, 63]),
  ([0, 0, 0], [255, 199, 254, 63, 241]),
  ([0, 1, 2, 3, 4, 5], [255, 199, 255, 253, 143, 255, 255, 226, 255, 255, 254, 63, 255, 255, 228, 255, 255, 254, 95]),
  ([255, 248], [255, 255, 251, 191, 255, 255, 95])]

/-- `invalid_encodings`, huffman/src/decoder/mod.rs:462-475. -/
def invalidEncodings : List Bytes := [
  [0, 23, 122],
  [73, 124, 165, 137, 211, 77, 31, 67, 174, 186, 12, 65, 164, 199, 169, 143, 51, 166, 154, 63, 223, 154, 104, 250, 29, 117, 208, 98, 13, 38, 61, 76, 121, 166, 143, 190, 208, 1, 119, 254, 190, 88, 249, 251, 237, 0, 23, 122],
  [255, 255],
  [31, 255, 255, 255, 224],
  [255, 159, 255, 255, 255, 128],
  [255, 63, 255, 255, 255],
  [255, 255, 255, 252],
  [255, 63, 255, 255, 255, 0],
  [255, 255, 255, 252, 0]]

/-- `decodes_literals`, huffman/src/decoder/mod.rs:494-503. -/
example : ∀ sp ∈ Speed.known, ∀ x ∈ validLiterals, decode x.2 [] sp = (.ok (), x.1) := by decide +kernel
example : ∀ sp ∈ Speed.known, ∀ x ∈ invalidEncodings, (decode x [] sp).1 = .err .InvalidInput := by decide +kernel

/-- `encodes_bytes`, huffman/src/encoder/mod.rs:156-. Every call appends to the same vector. -/
def encodeAll (xs : List Bytes) (dst : Bytes) : Res EncErr Unit × Bytes :=
  xs.foldl (fun (r : Res EncErr Unit × Bytes) x => match r.1 with | .ok _ => encode x r.2 | _ => r) (.ok (), dst)

example : encodeAll [[32], [33], [34], [35], [36], [37], [38], [39], [40], [41], [42], [43], [44], [45], [46], [47], [48], [49], [50], [51], [52], [53], [54], [55], [56], [57], [58], [59], [60], [61], [62], [63], [64], [65], [66], [67], [68], [69], [70], [71], [72], [73], [74], [75], [76], [77], [78], [79], [80], [81], [82], [83], [84], [85], [86], [87], [88], [89], [90], [91], [92], [93], [94], [95], [96], [97], [98], [99], [100], [101], [102], [103], [104], [105], [106], [107], [108], [109], [110], [111], [112], [113], [114], [115], [116], [117], [118], [119], [120], [121], [122], [123], [124], [125], [126]] [] =
    (.ok (), [83, 254, 63, 254, 127, 255, 175, 255, 207, 87, 248, 255, 95, 254, 191, 254, 255, 249, 255, 127, 250, 91, 95, 99, 7, 15, 23, 103, 107, 111, 115, 119, 123, 127, 185, 251, 255, 249, 131, 255, 191, 255, 63, 255, 215, 135, 187, 189, 191, 193, 195, 197, 199, 201, 203, 205, 207, 209, 211, 213, 215, 217, 219, 221, 223, 225, 227, 229, 252, 231, 253, 255, 223, 255, 254, 31, 255, 231, 255, 243, 139, 255, 251, 31, 143, 39, 147, 47, 151, 155, 159, 55, 233, 235, 163, 167, 171, 63, 175, 237, 179, 71, 79, 183, 239, 241, 243, 245, 247, 255, 253, 255, 159, 255, 247, 255, 239]) := by decide +kernel

example : encodeAll [[72, 101, 108, 108, 111, 32, 119, 111, 114, 108, 100, 33]] [] =
    (.ok (), [198, 90, 40, 58, 158, 15, 101, 18, 127, 31]) := by decide +kernel

/-- `sample_encoding_table`, huffman/src/flattener/mod.rs:240-252. -/
def sampleTable : List (Nat × Nat) := [(13, 0x1ff8), (23, 0x7fffd8), (28, 0xfffffe2), (28, 0xfffffe3), (28, 0xfffffe4), (28, 0xfffffe5), (28, 0xfffffe6), (28, 0xfffffe7), (28, 0xfffffe8)]

def cellOf (r : Res Unit (List (List Cell))) (i j : Nat) : Option (Nat × Option Cell) :=
  match r with | .ok t => some (t.length, (t[i]?).bind (·[j]?)) | _ => none

/-- `flattens_1bits`. -/
example : cellOf (flatten sampleTable .OneBit) 2 1 = some (41, some (some 3, none, 0)) := by decide +kernel
/-- `flattens_2bits`. -/
example : cellOf (flatten sampleTable .TwoBits) 1 3 = some (20, some (some 2, none, 0)) := by decide +kernel
/-- `flattens_3bits`. -/
example : cellOf (flatten sampleTable .ThreeBits) 1 7 = some (16, some (some 2, none, 0)) := by decide +kernel
/-- `flattens_4bits`. -/
example : cellOf (flatten sampleTable .FourBits) 1 15 = some (9, some (some 2, none, 0)) := by decide +kernel
/-- `flattens_5bits`. -/
example : cellOf (flatten sampleTable .FiveBits) 1 31 = some (8, some (some 2, none, 0)) := by decide +kernel

/-- `generates_coding_paths`, huffman/src/flattener/mod.rs:321-339. -/
example : codingPaths (14, 12345) 4 = .ok [[12, 0, 14, 4], [12, 0, 14, 5], [12, 0, 14, 6], [12, 0, 14, 7]] ∧
    codingPaths (13, 2616) 4 = .ok [[5, 1, 12, 0], [5, 1, 12, 1], [5, 1, 12, 2], [5, 1, 12, 3], [5, 1, 12, 4], [5, 1, 12, 5], [5, 1, 12, 6], [5, 1, 12, 7]] := by decide +kernel

/-- `parses_huffman_table`, huffman/src/parser/mod.rs:74-93 (`parse ASSET = .ok ENCODE_TABLE` is C11). -/
example : parse ASSET = .ok ENCODE_TABLE ∧ ENCODE_TABLE.length = 257 ∧ ENCODE_TABLE[10]? = some (30, 0x3ffffffc) ∧ ENCODE_TABLE[32]? = some (6, 0x14) ∧ ENCODE_TABLE.getLast? = some (30, 0x3fffffff) :=
  ⟨Verif.Props.C11_table_is_parse, by decide +kernel⟩

end Verif.Conform.Huff
