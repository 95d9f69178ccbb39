/-! Generated by tools/gen_huffman.py from /repo/huffman/src/decoder/table2.rs. Do not edit. -/
namespace Verif.Huffman

/-- `DECODE_TABLE`, /repo/huffman/src/decoder/table2.rs:3-760: rows of `(next_id, ascii, leftover)`. -/
def DECODE_TABLE2 : List (List (Option Nat × Option Nat × Nat)) := [
  [(some 36, none, 0), (some 29, none, 0), (some 40, none, 0), (some 1, none, 0)],
  [(some 47, none, 0), (some 52, none, 0), (some 57, none, 0), (some 2, none, 0)],
  [(some 70, none, 0), (some 71, none, 0), (some 33, none, 0), (some 3, none, 0)],
  [(none, some 88, 0), (none, some 90, 0), (some 31, none, 0), (some 4, none, 0)],
  [(none, some 63, 0), (some 34, none, 0), (some 32, none, 0), (some 5, none, 0)],
  [(some 6, none, 0), (some 45, none, 0), (some 62, none, 0), (some 7, none, 0)],
  [(none, some 0, 1), (none, some 0, 1), (none, some 36, 1), (none, some 36, 1)],
  [(none, some 94, 0), (none, some 125, 0), (some 43, none, 0), (some 8, none, 0)],
  [(none, some 123, 1), (none, some 123, 1), (some 60, none, 0), (some 9, none, 0)],
  [(some 96, none, 0), (some 73, none, 0), (some 10, none, 0), (some 13, none, 0)],
  [(some 98, none, 0), (some 101, none, 0), (some 106, none, 0), (some 11, none, 0)],
  [(some 12, none, 0), (some 77, none, 0), (some 78, none, 0), (some 79, none, 0)],
  [(none, some 1, 1), (none, some 1, 1), (none, some 135, 1), (none, some 135, 1)],
  [(some 81, none, 0), (some 90, none, 0), (some 20, none, 0), (some 14, none, 0)],
  [(some 94, none, 0), (some 107, none, 0), (some 103, none, 0), (some 15, none, 0)],
  [(some 112, none, 0), (some 121, none, 0), (some 16, none, 0), (some 22, none, 0)],
  [(some 17, none, 0), (some 18, none, 0), (some 19, none, 0), (some 25, none, 0)],
  [(none, some 254, 1), (none, some 254, 1), (none, some 2, 0), (none, some 3, 0)],
  [(none, some 4, 0), (none, some 5, 0), (none, some 6, 0), (none, some 7, 0)],
  [(none, some 8, 0), (none, some 11, 0), (none, some 12, 0), (none, some 14, 0)],
  [(some 102, none, 0), (some 105, none, 0), (some 21, none, 0), (some 80, none, 0)],
  [(none, some 239, 1), (none, some 239, 1), (none, some 9, 0), (none, some 142, 0)],
  [(some 26, none, 0), (some 27, none, 0), (some 28, none, 0), (some 23, none, 0)],
  [(none, some 127, 0), (none, some 220, 0), (none, some 249, 0), (some 24, none, 0)],
  [(none, some 10, 0), (none, some 13, 0), (none, some 22, 0), (none, some 256, 0)],
  [(none, some 15, 0), (none, some 16, 0), (none, some 17, 0), (none, some 18, 0)],
  [(none, some 19, 0), (none, some 20, 0), (none, some 21, 0), (none, some 23, 0)],
  [(none, some 24, 0), (none, some 25, 0), (none, some 26, 0), (none, some 27, 0)],
  [(none, some 28, 0), (none, some 29, 0), (none, some 30, 0), (none, some 31, 0)],
  [(some 69, none, 0), (some 30, none, 0), (some 35, none, 0), (some 39, none, 0)],
  [(none, some 32, 0), (none, some 37, 0), (none, some 45, 0), (none, some 46, 0)],
  [(none, some 33, 0), (none, some 34, 0), (none, some 40, 0), (none, some 41, 0)],
  [(none, some 124, 1), (none, some 124, 1), (none, some 35, 0), (none, some 62, 0)],
  [(none, some 38, 0), (none, some 42, 0), (none, some 44, 0), (none, some 59, 0)],
  [(none, some 39, 1), (none, some 39, 1), (none, some 43, 1), (none, some 43, 1)],
  [(none, some 47, 0), (none, some 51, 0), (none, some 52, 0), (none, some 53, 0)],
  [(some 37, none, 0), (some 38, none, 0), (some 63, none, 0), (some 65, none, 0)],
  [(none, some 48, 1), (none, some 48, 1), (none, some 49, 1), (none, some 49, 1)],
  [(none, some 50, 1), (none, some 50, 1), (none, some 97, 1), (none, some 97, 1)],
  [(none, some 54, 0), (none, some 55, 0), (none, some 56, 0), (none, some 57, 0)],
  [(some 44, none, 0), (some 64, none, 0), (some 67, none, 0), (some 41, none, 0)],
  [(none, some 114, 0), (none, some 117, 0), (some 42, none, 0), (some 46, none, 0)],
  [(none, some 58, 1), (none, some 58, 1), (none, some 66, 1), (none, some 66, 1)],
  [(none, some 60, 1), (none, some 60, 1), (none, some 96, 1), (none, some 96, 1)],
  [(none, some 61, 0), (none, some 65, 0), (none, some 95, 0), (none, some 98, 0)],
  [(none, some 64, 1), (none, some 64, 1), (none, some 91, 1), (none, some 91, 1)],
  [(none, some 67, 1), (none, some 67, 1), (none, some 68, 1), (none, some 68, 1)],
  [(some 48, none, 0), (some 49, none, 0), (some 50, none, 0), (some 51, none, 0)],
  [(none, some 69, 1), (none, some 69, 1), (none, some 70, 1), (none, some 70, 1)],
  [(none, some 71, 1), (none, some 71, 1), (none, some 72, 1), (none, some 72, 1)],
  [(none, some 73, 1), (none, some 73, 1), (none, some 74, 1), (none, some 74, 1)],
  [(none, some 75, 1), (none, some 75, 1), (none, some 76, 1), (none, some 76, 1)],
  [(some 53, none, 0), (some 54, none, 0), (some 55, none, 0), (some 56, none, 0)],
  [(none, some 77, 1), (none, some 77, 1), (none, some 78, 1), (none, some 78, 1)],
  [(none, some 79, 1), (none, some 79, 1), (none, some 80, 1), (none, some 80, 1)],
  [(none, some 81, 1), (none, some 81, 1), (none, some 82, 1), (none, some 82, 1)],
  [(none, some 83, 1), (none, some 83, 1), (none, some 84, 1), (none, some 84, 1)],
  [(some 58, none, 0), (some 59, none, 0), (some 66, none, 0), (some 68, none, 0)],
  [(none, some 85, 1), (none, some 85, 1), (none, some 86, 1), (none, some 86, 1)],
  [(none, some 87, 1), (none, some 87, 1), (none, some 89, 1), (none, some 89, 1)],
  [(some 61, none, 0), (some 72, none, 0), (some 75, none, 0), (some 85, none, 0)],
  [(none, some 92, 1), (none, some 92, 1), (none, some 195, 1), (none, some 195, 1)],
  [(none, some 93, 1), (none, some 93, 1), (none, some 126, 1), (none, some 126, 1)],
  [(none, some 99, 1), (none, some 99, 1), (none, some 101, 1), (none, some 101, 1)],
  [(none, some 100, 0), (none, some 102, 0), (none, some 103, 0), (none, some 104, 0)],
  [(none, some 105, 1), (none, some 105, 1), (none, some 111, 1), (none, some 111, 1)],
  [(none, some 106, 1), (none, some 106, 1), (none, some 107, 1), (none, some 107, 1)],
  [(none, some 108, 0), (none, some 109, 0), (none, some 110, 0), (none, some 112, 0)],
  [(none, some 113, 1), (none, some 113, 1), (none, some 118, 1), (none, some 118, 1)],
  [(none, some 115, 1), (none, some 115, 1), (none, some 116, 1), (none, some 116, 1)],
  [(none, some 119, 1), (none, some 119, 1), (none, some 120, 1), (none, some 120, 1)],
  [(none, some 121, 1), (none, some 121, 1), (none, some 122, 1), (none, some 122, 1)],
  [(none, some 208, 1), (none, some 208, 1), (none, some 128, 0), (none, some 130, 0)],
  [(some 74, none, 0), (some 76, none, 0), (some 87, none, 0), (some 89, none, 0)],
  [(none, some 230, 1), (none, some 230, 1), (none, some 129, 0), (none, some 132, 0)],
  [(none, some 131, 0), (none, some 162, 0), (none, some 184, 0), (none, some 194, 0)],
  [(none, some 133, 0), (none, some 134, 0), (none, some 136, 0), (none, some 146, 0)],
  [(none, some 137, 1), (none, some 137, 1), (none, some 138, 1), (none, some 138, 1)],
  [(none, some 139, 1), (none, some 139, 1), (none, some 140, 1), (none, some 140, 1)],
  [(none, some 141, 1), (none, some 141, 1), (none, some 143, 1), (none, some 143, 1)],
  [(none, some 144, 0), (none, some 145, 0), (none, some 148, 0), (none, some 159, 0)],
  [(some 82, none, 0), (some 83, none, 0), (some 84, none, 0), (some 88, none, 0)],
  [(none, some 147, 1), (none, some 147, 1), (none, some 149, 1), (none, some 149, 1)],
  [(none, some 150, 1), (none, some 150, 1), (none, some 151, 1), (none, some 151, 1)],
  [(none, some 152, 1), (none, some 152, 1), (none, some 155, 1), (none, some 155, 1)],
  [(none, some 224, 0), (none, some 226, 0), (some 86, none, 0), (some 92, none, 0)],
  [(none, some 153, 1), (none, some 153, 1), (none, some 161, 1), (none, some 161, 1)],
  [(none, some 154, 0), (none, some 156, 0), (none, some 160, 0), (none, some 163, 0)],
  [(none, some 157, 1), (none, some 157, 1), (none, some 158, 1), (none, some 158, 1)],
  [(none, some 164, 0), (none, some 169, 0), (none, some 170, 0), (none, some 173, 0)],
  [(some 91, none, 0), (some 93, none, 0), (some 95, none, 0), (some 100, none, 0)],
  [(none, some 165, 1), (none, some 165, 1), (none, some 166, 1), (none, some 166, 1)],
  [(none, some 167, 1), (none, some 167, 1), (none, some 172, 1), (none, some 172, 1)],
  [(none, some 168, 1), (none, some 168, 1), (none, some 174, 1), (none, some 174, 1)],
  [(none, some 171, 0), (none, some 206, 0), (none, some 215, 0), (none, some 225, 0)],
  [(none, some 175, 1), (none, some 175, 1), (none, some 180, 1), (none, some 180, 1)],
  [(some 97, none, 0), (some 99, none, 0), (some 115, none, 0), (some 118, none, 0)],
  [(none, some 176, 1), (none, some 176, 1), (none, some 177, 1), (none, some 177, 1)],
  [(none, some 178, 0), (none, some 181, 0), (none, some 185, 0), (none, some 186, 0)],
  [(none, some 179, 1), (none, some 179, 1), (none, some 209, 1), (none, some 209, 1)],
  [(none, some 182, 1), (none, some 182, 1), (none, some 183, 1), (none, some 183, 1)],
  [(none, some 187, 0), (none, some 189, 0), (none, some 190, 0), (none, some 196, 0)],
  [(none, some 188, 1), (none, some 188, 1), (none, some 191, 1), (none, some 191, 1)],
  [(some 104, none, 0), (some 109, none, 0), (some 116, none, 0), (some 110, none, 0)],
  [(none, some 192, 0), (none, some 193, 0), (none, some 200, 0), (none, some 201, 0)],
  [(none, some 197, 1), (none, some 197, 1), (none, some 231, 1), (none, some 231, 1)],
  [(none, some 198, 0), (none, some 228, 0), (none, some 232, 0), (none, some 233, 0)],
  [(none, some 236, 0), (none, some 237, 0), (some 108, none, 0), (some 119, none, 0)],
  [(none, some 199, 1), (none, some 199, 1), (none, some 207, 1), (none, some 207, 1)],
  [(none, some 202, 0), (none, some 205, 0), (none, some 210, 0), (none, some 213, 0)],
  [(none, some 242, 0), (none, some 243, 0), (none, some 255, 0), (some 111, none, 0)],
  [(none, some 203, 1), (none, some 203, 1), (none, some 204, 1), (none, some 204, 1)],
  [(some 113, none, 0), (some 114, none, 0), (some 117, none, 0), (some 120, none, 0)],
  [(none, some 211, 1), (none, some 211, 1), (none, some 212, 1), (none, some 212, 1)],
  [(none, some 214, 1), (none, some 214, 1), (none, some 221, 1), (none, some 221, 1)],
  [(none, some 216, 1), (none, some 216, 1), (none, some 217, 1), (none, some 217, 1)],
  [(none, some 218, 0), (none, some 219, 0), (none, some 238, 0), (none, some 240, 0)],
  [(none, some 222, 1), (none, some 222, 1), (none, some 223, 1), (none, some 223, 1)],
  [(none, some 227, 1), (none, some 227, 1), (none, some 229, 1), (none, some 229, 1)],
  [(none, some 234, 1), (none, some 234, 1), (none, some 235, 1), (none, some 235, 1)],
  [(none, some 241, 1), (none, some 241, 1), (none, some 244, 1), (none, some 244, 1)],
  [(some 122, none, 0), (some 123, none, 0), (some 124, none, 0), (some 125, none, 0)],
  [(none, some 245, 1), (none, some 245, 1), (none, some 246, 1), (none, some 246, 1)],
  [(none, some 247, 1), (none, some 247, 1), (none, some 248, 1), (none, some 248, 1)],
  [(none, some 250, 1), (none, some 250, 1), (none, some 251, 1), (none, some 251, 1)],
  [(none, some 252, 1), (none, some 252, 1), (none, some 253, 1), (none, some 253, 1)]]

end Verif.Huffman
