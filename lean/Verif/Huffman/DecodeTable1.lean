/-! Generated by tools/gen_huffman.py from /repo/huffman/src/decoder/table1.rs. Do not edit. -/
namespace Verif.Huffman

/-- `DECODE_TABLE`, /repo/huffman/src/decoder/table1.rs:3-1028: rows of `(next_id, ascii, leftover)`. -/
def DECODE_TABLE1 : List (List (Option Nat × Option Nat × Nat)) := [
  [(some 66, none, 0), (some 1, none, 0)],
  [(some 93, none, 0), (some 2, none, 0)],
  [(some 104, none, 0), (some 3, none, 0)],
  [(some 119, none, 0), (some 4, none, 0)],
  [(some 144, none, 0), (some 5, none, 0)],
  [(some 75, none, 0), (some 6, none, 0)],
  [(some 123, none, 0), (some 7, none, 0)],
  [(some 71, none, 0), (some 8, none, 0)],
  [(some 77, none, 0), (some 9, none, 0)],
  [(some 73, none, 0), (some 10, none, 0)],
  [(some 11, none, 0), (some 13, none, 0)],
  [(some 12, none, 0), (some 102, none, 0)],
  [(none, some 0, 0), (none, some 36, 0)],
  [(some 127, none, 0), (some 14, none, 0)],
  [(some 128, none, 0), (some 15, none, 0)],
  [(some 98, none, 0), (some 16, none, 0)],
  [(none, some 123, 0), (some 17, none, 0)],
  [(some 124, none, 0), (some 18, none, 0)],
  [(some 150, none, 0), (some 19, none, 0)],
  [(some 20, none, 0), (some 25, none, 0)],
  [(some 199, none, 0), (some 21, none, 0)],
  [(some 216, none, 0), (some 22, none, 0)],
  [(some 23, none, 0), (some 162, none, 0)],
  [(some 24, none, 0), (some 161, none, 0)],
  [(none, some 1, 0), (none, some 135, 0)],
  [(some 167, none, 0), (some 26, none, 0)],
  [(some 41, none, 0), (some 27, none, 0)],
  [(some 191, none, 0), (some 28, none, 0)],
  [(some 211, none, 0), (some 29, none, 0)],
  [(some 229, none, 0), (some 30, none, 0)],
  [(some 31, none, 0), (some 45, none, 0)],
  [(some 32, none, 0), (some 38, none, 0)],
  [(some 33, none, 0), (some 35, none, 0)],
  [(none, some 254, 0), (some 34, none, 0)],
  [(none, some 2, 0), (none, some 3, 0)],
  [(some 36, none, 0), (some 37, none, 0)],
  [(none, some 4, 0), (none, some 5, 0)],
  [(none, some 6, 0), (none, some 7, 0)],
  [(some 39, none, 0), (some 52, none, 0)],
  [(some 40, none, 0), (some 51, none, 0)],
  [(none, some 8, 0), (none, some 11, 0)],
  [(some 208, none, 0), (some 42, none, 0)],
  [(some 43, none, 0), (some 165, none, 0)],
  [(none, some 239, 0), (some 44, none, 0)],
  [(none, some 9, 0), (none, some 142, 0)],
  [(some 55, none, 0), (some 46, none, 0)],
  [(some 63, none, 0), (some 47, none, 0)],
  [(some 147, none, 0), (some 48, none, 0)],
  [(none, some 249, 0), (some 49, none, 0)],
  [(some 50, none, 0), (some 59, none, 0)],
  [(none, some 10, 0), (none, some 13, 0)],
  [(none, some 12, 0), (none, some 14, 0)],
  [(some 53, none, 0), (some 54, none, 0)],
  [(none, some 15, 0), (none, some 16, 0)],
  [(none, some 17, 0), (none, some 18, 0)],
  [(some 56, none, 0), (some 60, none, 0)],
  [(some 57, none, 0), (some 58, none, 0)],
  [(none, some 19, 0), (none, some 20, 0)],
  [(none, some 21, 0), (none, some 23, 0)],
  [(none, some 22, 0), (none, some 256, 0)],
  [(some 61, none, 0), (some 62, none, 0)],
  [(none, some 24, 0), (none, some 25, 0)],
  [(none, some 26, 0), (none, some 27, 0)],
  [(some 64, none, 0), (some 65, none, 0)],
  [(none, some 28, 0), (none, some 29, 0)],
  [(none, some 30, 0), (none, some 31, 0)],
  [(some 85, none, 0), (some 67, none, 0)],
  [(some 68, none, 0), (some 82, none, 0)],
  [(some 143, none, 0), (some 69, none, 0)],
  [(some 70, none, 0), (some 81, none, 0)],
  [(none, some 32, 0), (none, some 37, 0)],
  [(some 72, none, 0), (some 79, none, 0)],
  [(none, some 33, 0), (none, some 34, 0)],
  [(none, some 124, 0), (some 74, none, 0)],
  [(none, some 35, 0), (none, some 62, 0)],
  [(some 76, none, 0), (some 80, none, 0)],
  [(none, some 38, 0), (none, some 42, 0)],
  [(none, some 63, 0), (some 78, none, 0)],
  [(none, some 39, 0), (none, some 43, 0)],
  [(none, some 40, 0), (none, some 41, 0)],
  [(none, some 44, 0), (none, some 59, 0)],
  [(none, some 45, 0), (none, some 46, 0)],
  [(some 83, none, 0), (some 90, none, 0)],
  [(some 84, none, 0), (some 89, none, 0)],
  [(none, some 47, 0), (none, some 51, 0)],
  [(some 86, none, 0), (some 130, none, 0)],
  [(some 87, none, 0), (some 88, none, 0)],
  [(none, some 48, 0), (none, some 49, 0)],
  [(none, some 50, 0), (none, some 97, 0)],
  [(none, some 52, 0), (none, some 53, 0)],
  [(some 91, none, 0), (some 92, none, 0)],
  [(none, some 54, 0), (none, some 55, 0)],
  [(none, some 56, 0), (none, some 57, 0)],
  [(some 99, none, 0), (some 94, none, 0)],
  [(some 138, none, 0), (some 95, none, 0)],
  [(some 142, none, 0), (some 96, none, 0)],
  [(some 97, none, 0), (some 103, none, 0)],
  [(none, some 58, 0), (none, some 66, 0)],
  [(none, some 60, 0), (none, some 96, 0)],
  [(some 100, none, 0), (some 132, none, 0)],
  [(some 101, none, 0), (some 129, none, 0)],
  [(none, some 61, 0), (none, some 65, 0)],
  [(none, some 64, 0), (none, some 91, 0)],
  [(none, some 67, 0), (none, some 68, 0)],
  [(some 105, none, 0), (some 112, none, 0)],
  [(some 106, none, 0), (some 109, none, 0)],
  [(some 107, none, 0), (some 108, none, 0)],
  [(none, some 69, 0), (none, some 70, 0)],
  [(none, some 71, 0), (none, some 72, 0)],
  [(some 110, none, 0), (some 111, none, 0)],
  [(none, some 73, 0), (none, some 74, 0)],
  [(none, some 75, 0), (none, some 76, 0)],
  [(some 113, none, 0), (some 116, none, 0)],
  [(some 114, none, 0), (some 115, none, 0)],
  [(none, some 77, 0), (none, some 78, 0)],
  [(none, some 79, 0), (none, some 80, 0)],
  [(some 117, none, 0), (some 118, none, 0)],
  [(none, some 81, 0), (none, some 82, 0)],
  [(none, some 83, 0), (none, some 84, 0)],
  [(some 120, none, 0), (some 136, none, 0)],
  [(some 121, none, 0), (some 122, none, 0)],
  [(none, some 85, 0), (none, some 86, 0)],
  [(none, some 87, 0), (none, some 89, 0)],
  [(none, some 88, 0), (none, some 90, 0)],
  [(some 125, none, 0), (some 155, none, 0)],
  [(some 126, none, 0), (some 148, none, 0)],
  [(none, some 92, 0), (none, some 195, 0)],
  [(none, some 93, 0), (none, some 126, 0)],
  [(none, some 94, 0), (none, some 125, 0)],
  [(none, some 95, 0), (none, some 98, 0)],
  [(some 131, none, 0), (some 135, none, 0)],
  [(none, some 99, 0), (none, some 101, 0)],
  [(some 133, none, 0), (some 134, none, 0)],
  [(none, some 100, 0), (none, some 102, 0)],
  [(none, some 103, 0), (none, some 104, 0)],
  [(none, some 105, 0), (none, some 111, 0)],
  [(some 137, none, 0), (some 141, none, 0)],
  [(none, some 106, 0), (none, some 107, 0)],
  [(some 139, none, 0), (some 140, none, 0)],
  [(none, some 108, 0), (none, some 109, 0)],
  [(none, some 110, 0), (none, some 112, 0)],
  [(none, some 113, 0), (none, some 118, 0)],
  [(none, some 114, 0), (none, some 117, 0)],
  [(none, some 115, 0), (none, some 116, 0)],
  [(some 145, none, 0), (some 146, none, 0)],
  [(none, some 119, 0), (none, some 120, 0)],
  [(none, some 121, 0), (none, some 122, 0)],
  [(none, some 127, 0), (none, some 220, 0)],
  [(none, some 208, 0), (some 149, none, 0)],
  [(none, some 128, 0), (none, some 130, 0)],
  [(some 196, none, 0), (some 151, none, 0)],
  [(some 152, none, 0), (some 178, none, 0)],
  [(some 153, none, 0), (some 158, none, 0)],
  [(none, some 230, 0), (some 154, none, 0)],
  [(none, some 129, 0), (none, some 132, 0)],
  [(some 156, none, 0), (some 175, none, 0)],
  [(some 157, none, 0), (some 204, none, 0)],
  [(none, some 131, 0), (none, some 162, 0)],
  [(some 159, none, 0), (some 160, none, 0)],
  [(none, some 133, 0), (none, some 134, 0)],
  [(none, some 136, 0), (none, some 146, 0)],
  [(none, some 137, 0), (none, some 138, 0)],
  [(some 163, none, 0), (some 164, none, 0)],
  [(none, some 139, 0), (none, some 140, 0)],
  [(none, some 141, 0), (none, some 143, 0)],
  [(some 166, none, 0), (some 171, none, 0)],
  [(none, some 144, 0), (none, some 145, 0)],
  [(some 168, none, 0), (some 185, none, 0)],
  [(some 169, none, 0), (some 173, none, 0)],
  [(some 170, none, 0), (some 172, none, 0)],
  [(none, some 147, 0), (none, some 149, 0)],
  [(none, some 148, 0), (none, some 159, 0)],
  [(none, some 150, 0), (none, some 151, 0)],
  [(some 174, none, 0), (some 181, none, 0)],
  [(none, some 152, 0), (none, some 155, 0)],
  [(some 241, none, 0), (some 176, none, 0)],
  [(some 177, none, 0), (some 188, none, 0)],
  [(none, some 153, 0), (none, some 161, 0)],
  [(some 179, none, 0), (some 183, none, 0)],
  [(some 180, none, 0), (some 182, none, 0)],
  [(none, some 154, 0), (none, some 156, 0)],
  [(none, some 157, 0), (none, some 158, 0)],
  [(none, some 160, 0), (none, some 163, 0)],
  [(some 184, none, 0), (some 190, none, 0)],
  [(none, some 164, 0), (none, some 169, 0)],
  [(some 186, none, 0), (some 194, none, 0)],
  [(some 187, none, 0), (some 189, none, 0)],
  [(none, some 165, 0), (none, some 166, 0)],
  [(none, some 167, 0), (none, some 172, 0)],
  [(none, some 168, 0), (none, some 174, 0)],
  [(none, some 170, 0), (none, some 173, 0)],
  [(some 192, none, 0), (some 218, none, 0)],
  [(some 193, none, 0), (some 234, none, 0)],
  [(none, some 171, 0), (none, some 206, 0)],
  [(some 195, none, 0), (some 203, none, 0)],
  [(none, some 175, 0), (none, some 180, 0)],
  [(some 197, none, 0), (some 235, none, 0)],
  [(some 198, none, 0), (some 202, none, 0)],
  [(none, some 176, 0), (none, some 177, 0)],
  [(some 200, none, 0), (some 206, none, 0)],
  [(some 201, none, 0), (some 205, none, 0)],
  [(none, some 178, 0), (none, some 181, 0)],
  [(none, some 179, 0), (none, some 209, 0)],
  [(none, some 182, 0), (none, some 183, 0)],
  [(none, some 184, 0), (none, some 194, 0)],
  [(none, some 185, 0), (none, some 186, 0)],
  [(some 207, none, 0), (some 210, none, 0)],
  [(none, some 187, 0), (none, some 189, 0)],
  [(some 209, none, 0), (some 215, none, 0)],
  [(none, some 188, 0), (none, some 191, 0)],
  [(none, some 190, 0), (none, some 196, 0)],
  [(some 212, none, 0), (some 224, none, 0)],
  [(some 213, none, 0), (some 222, none, 0)],
  [(some 214, none, 0), (some 221, none, 0)],
  [(none, some 192, 0), (none, some 193, 0)],
  [(none, some 197, 0), (none, some 231, 0)],
  [(some 217, none, 0), (some 243, none, 0)],
  [(none, some 198, 0), (none, some 228, 0)],
  [(some 245, none, 0), (some 219, none, 0)],
  [(some 220, none, 0), (some 244, none, 0)],
  [(none, some 199, 0), (none, some 207, 0)],
  [(none, some 200, 0), (none, some 201, 0)],
  [(some 223, none, 0), (some 228, none, 0)],
  [(none, some 202, 0), (none, some 205, 0)],
  [(some 237, none, 0), (some 225, none, 0)],
  [(some 248, none, 0), (some 226, none, 0)],
  [(none, some 255, 0), (some 227, none, 0)],
  [(none, some 203, 0), (none, some 204, 0)],
  [(none, some 210, 0), (none, some 213, 0)],
  [(some 230, none, 0), (some 249, none, 0)],
  [(some 231, none, 0), (some 239, none, 0)],
  [(some 232, none, 0), (some 233, none, 0)],
  [(none, some 211, 0), (none, some 212, 0)],
  [(none, some 214, 0), (none, some 221, 0)],
  [(none, some 215, 0), (none, some 225, 0)],
  [(some 236, none, 0), (some 242, none, 0)],
  [(none, some 216, 0), (none, some 217, 0)],
  [(some 238, none, 0), (some 246, none, 0)],
  [(none, some 218, 0), (none, some 219, 0)],
  [(some 240, none, 0), (some 247, none, 0)],
  [(none, some 222, 0), (none, some 223, 0)],
  [(none, some 224, 0), (none, some 226, 0)],
  [(none, some 227, 0), (none, some 229, 0)],
  [(none, some 232, 0), (none, some 233, 0)],
  [(none, some 234, 0), (none, some 235, 0)],
  [(none, some 236, 0), (none, some 237, 0)],
  [(none, some 238, 0), (none, some 240, 0)],
  [(none, some 241, 0), (none, some 244, 0)],
  [(none, some 242, 0), (none, some 243, 0)],
  [(some 250, none, 0), (some 253, none, 0)],
  [(some 251, none, 0), (some 252, none, 0)],
  [(none, some 245, 0), (none, some 246, 0)],
  [(none, some 247, 0), (none, some 248, 0)],
  [(some 254, none, 0), (some 255, none, 0)],
  [(none, some 250, 0), (none, some 251, 0)],
  [(none, some 252, 0), (none, some 253, 0)]]

end Verif.Huffman
