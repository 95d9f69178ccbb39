/-! Generated by tools/gen_huffman.py from /repo/huffman/src/decoder/table3.rs. Do not edit. -/
namespace Verif.Huffman

/-- `DECODE_TABLE`, /repo/huffman/src/decoder/table3.rs:3-924: rows of `(next_id, ascii, leftover)`. -/
def DECODE_TABLE3 : List (List (Option Nat × Option Nat × Nat)) := [
  [(some 34, none, 0), (some 53, none, 0), (some 28, none, 0), (some 33, none, 0), (some 37, none, 0), (some 35, none, 0), (some 40, none, 0), (some 1, none, 0)],
  [(some 49, none, 0), (some 50, none, 0), (some 54, none, 0), (some 55, none, 0), (some 56, none, 0), (some 57, none, 0), (some 30, none, 0), (some 2, none, 0)],
  [(none, some 88, 1), (none, some 88, 1), (none, some 90, 1), (none, some 90, 1), (some 29, none, 0), (some 32, none, 0), (some 31, none, 0), (some 3, none, 0)],
  [(none, some 124, 1), (none, some 124, 1), (none, some 35, 0), (none, some 62, 0), (some 4, none, 0), (some 38, none, 0), (some 52, none, 0), (some 5, none, 0)],
  [(none, some 0, 2), (none, some 0, 2), (none, some 0, 2), (none, some 0, 2), (none, some 36, 2), (none, some 36, 2), (none, some 36, 2), (none, some 36, 2)],
  [(none, some 94, 1), (none, some 94, 1), (none, some 125, 1), (none, some 125, 1), (none, some 60, 0), (none, some 96, 0), (none, some 123, 0), (some 6, none, 0)],
  [(some 51, none, 0), (some 59, none, 0), (some 62, none, 0), (some 68, none, 0), (some 76, none, 0), (some 60, none, 0), (some 7, none, 0), (some 9, none, 0)],
  [(some 77, none, 0), (some 78, none, 0), (some 79, none, 0), (some 81, none, 0), (some 83, none, 0), (some 89, none, 0), (some 8, none, 0), (some 65, none, 0)],
  [(none, some 1, 1), (none, some 1, 1), (none, some 135, 1), (none, some 135, 1), (none, some 137, 1), (none, some 137, 1), (none, some 138, 1), (none, some 138, 1)],
  [(some 66, none, 0), (some 67, none, 0), (some 72, none, 0), (some 75, none, 0), (some 80, none, 0), (some 16, none, 0), (some 74, none, 0), (some 10, none, 0)],
  [(some 82, none, 0), (some 85, none, 0), (some 88, none, 0), (some 86, none, 0), (some 87, none, 0), (some 91, none, 0), (some 11, none, 0), (some 17, none, 0)],
  [(none, some 254, 0), (some 12, none, 0), (some 13, none, 0), (some 14, none, 0), (some 15, none, 0), (some 19, none, 0), (some 20, none, 0), (some 21, none, 0)],
  [(none, some 2, 2), (none, some 2, 2), (none, some 2, 2), (none, some 2, 2), (none, some 3, 2), (none, some 3, 2), (none, some 3, 2), (none, some 3, 2)],
  [(none, some 4, 2), (none, some 4, 2), (none, some 4, 2), (none, some 4, 2), (none, some 5, 2), (none, some 5, 2), (none, some 5, 2), (none, some 5, 2)],
  [(none, some 6, 2), (none, some 6, 2), (none, some 6, 2), (none, some 6, 2), (none, some 7, 2), (none, some 7, 2), (none, some 7, 2), (none, some 7, 2)],
  [(none, some 8, 2), (none, some 8, 2), (none, some 8, 2), (none, some 8, 2), (none, some 11, 2), (none, some 11, 2), (none, some 11, 2), (none, some 11, 2)],
  [(none, some 239, 1), (none, some 239, 1), (none, some 9, 0), (none, some 142, 0), (none, some 144, 0), (none, some 145, 0), (none, some 148, 0), (none, some 159, 0)],
  [(some 22, none, 0), (some 23, none, 0), (some 24, none, 0), (some 25, none, 0), (some 26, none, 0), (some 27, none, 0), (some 58, none, 0), (some 18, none, 0)],
  [(none, some 249, 2), (none, some 249, 2), (none, some 249, 2), (none, some 249, 2), (none, some 10, 0), (none, some 13, 0), (none, some 22, 0), (none, some 256, 0)],
  [(none, some 12, 2), (none, some 12, 2), (none, some 12, 2), (none, some 12, 2), (none, some 14, 2), (none, some 14, 2), (none, some 14, 2), (none, some 14, 2)],
  [(none, some 15, 2), (none, some 15, 2), (none, some 15, 2), (none, some 15, 2), (none, some 16, 2), (none, some 16, 2), (none, some 16, 2), (none, some 16, 2)],
  [(none, some 17, 2), (none, some 17, 2), (none, some 17, 2), (none, some 17, 2), (none, some 18, 2), (none, some 18, 2), (none, some 18, 2), (none, some 18, 2)],
  [(none, some 19, 2), (none, some 19, 2), (none, some 19, 2), (none, some 19, 2), (none, some 20, 2), (none, some 20, 2), (none, some 20, 2), (none, some 20, 2)],
  [(none, some 21, 2), (none, some 21, 2), (none, some 21, 2), (none, some 21, 2), (none, some 23, 2), (none, some 23, 2), (none, some 23, 2), (none, some 23, 2)],
  [(none, some 24, 2), (none, some 24, 2), (none, some 24, 2), (none, some 24, 2), (none, some 25, 2), (none, some 25, 2), (none, some 25, 2), (none, some 25, 2)],
  [(none, some 26, 2), (none, some 26, 2), (none, some 26, 2), (none, some 26, 2), (none, some 27, 2), (none, some 27, 2), (none, some 27, 2), (none, some 27, 2)],
  [(none, some 28, 2), (none, some 28, 2), (none, some 28, 2), (none, some 28, 2), (none, some 29, 2), (none, some 29, 2), (none, some 29, 2), (none, some 29, 2)],
  [(none, some 30, 2), (none, some 30, 2), (none, some 30, 2), (none, some 30, 2), (none, some 31, 2), (none, some 31, 2), (none, some 31, 2), (none, some 31, 2)],
  [(none, some 115, 1), (none, some 115, 1), (none, some 116, 1), (none, some 116, 1), (none, some 32, 0), (none, some 37, 0), (none, some 45, 0), (none, some 46, 0)],
  [(none, some 33, 2), (none, some 33, 2), (none, some 33, 2), (none, some 33, 2), (none, some 34, 2), (none, some 34, 2), (none, some 34, 2), (none, some 34, 2)],
  [(none, some 38, 1), (none, some 38, 1), (none, some 42, 1), (none, some 42, 1), (none, some 44, 1), (none, some 44, 1), (none, some 59, 1), (none, some 59, 1)],
  [(none, some 63, 2), (none, some 63, 2), (none, some 63, 2), (none, some 63, 2), (none, some 39, 1), (none, some 39, 1), (none, some 43, 1), (none, some 43, 1)],
  [(none, some 40, 2), (none, some 40, 2), (none, some 40, 2), (none, some 40, 2), (none, some 41, 2), (none, some 41, 2), (none, some 41, 2), (none, some 41, 2)],
  [(none, some 47, 0), (none, some 51, 0), (none, some 52, 0), (none, some 53, 0), (none, some 54, 0), (none, some 55, 0), (none, some 56, 0), (none, some 57, 0)],
  [(none, some 48, 1), (none, some 48, 1), (none, some 49, 1), (none, some 49, 1), (none, some 50, 1), (none, some 50, 1), (none, some 97, 1), (none, some 97, 1)],
  [(none, some 108, 0), (none, some 109, 0), (none, some 110, 0), (none, some 112, 0), (none, some 114, 0), (none, some 117, 0), (some 36, none, 0), (some 39, none, 0)],
  [(none, some 58, 2), (none, some 58, 2), (none, some 58, 2), (none, some 58, 2), (none, some 66, 2), (none, some 66, 2), (none, some 66, 2), (none, some 66, 2)],
  [(none, some 61, 0), (none, some 65, 0), (none, some 95, 0), (none, some 98, 0), (none, some 100, 0), (none, some 102, 0), (none, some 103, 0), (none, some 104, 0)],
  [(none, some 64, 2), (none, some 64, 2), (none, some 64, 2), (none, some 64, 2), (none, some 91, 2), (none, some 91, 2), (none, some 91, 2), (none, some 91, 2)],
  [(none, some 67, 2), (none, some 67, 2), (none, some 67, 2), (none, some 67, 2), (none, some 68, 2), (none, some 68, 2), (none, some 68, 2), (none, some 68, 2)],
  [(some 41, none, 0), (some 42, none, 0), (some 43, none, 0), (some 44, none, 0), (some 45, none, 0), (some 46, none, 0), (some 47, none, 0), (some 48, none, 0)],
  [(none, some 69, 2), (none, some 69, 2), (none, some 69, 2), (none, some 69, 2), (none, some 70, 2), (none, some 70, 2), (none, some 70, 2), (none, some 70, 2)],
  [(none, some 71, 2), (none, some 71, 2), (none, some 71, 2), (none, some 71, 2), (none, some 72, 2), (none, some 72, 2), (none, some 72, 2), (none, some 72, 2)],
  [(none, some 73, 2), (none, some 73, 2), (none, some 73, 2), (none, some 73, 2), (none, some 74, 2), (none, some 74, 2), (none, some 74, 2), (none, some 74, 2)],
  [(none, some 75, 2), (none, some 75, 2), (none, some 75, 2), (none, some 75, 2), (none, some 76, 2), (none, some 76, 2), (none, some 76, 2), (none, some 76, 2)],
  [(none, some 77, 2), (none, some 77, 2), (none, some 77, 2), (none, some 77, 2), (none, some 78, 2), (none, some 78, 2), (none, some 78, 2), (none, some 78, 2)],
  [(none, some 79, 2), (none, some 79, 2), (none, some 79, 2), (none, some 79, 2), (none, some 80, 2), (none, some 80, 2), (none, some 80, 2), (none, some 80, 2)],
  [(none, some 81, 2), (none, some 81, 2), (none, some 81, 2), (none, some 81, 2), (none, some 82, 2), (none, some 82, 2), (none, some 82, 2), (none, some 82, 2)],
  [(none, some 83, 2), (none, some 83, 2), (none, some 83, 2), (none, some 83, 2), (none, some 84, 2), (none, some 84, 2), (none, some 84, 2), (none, some 84, 2)],
  [(none, some 85, 2), (none, some 85, 2), (none, some 85, 2), (none, some 85, 2), (none, some 86, 2), (none, some 86, 2), (none, some 86, 2), (none, some 86, 2)],
  [(none, some 87, 2), (none, some 87, 2), (none, some 87, 2), (none, some 87, 2), (none, some 89, 2), (none, some 89, 2), (none, some 89, 2), (none, some 89, 2)],
  [(none, some 92, 2), (none, some 92, 2), (none, some 92, 2), (none, some 92, 2), (none, some 195, 2), (none, some 195, 2), (none, some 195, 2), (none, some 195, 2)],
  [(none, some 93, 2), (none, some 93, 2), (none, some 93, 2), (none, some 93, 2), (none, some 126, 2), (none, some 126, 2), (none, some 126, 2), (none, some 126, 2)],
  [(none, some 99, 1), (none, some 99, 1), (none, some 101, 1), (none, some 101, 1), (none, some 105, 1), (none, some 105, 1), (none, some 111, 1), (none, some 111, 1)],
  [(none, some 106, 2), (none, some 106, 2), (none, some 106, 2), (none, some 106, 2), (none, some 107, 2), (none, some 107, 2), (none, some 107, 2), (none, some 107, 2)],
  [(none, some 113, 2), (none, some 113, 2), (none, some 113, 2), (none, some 113, 2), (none, some 118, 2), (none, some 118, 2), (none, some 118, 2), (none, some 118, 2)],
  [(none, some 119, 2), (none, some 119, 2), (none, some 119, 2), (none, some 119, 2), (none, some 120, 2), (none, some 120, 2), (none, some 120, 2), (none, some 120, 2)],
  [(none, some 121, 2), (none, some 121, 2), (none, some 121, 2), (none, some 121, 2), (none, some 122, 2), (none, some 122, 2), (none, some 122, 2), (none, some 122, 2)],
  [(none, some 127, 2), (none, some 127, 2), (none, some 127, 2), (none, some 127, 2), (none, some 220, 2), (none, some 220, 2), (none, some 220, 2), (none, some 220, 2)],
  [(none, some 208, 2), (none, some 208, 2), (none, some 208, 2), (none, some 208, 2), (none, some 128, 1), (none, some 128, 1), (none, some 130, 1), (none, some 130, 1)],
  [(none, some 230, 0), (some 61, none, 0), (some 63, none, 0), (some 64, none, 0), (some 69, none, 0), (some 70, none, 0), (some 71, none, 0), (some 73, none, 0)],
  [(none, some 129, 2), (none, some 129, 2), (none, some 129, 2), (none, some 129, 2), (none, some 132, 2), (none, some 132, 2), (none, some 132, 2), (none, some 132, 2)],
  [(none, some 131, 1), (none, some 131, 1), (none, some 162, 1), (none, some 162, 1), (none, some 184, 1), (none, some 184, 1), (none, some 194, 1), (none, some 194, 1)],
  [(none, some 133, 2), (none, some 133, 2), (none, some 133, 2), (none, some 133, 2), (none, some 134, 2), (none, some 134, 2), (none, some 134, 2), (none, some 134, 2)],
  [(none, some 136, 2), (none, some 136, 2), (none, some 136, 2), (none, some 136, 2), (none, some 146, 2), (none, some 146, 2), (none, some 146, 2), (none, some 146, 2)],
  [(none, some 139, 1), (none, some 139, 1), (none, some 140, 1), (none, some 140, 1), (none, some 141, 1), (none, some 141, 1), (none, some 143, 1), (none, some 143, 1)],
  [(none, some 147, 1), (none, some 147, 1), (none, some 149, 1), (none, some 149, 1), (none, some 150, 1), (none, some 150, 1), (none, some 151, 1), (none, some 151, 1)],
  [(none, some 152, 1), (none, some 152, 1), (none, some 155, 1), (none, some 155, 1), (none, some 157, 1), (none, some 157, 1), (none, some 158, 1), (none, some 158, 1)],
  [(none, some 224, 1), (none, some 224, 1), (none, some 226, 1), (none, some 226, 1), (none, some 153, 0), (none, some 161, 0), (none, some 167, 0), (none, some 172, 0)],
  [(none, some 154, 2), (none, some 154, 2), (none, some 154, 2), (none, some 154, 2), (none, some 156, 2), (none, some 156, 2), (none, some 156, 2), (none, some 156, 2)],
  [(none, some 160, 2), (none, some 160, 2), (none, some 160, 2), (none, some 160, 2), (none, some 163, 2), (none, some 163, 2), (none, some 163, 2), (none, some 163, 2)],
  [(none, some 164, 2), (none, some 164, 2), (none, some 164, 2), (none, some 164, 2), (none, some 169, 2), (none, some 169, 2), (none, some 169, 2), (none, some 169, 2)],
  [(none, some 165, 1), (none, some 165, 1), (none, some 166, 1), (none, some 166, 1), (none, some 168, 1), (none, some 168, 1), (none, some 174, 1), (none, some 174, 1)],
  [(none, some 170, 2), (none, some 170, 2), (none, some 170, 2), (none, some 170, 2), (none, some 173, 2), (none, some 173, 2), (none, some 173, 2), (none, some 173, 2)],
  [(none, some 171, 0), (none, some 206, 0), (none, some 215, 0), (none, some 225, 0), (none, some 236, 0), (none, some 237, 0), (some 84, none, 0), (some 90, none, 0)],
  [(none, some 175, 1), (none, some 175, 1), (none, some 180, 1), (none, some 180, 1), (none, some 182, 1), (none, some 182, 1), (none, some 183, 1), (none, some 183, 1)],
  [(none, some 176, 0), (none, some 177, 0), (none, some 179, 0), (none, some 209, 0), (none, some 216, 0), (none, some 217, 0), (none, some 227, 0), (none, some 229, 0)],
  [(none, some 178, 2), (none, some 178, 2), (none, some 178, 2), (none, some 178, 2), (none, some 181, 2), (none, some 181, 2), (none, some 181, 2), (none, some 181, 2)],
  [(none, some 185, 2), (none, some 185, 2), (none, some 185, 2), (none, some 185, 2), (none, some 186, 2), (none, some 186, 2), (none, some 186, 2), (none, some 186, 2)],
  [(none, some 187, 2), (none, some 187, 2), (none, some 187, 2), (none, some 187, 2), (none, some 189, 2), (none, some 189, 2), (none, some 189, 2), (none, some 189, 2)],
  [(none, some 188, 1), (none, some 188, 1), (none, some 191, 1), (none, some 191, 1), (none, some 197, 1), (none, some 197, 1), (none, some 231, 1), (none, some 231, 1)],
  [(none, some 190, 2), (none, some 190, 2), (none, some 190, 2), (none, some 190, 2), (none, some 196, 2), (none, some 196, 2), (none, some 196, 2), (none, some 196, 2)],
  [(none, some 192, 1), (none, some 192, 1), (none, some 193, 1), (none, some 193, 1), (none, some 200, 1), (none, some 200, 1), (none, some 201, 1), (none, some 201, 1)],
  [(none, some 198, 2), (none, some 198, 2), (none, some 198, 2), (none, some 198, 2), (none, some 228, 2), (none, some 228, 2), (none, some 228, 2), (none, some 228, 2)],
  [(none, some 199, 2), (none, some 199, 2), (none, some 199, 2), (none, some 199, 2), (none, some 207, 2), (none, some 207, 2), (none, some 207, 2), (none, some 207, 2)],
  [(none, some 202, 1), (none, some 202, 1), (none, some 205, 1), (none, some 205, 1), (none, some 210, 1), (none, some 210, 1), (none, some 213, 1), (none, some 213, 1)],
  [(none, some 242, 1), (none, some 242, 1), (none, some 243, 1), (none, some 243, 1), (none, some 255, 1), (none, some 255, 1), (none, some 203, 0), (none, some 204, 0)],
  [(none, some 211, 0), (none, some 212, 0), (none, some 214, 0), (none, some 221, 0), (none, some 222, 0), (none, some 223, 0), (none, some 241, 0), (none, some 244, 0)],
  [(none, some 218, 1), (none, some 218, 1), (none, some 219, 1), (none, some 219, 1), (none, some 238, 1), (none, some 238, 1), (none, some 240, 1), (none, some 240, 1)],
  [(none, some 232, 2), (none, some 232, 2), (none, some 232, 2), (none, some 232, 2), (none, some 233, 2), (none, some 233, 2), (none, some 233, 2), (none, some 233, 2)],
  [(none, some 234, 2), (none, some 234, 2), (none, some 234, 2), (none, some 234, 2), (none, some 235, 2), (none, some 235, 2), (none, some 235, 2), (none, some 235, 2)],
  [(none, some 245, 0), (none, some 246, 0), (none, some 247, 0), (none, some 248, 0), (none, some 250, 0), (none, some 251, 0), (none, some 252, 0), (none, some 253, 0)]]

end Verif.Huffman
