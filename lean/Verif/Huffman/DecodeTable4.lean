/-! Generated by tools/gen_huffman.py from /repo/huffman/src/decoder/table4.rs. Do not edit. -/
namespace Verif.Huffman

/-- `DECODE_TABLE`, /repo/huffman/src/decoder/table4.rs:3-976: rows of `(next_id, ascii, leftover)`. -/
def DECODE_TABLE4 : List (List (Option Nat × Option Nat × Nat)) := [
  [(some 15, none, 0), (some 16, none, 0), (some 26, none, 0), (some 28, none, 0), (some 30, none, 0), (some 12, none, 0), (some 14, none, 0), (some 17, none, 0), (some 19, none, 0), (some 27, none, 0), (some 29, none, 0), (some 18, none, 0), (some 21, none, 0), (some 22, none, 0), (some 23, none, 0), (some 1, none, 0)],
  [(none, some 119, 1), (none, some 119, 1), (none, some 120, 1), (none, some 120, 1), (none, some 121, 1), (none, some 121, 1), (none, some 122, 1), (none, some 122, 1), (none, some 38, 0), (none, some 42, 0), (none, some 44, 0), (none, some 59, 0), (none, some 88, 0), (none, some 90, 0), (some 13, none, 0), (some 2, none, 0)],
  [(none, some 63, 2), (none, some 63, 2), (none, some 63, 2), (none, some 63, 2), (none, some 39, 1), (none, some 39, 1), (none, some 43, 1), (none, some 43, 1), (none, some 124, 1), (none, some 124, 1), (none, some 35, 0), (none, some 62, 0), (some 3, none, 0), (some 20, none, 0), (some 25, none, 0), (some 4, none, 0)],
  [(none, some 0, 3), (none, some 0, 3), (none, some 0, 3), (none, some 0, 3), (none, some 0, 3), (none, some 0, 3), (none, some 0, 3), (none, some 0, 3), (none, some 36, 3), (none, some 36, 3), (none, some 36, 3), (none, some 36, 3), (none, some 36, 3), (none, some 36, 3), (none, some 36, 3), (none, some 36, 3)],
  [(none, some 94, 2), (none, some 94, 2), (none, some 94, 2), (none, some 94, 2), (none, some 125, 2), (none, some 125, 2), (none, some 125, 2), (none, some 125, 2), (none, some 60, 1), (none, some 60, 1), (none, some 96, 1), (none, some 96, 1), (none, some 123, 1), (none, some 123, 1), (some 24, none, 0), (some 5, none, 0)],
  [(some 39, none, 0), (some 41, none, 0), (some 49, none, 0), (some 51, none, 0), (some 31, none, 0), (some 32, none, 0), (some 35, none, 0), (some 36, none, 0), (some 40, none, 0), (some 42, none, 0), (some 44, none, 0), (some 6, none, 0), (some 33, none, 0), (some 37, none, 0), (some 9, none, 0), (some 7, none, 0)],
  [(none, some 1, 1), (none, some 1, 1), (none, some 135, 1), (none, some 135, 1), (none, some 137, 1), (none, some 137, 1), (none, some 138, 1), (none, some 138, 1), (none, some 139, 1), (none, some 139, 1), (none, some 140, 1), (none, some 140, 1), (none, some 141, 1), (none, some 141, 1), (none, some 143, 1), (none, some 143, 1)],
  [(none, some 171, 0), (none, some 206, 0), (none, some 215, 0), (none, some 225, 0), (none, some 236, 0), (none, some 237, 0), (some 45, none, 0), (some 52, none, 0), (some 43, none, 0), (some 46, none, 0), (some 50, none, 0), (some 47, none, 0), (some 48, none, 0), (some 53, none, 0), (some 8, none, 0), (some 10, none, 0)],
  [(none, some 254, 1), (none, some 254, 1), (none, some 2, 0), (none, some 3, 0), (none, some 4, 0), (none, some 5, 0), (none, some 6, 0), (none, some 7, 0), (none, some 8, 0), (none, some 11, 0), (none, some 12, 0), (none, some 14, 0), (none, some 15, 0), (none, some 16, 0), (none, some 17, 0), (none, some 18, 0)],
  [(none, some 188, 1), (none, some 188, 1), (none, some 191, 1), (none, some 191, 1), (none, some 197, 1), (none, some 197, 1), (none, some 231, 1), (none, some 231, 1), (none, some 239, 1), (none, some 239, 1), (none, some 9, 0), (none, some 142, 0), (none, some 144, 0), (none, some 145, 0), (none, some 148, 0), (none, some 159, 0)],
  [(none, some 19, 0), (none, some 20, 0), (none, some 21, 0), (none, some 23, 0), (none, some 24, 0), (none, some 25, 0), (none, some 26, 0), (none, some 27, 0), (none, some 28, 0), (none, some 29, 0), (none, some 30, 0), (none, some 31, 0), (none, some 127, 0), (none, some 220, 0), (none, some 249, 0), (some 11, none, 0)],
  [(none, some 10, 2), (none, some 10, 2), (none, some 10, 2), (none, some 10, 2), (none, some 13, 2), (none, some 13, 2), (none, some 13, 2), (none, some 13, 2), (none, some 22, 2), (none, some 22, 2), (none, some 22, 2), (none, some 22, 2), (none, some 256, 2), (none, some 256, 2), (none, some 256, 2), (none, some 256, 2)],
  [(none, some 32, 2), (none, some 32, 2), (none, some 32, 2), (none, some 32, 2), (none, some 37, 2), (none, some 37, 2), (none, some 37, 2), (none, some 37, 2), (none, some 45, 2), (none, some 45, 2), (none, some 45, 2), (none, some 45, 2), (none, some 46, 2), (none, some 46, 2), (none, some 46, 2), (none, some 46, 2)],
  [(none, some 33, 2), (none, some 33, 2), (none, some 33, 2), (none, some 33, 2), (none, some 34, 2), (none, some 34, 2), (none, some 34, 2), (none, some 34, 2), (none, some 40, 2), (none, some 40, 2), (none, some 40, 2), (none, some 40, 2), (none, some 41, 2), (none, some 41, 2), (none, some 41, 2), (none, some 41, 2)],
  [(none, some 47, 2), (none, some 47, 2), (none, some 47, 2), (none, some 47, 2), (none, some 51, 2), (none, some 51, 2), (none, some 51, 2), (none, some 51, 2), (none, some 52, 2), (none, some 52, 2), (none, some 52, 2), (none, some 52, 2), (none, some 53, 2), (none, some 53, 2), (none, some 53, 2), (none, some 53, 2)],
  [(none, some 48, 3), (none, some 48, 3), (none, some 48, 3), (none, some 48, 3), (none, some 48, 3), (none, some 48, 3), (none, some 48, 3), (none, some 48, 3), (none, some 49, 3), (none, some 49, 3), (none, some 49, 3), (none, some 49, 3), (none, some 49, 3), (none, some 49, 3), (none, some 49, 3), (none, some 49, 3)],
  [(none, some 50, 3), (none, some 50, 3), (none, some 50, 3), (none, some 50, 3), (none, some 50, 3), (none, some 50, 3), (none, some 50, 3), (none, some 50, 3), (none, some 97, 3), (none, some 97, 3), (none, some 97, 3), (none, some 97, 3), (none, some 97, 3), (none, some 97, 3), (none, some 97, 3), (none, some 97, 3)],
  [(none, some 54, 2), (none, some 54, 2), (none, some 54, 2), (none, some 54, 2), (none, some 55, 2), (none, some 55, 2), (none, some 55, 2), (none, some 55, 2), (none, some 56, 2), (none, some 56, 2), (none, some 56, 2), (none, some 56, 2), (none, some 57, 2), (none, some 57, 2), (none, some 57, 2), (none, some 57, 2)],
  [(none, some 114, 2), (none, some 114, 2), (none, some 114, 2), (none, some 114, 2), (none, some 117, 2), (none, some 117, 2), (none, some 117, 2), (none, some 117, 2), (none, some 58, 1), (none, some 58, 1), (none, some 66, 1), (none, some 66, 1), (none, some 67, 1), (none, some 67, 1), (none, some 68, 1), (none, some 68, 1)],
  [(none, some 61, 2), (none, some 61, 2), (none, some 61, 2), (none, some 61, 2), (none, some 65, 2), (none, some 65, 2), (none, some 65, 2), (none, some 65, 2), (none, some 95, 2), (none, some 95, 2), (none, some 95, 2), (none, some 95, 2), (none, some 98, 2), (none, some 98, 2), (none, some 98, 2), (none, some 98, 2)],
  [(none, some 64, 3), (none, some 64, 3), (none, some 64, 3), (none, some 64, 3), (none, some 64, 3), (none, some 64, 3), (none, some 64, 3), (none, some 64, 3), (none, some 91, 3), (none, some 91, 3), (none, some 91, 3), (none, some 91, 3), (none, some 91, 3), (none, some 91, 3), (none, some 91, 3), (none, some 91, 3)],
  [(none, some 69, 1), (none, some 69, 1), (none, some 70, 1), (none, some 70, 1), (none, some 71, 1), (none, some 71, 1), (none, some 72, 1), (none, some 72, 1), (none, some 73, 1), (none, some 73, 1), (none, some 74, 1), (none, some 74, 1), (none, some 75, 1), (none, some 75, 1), (none, some 76, 1), (none, some 76, 1)],
  [(none, some 77, 1), (none, some 77, 1), (none, some 78, 1), (none, some 78, 1), (none, some 79, 1), (none, some 79, 1), (none, some 80, 1), (none, some 80, 1), (none, some 81, 1), (none, some 81, 1), (none, some 82, 1), (none, some 82, 1), (none, some 83, 1), (none, some 83, 1), (none, some 84, 1), (none, some 84, 1)],
  [(none, some 85, 1), (none, some 85, 1), (none, some 86, 1), (none, some 86, 1), (none, some 87, 1), (none, some 87, 1), (none, some 89, 1), (none, some 89, 1), (none, some 106, 1), (none, some 106, 1), (none, some 107, 1), (none, some 107, 1), (none, some 113, 1), (none, some 113, 1), (none, some 118, 1), (none, some 118, 1)],
  [(none, some 92, 1), (none, some 92, 1), (none, some 195, 1), (none, some 195, 1), (none, some 208, 1), (none, some 208, 1), (none, some 128, 0), (none, some 130, 0), (none, some 131, 0), (none, some 162, 0), (none, some 184, 0), (none, some 194, 0), (none, some 224, 0), (none, some 226, 0), (some 34, none, 0), (some 38, none, 0)],
  [(none, some 93, 3), (none, some 93, 3), (none, some 93, 3), (none, some 93, 3), (none, some 93, 3), (none, some 93, 3), (none, some 93, 3), (none, some 93, 3), (none, some 126, 3), (none, some 126, 3), (none, some 126, 3), (none, some 126, 3), (none, some 126, 3), (none, some 126, 3), (none, some 126, 3), (none, some 126, 3)],
  [(none, some 99, 3), (none, some 99, 3), (none, some 99, 3), (none, some 99, 3), (none, some 99, 3), (none, some 99, 3), (none, some 99, 3), (none, some 99, 3), (none, some 101, 3), (none, some 101, 3), (none, some 101, 3), (none, some 101, 3), (none, some 101, 3), (none, some 101, 3), (none, some 101, 3), (none, some 101, 3)],
  [(none, some 100, 2), (none, some 100, 2), (none, some 100, 2), (none, some 100, 2), (none, some 102, 2), (none, some 102, 2), (none, some 102, 2), (none, some 102, 2), (none, some 103, 2), (none, some 103, 2), (none, some 103, 2), (none, some 103, 2), (none, some 104, 2), (none, some 104, 2), (none, some 104, 2), (none, some 104, 2)],
  [(none, some 105, 3), (none, some 105, 3), (none, some 105, 3), (none, some 105, 3), (none, some 105, 3), (none, some 105, 3), (none, some 105, 3), (none, some 105, 3), (none, some 111, 3), (none, some 111, 3), (none, some 111, 3), (none, some 111, 3), (none, some 111, 3), (none, some 111, 3), (none, some 111, 3), (none, some 111, 3)],
  [(none, some 108, 2), (none, some 108, 2), (none, some 108, 2), (none, some 108, 2), (none, some 109, 2), (none, some 109, 2), (none, some 109, 2), (none, some 109, 2), (none, some 110, 2), (none, some 110, 2), (none, some 110, 2), (none, some 110, 2), (none, some 112, 2), (none, some 112, 2), (none, some 112, 2), (none, some 112, 2)],
  [(none, some 115, 3), (none, some 115, 3), (none, some 115, 3), (none, some 115, 3), (none, some 115, 3), (none, some 115, 3), (none, some 115, 3), (none, some 115, 3), (none, some 116, 3), (none, some 116, 3), (none, some 116, 3), (none, some 116, 3), (none, some 116, 3), (none, some 116, 3), (none, some 116, 3), (none, some 116, 3)],
  [(none, some 230, 3), (none, some 230, 3), (none, some 230, 3), (none, some 230, 3), (none, some 230, 3), (none, some 230, 3), (none, some 230, 3), (none, some 230, 3), (none, some 129, 2), (none, some 129, 2), (none, some 129, 2), (none, some 129, 2), (none, some 132, 2), (none, some 132, 2), (none, some 132, 2), (none, some 132, 2)],
  [(none, some 133, 2), (none, some 133, 2), (none, some 133, 2), (none, some 133, 2), (none, some 134, 2), (none, some 134, 2), (none, some 134, 2), (none, some 134, 2), (none, some 136, 2), (none, some 136, 2), (none, some 136, 2), (none, some 136, 2), (none, some 146, 2), (none, some 146, 2), (none, some 146, 2), (none, some 146, 2)],
  [(none, some 147, 1), (none, some 147, 1), (none, some 149, 1), (none, some 149, 1), (none, some 150, 1), (none, some 150, 1), (none, some 151, 1), (none, some 151, 1), (none, some 152, 1), (none, some 152, 1), (none, some 155, 1), (none, some 155, 1), (none, some 157, 1), (none, some 157, 1), (none, some 158, 1), (none, some 158, 1)],
  [(none, some 153, 3), (none, some 153, 3), (none, some 153, 3), (none, some 153, 3), (none, some 153, 3), (none, some 153, 3), (none, some 153, 3), (none, some 153, 3), (none, some 161, 3), (none, some 161, 3), (none, some 161, 3), (none, some 161, 3), (none, some 161, 3), (none, some 161, 3), (none, some 161, 3), (none, some 161, 3)],
  [(none, some 154, 2), (none, some 154, 2), (none, some 154, 2), (none, some 154, 2), (none, some 156, 2), (none, some 156, 2), (none, some 156, 2), (none, some 156, 2), (none, some 160, 2), (none, some 160, 2), (none, some 160, 2), (none, some 160, 2), (none, some 163, 2), (none, some 163, 2), (none, some 163, 2), (none, some 163, 2)],
  [(none, some 164, 2), (none, some 164, 2), (none, some 164, 2), (none, some 164, 2), (none, some 169, 2), (none, some 169, 2), (none, some 169, 2), (none, some 169, 2), (none, some 170, 2), (none, some 170, 2), (none, some 170, 2), (none, some 170, 2), (none, some 173, 2), (none, some 173, 2), (none, some 173, 2), (none, some 173, 2)],
  [(none, some 165, 1), (none, some 165, 1), (none, some 166, 1), (none, some 166, 1), (none, some 168, 1), (none, some 168, 1), (none, some 174, 1), (none, some 174, 1), (none, some 175, 1), (none, some 175, 1), (none, some 180, 1), (none, some 180, 1), (none, some 182, 1), (none, some 182, 1), (none, some 183, 1), (none, some 183, 1)],
  [(none, some 167, 3), (none, some 167, 3), (none, some 167, 3), (none, some 167, 3), (none, some 167, 3), (none, some 167, 3), (none, some 167, 3), (none, some 167, 3), (none, some 172, 3), (none, some 172, 3), (none, some 172, 3), (none, some 172, 3), (none, some 172, 3), (none, some 172, 3), (none, some 172, 3), (none, some 172, 3)],
  [(none, some 176, 3), (none, some 176, 3), (none, some 176, 3), (none, some 176, 3), (none, some 176, 3), (none, some 176, 3), (none, some 176, 3), (none, some 176, 3), (none, some 177, 3), (none, some 177, 3), (none, some 177, 3), (none, some 177, 3), (none, some 177, 3), (none, some 177, 3), (none, some 177, 3), (none, some 177, 3)],
  [(none, some 178, 2), (none, some 178, 2), (none, some 178, 2), (none, some 178, 2), (none, some 181, 2), (none, some 181, 2), (none, some 181, 2), (none, some 181, 2), (none, some 185, 2), (none, some 185, 2), (none, some 185, 2), (none, some 185, 2), (none, some 186, 2), (none, some 186, 2), (none, some 186, 2), (none, some 186, 2)],
  [(none, some 179, 3), (none, some 179, 3), (none, some 179, 3), (none, some 179, 3), (none, some 179, 3), (none, some 179, 3), (none, some 179, 3), (none, some 179, 3), (none, some 209, 3), (none, some 209, 3), (none, some 209, 3), (none, some 209, 3), (none, some 209, 3), (none, some 209, 3), (none, some 209, 3), (none, some 209, 3)],
  [(none, some 187, 2), (none, some 187, 2), (none, some 187, 2), (none, some 187, 2), (none, some 189, 2), (none, some 189, 2), (none, some 189, 2), (none, some 189, 2), (none, some 190, 2), (none, some 190, 2), (none, some 190, 2), (none, some 190, 2), (none, some 196, 2), (none, some 196, 2), (none, some 196, 2), (none, some 196, 2)],
  [(none, some 192, 2), (none, some 192, 2), (none, some 192, 2), (none, some 192, 2), (none, some 193, 2), (none, some 193, 2), (none, some 193, 2), (none, some 193, 2), (none, some 200, 2), (none, some 200, 2), (none, some 200, 2), (none, some 200, 2), (none, some 201, 2), (none, some 201, 2), (none, some 201, 2), (none, some 201, 2)],
  [(none, some 198, 2), (none, some 198, 2), (none, some 198, 2), (none, some 198, 2), (none, some 228, 2), (none, some 228, 2), (none, some 228, 2), (none, some 228, 2), (none, some 232, 2), (none, some 232, 2), (none, some 232, 2), (none, some 232, 2), (none, some 233, 2), (none, some 233, 2), (none, some 233, 2), (none, some 233, 2)],
  [(none, some 199, 3), (none, some 199, 3), (none, some 199, 3), (none, some 199, 3), (none, some 199, 3), (none, some 199, 3), (none, some 199, 3), (none, some 199, 3), (none, some 207, 3), (none, some 207, 3), (none, some 207, 3), (none, some 207, 3), (none, some 207, 3), (none, some 207, 3), (none, some 207, 3), (none, some 207, 3)],
  [(none, some 202, 2), (none, some 202, 2), (none, some 202, 2), (none, some 202, 2), (none, some 205, 2), (none, some 205, 2), (none, some 205, 2), (none, some 205, 2), (none, some 210, 2), (none, some 210, 2), (none, some 210, 2), (none, some 210, 2), (none, some 213, 2), (none, some 213, 2), (none, some 213, 2), (none, some 213, 2)],
  [(none, some 242, 2), (none, some 242, 2), (none, some 242, 2), (none, some 242, 2), (none, some 243, 2), (none, some 243, 2), (none, some 243, 2), (none, some 243, 2), (none, some 255, 2), (none, some 255, 2), (none, some 255, 2), (none, some 255, 2), (none, some 203, 1), (none, some 203, 1), (none, some 204, 1), (none, some 204, 1)],
  [(none, some 211, 1), (none, some 211, 1), (none, some 212, 1), (none, some 212, 1), (none, some 214, 1), (none, some 214, 1), (none, some 221, 1), (none, some 221, 1), (none, some 222, 1), (none, some 222, 1), (none, some 223, 1), (none, some 223, 1), (none, some 241, 1), (none, some 241, 1), (none, some 244, 1), (none, some 244, 1)],
  [(none, some 216, 3), (none, some 216, 3), (none, some 216, 3), (none, some 216, 3), (none, some 216, 3), (none, some 216, 3), (none, some 216, 3), (none, some 216, 3), (none, some 217, 3), (none, some 217, 3), (none, some 217, 3), (none, some 217, 3), (none, some 217, 3), (none, some 217, 3), (none, some 217, 3), (none, some 217, 3)],
  [(none, some 218, 2), (none, some 218, 2), (none, some 218, 2), (none, some 218, 2), (none, some 219, 2), (none, some 219, 2), (none, some 219, 2), (none, some 219, 2), (none, some 238, 2), (none, some 238, 2), (none, some 238, 2), (none, some 238, 2), (none, some 240, 2), (none, some 240, 2), (none, some 240, 2), (none, some 240, 2)],
  [(none, some 227, 3), (none, some 227, 3), (none, some 227, 3), (none, some 227, 3), (none, some 227, 3), (none, some 227, 3), (none, some 227, 3), (none, some 227, 3), (none, some 229, 3), (none, some 229, 3), (none, some 229, 3), (none, some 229, 3), (none, some 229, 3), (none, some 229, 3), (none, some 229, 3), (none, some 229, 3)],
  [(none, some 234, 3), (none, some 234, 3), (none, some 234, 3), (none, some 234, 3), (none, some 234, 3), (none, some 234, 3), (none, some 234, 3), (none, some 234, 3), (none, some 235, 3), (none, some 235, 3), (none, some 235, 3), (none, some 235, 3), (none, some 235, 3), (none, some 235, 3), (none, some 235, 3), (none, some 235, 3)],
  [(none, some 245, 1), (none, some 245, 1), (none, some 246, 1), (none, some 246, 1), (none, some 247, 1), (none, some 247, 1), (none, some 248, 1), (none, some 248, 1), (none, some 250, 1), (none, some 250, 1), (none, some 251, 1), (none, some 251, 1), (none, some 252, 1), (none, some 252, 1), (none, some 253, 1), (none, some 253, 1)]]

end Verif.Huffman
