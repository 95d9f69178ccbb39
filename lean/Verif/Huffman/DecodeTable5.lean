/-! Generated by tools/gen_huffman.py from /repo/huffman/src/decoder/table5.rs. Do not edit. -/
namespace Verif.Huffman

/-- `DECODE_TABLE`, /repo/huffman/src/decoder/table5.rs:3-2078: rows of `(next_id, ascii, leftover)`. -/
def DECODE_TABLE5 : List (List (Option Nat × Option Nat × Nat)) := [
  [(none, some 48, 0), (none, some 49, 0), (none, some 50, 0), (none, some 97, 0), (none, some 99, 0), (none, some 101, 0), (none, some 105, 0), (none, some 111, 0), (none, some 115, 0), (none, some 116, 0), (some 11, none, 0), (some 14, none, 0), (some 15, none, 0), (some 16, none, 0), (some 17, none, 0), (some 18, none, 0), (some 20, none, 0), (some 26, none, 0), (some 27, none, 0), (some 28, none, 0), (some 30, none, 0), (some 31, none, 0), (some 32, none, 0), (some 19, none, 0), (some 21, none, 0), (some 22, none, 0), (some 23, none, 0), (some 24, none, 0), (some 25, none, 0), (some 29, none, 0), (some 33, none, 0), (some 1, none, 0)],
  [(none, some 38, 2), (none, some 38, 2), (none, some 38, 2), (none, some 38, 2), (none, some 42, 2), (none, some 42, 2), (none, some 42, 2), (none, some 42, 2), (none, some 44, 2), (none, some 44, 2), (none, some 44, 2), (none, some 44, 2), (none, some 59, 2), (none, some 59, 2), (none, some 59, 2), (none, some 59, 2), (none, some 88, 2), (none, some 88, 2), (none, some 88, 2), (none, some 88, 2), (none, some 90, 2), (none, some 90, 2), (none, some 90, 2), (none, some 90, 2), (none, some 33, 0), (none, some 34, 0), (none, some 40, 0), (none, some 41, 0), (none, some 63, 0), (some 13, none, 0), (some 12, none, 0), (some 2, none, 0)],
  [(none, some 0, 2), (none, some 0, 2), (none, some 0, 2), (none, some 0, 2), (none, some 36, 2), (none, some 36, 2), (none, some 36, 2), (none, some 36, 2), (none, some 64, 2), (none, some 64, 2), (none, some 64, 2), (none, some 64, 2), (none, some 91, 2), (none, some 91, 2), (none, some 91, 2), (none, some 91, 2), (none, some 93, 2), (none, some 93, 2), (none, some 93, 2), (none, some 93, 2), (none, some 126, 2), (none, some 126, 2), (none, some 126, 2), (none, some 126, 2), (none, some 94, 1), (none, some 94, 1), (none, some 125, 1), (none, some 125, 1), (none, some 60, 0), (none, some 96, 0), (none, some 123, 0), (some 3, none, 0)],
  [(none, some 92, 1), (none, some 92, 1), (none, some 195, 1), (none, some 195, 1), (none, some 208, 1), (none, some 208, 1), (none, some 128, 0), (none, some 130, 0), (none, some 131, 0), (none, some 162, 0), (none, some 184, 0), (none, some 194, 0), (none, some 224, 0), (none, some 226, 0), (some 37, none, 0), (some 41, none, 0), (some 42, none, 0), (some 44, none, 0), (some 53, none, 0), (some 56, none, 0), (some 34, none, 0), (some 35, none, 0), (some 38, none, 0), (some 39, none, 0), (some 43, none, 0), (some 45, none, 0), (some 47, none, 0), (some 4, none, 0), (some 36, none, 0), (some 40, none, 0), (some 8, none, 0), (some 5, none, 0)],
  [(none, some 1, 2), (none, some 1, 2), (none, some 1, 2), (none, some 1, 2), (none, some 135, 2), (none, some 135, 2), (none, some 135, 2), (none, some 135, 2), (none, some 137, 2), (none, some 137, 2), (none, some 137, 2), (none, some 137, 2), (none, some 138, 2), (none, some 138, 2), (none, some 138, 2), (none, some 138, 2), (none, some 139, 2), (none, some 139, 2), (none, some 139, 2), (none, some 139, 2), (none, some 140, 2), (none, some 140, 2), (none, some 140, 2), (none, some 140, 2), (none, some 141, 2), (none, some 141, 2), (none, some 141, 2), (none, some 141, 2), (none, some 143, 2), (none, some 143, 2), (none, some 143, 2), (none, some 143, 2)],
  [(none, some 171, 1), (none, some 171, 1), (none, some 206, 1), (none, some 206, 1), (none, some 215, 1), (none, some 215, 1), (none, some 225, 1), (none, some 225, 1), (none, some 236, 1), (none, some 236, 1), (none, some 237, 1), (none, some 237, 1), (none, some 199, 0), (none, some 207, 0), (none, some 234, 0), (none, some 235, 0), (some 46, none, 0), (some 48, none, 0), (some 49, none, 0), (some 51, none, 0), (some 54, none, 0), (some 57, none, 0), (some 58, none, 0), (some 50, none, 0), (some 52, none, 0), (some 55, none, 0), (some 59, none, 0), (some 60, none, 0), (some 6, none, 0), (some 7, none, 0), (some 10, none, 0), (some 9, none, 0)],
  [(none, some 254, 3), (none, some 254, 3), (none, some 254, 3), (none, some 254, 3), (none, some 254, 3), (none, some 254, 3), (none, some 254, 3), (none, some 254, 3), (none, some 2, 2), (none, some 2, 2), (none, some 2, 2), (none, some 2, 2), (none, some 3, 2), (none, some 3, 2), (none, some 3, 2), (none, some 3, 2), (none, some 4, 2), (none, some 4, 2), (none, some 4, 2), (none, some 4, 2), (none, some 5, 2), (none, some 5, 2), (none, some 5, 2), (none, some 5, 2), (none, some 6, 2), (none, some 6, 2), (none, some 6, 2), (none, some 6, 2), (none, some 7, 2), (none, some 7, 2), (none, some 7, 2), (none, some 7, 2)],
  [(none, some 8, 2), (none, some 8, 2), (none, some 8, 2), (none, some 8, 2), (none, some 11, 2), (none, some 11, 2), (none, some 11, 2), (none, some 11, 2), (none, some 12, 2), (none, some 12, 2), (none, some 12, 2), (none, some 12, 2), (none, some 14, 2), (none, some 14, 2), (none, some 14, 2), (none, some 14, 2), (none, some 15, 2), (none, some 15, 2), (none, some 15, 2), (none, some 15, 2), (none, some 16, 2), (none, some 16, 2), (none, some 16, 2), (none, some 16, 2), (none, some 17, 2), (none, some 17, 2), (none, some 17, 2), (none, some 17, 2), (none, some 18, 2), (none, some 18, 2), (none, some 18, 2), (none, some 18, 2)],
  [(none, some 188, 2), (none, some 188, 2), (none, some 188, 2), (none, some 188, 2), (none, some 191, 2), (none, some 191, 2), (none, some 191, 2), (none, some 191, 2), (none, some 197, 2), (none, some 197, 2), (none, some 197, 2), (none, some 197, 2), (none, some 231, 2), (none, some 231, 2), (none, some 231, 2), (none, some 231, 2), (none, some 239, 2), (none, some 239, 2), (none, some 239, 2), (none, some 239, 2), (none, some 9, 1), (none, some 9, 1), (none, some 142, 1), (none, some 142, 1), (none, some 144, 1), (none, some 144, 1), (none, some 145, 1), (none, some 145, 1), (none, some 148, 1), (none, some 148, 1), (none, some 159, 1), (none, some 159, 1)],
  [(none, some 28, 2), (none, some 28, 2), (none, some 28, 2), (none, some 28, 2), (none, some 29, 2), (none, some 29, 2), (none, some 29, 2), (none, some 29, 2), (none, some 30, 2), (none, some 30, 2), (none, some 30, 2), (none, some 30, 2), (none, some 31, 2), (none, some 31, 2), (none, some 31, 2), (none, some 31, 2), (none, some 127, 2), (none, some 127, 2), (none, some 127, 2), (none, some 127, 2), (none, some 220, 2), (none, some 220, 2), (none, some 220, 2), (none, some 220, 2), (none, some 249, 2), (none, some 249, 2), (none, some 249, 2), (none, some 249, 2), (none, some 10, 0), (none, some 13, 0), (none, some 22, 0), (none, some 256, 0)],
  [(none, some 19, 2), (none, some 19, 2), (none, some 19, 2), (none, some 19, 2), (none, some 20, 2), (none, some 20, 2), (none, some 20, 2), (none, some 20, 2), (none, some 21, 2), (none, some 21, 2), (none, some 21, 2), (none, some 21, 2), (none, some 23, 2), (none, some 23, 2), (none, some 23, 2), (none, some 23, 2), (none, some 24, 2), (none, some 24, 2), (none, some 24, 2), (none, some 24, 2), (none, some 25, 2), (none, some 25, 2), (none, some 25, 2), (none, some 25, 2), (none, some 26, 2), (none, some 26, 2), (none, some 26, 2), (none, some 26, 2), (none, some 27, 2), (none, some 27, 2), (none, some 27, 2), (none, some 27, 2)],
  [(none, some 32, 4), (none, some 32, 4), (none, some 32, 4), (none, some 32, 4), (none, some 32, 4), (none, some 32, 4), (none, some 32, 4), (none, some 32, 4), (none, some 32, 4), (none, some 32, 4), (none, some 32, 4), (none, some 32, 4), (none, some 32, 4), (none, some 32, 4), (none, some 32, 4), (none, some 32, 4), (none, some 37, 4), (none, some 37, 4), (none, some 37, 4), (none, some 37, 4), (none, some 37, 4), (none, some 37, 4), (none, some 37, 4), (none, some 37, 4), (none, some 37, 4), (none, some 37, 4), (none, some 37, 4), (none, some 37, 4), (none, some 37, 4), (none, some 37, 4), (none, some 37, 4), (none, some 37, 4)],
  [(none, some 124, 4), (none, some 124, 4), (none, some 124, 4), (none, some 124, 4), (none, some 124, 4), (none, some 124, 4), (none, some 124, 4), (none, some 124, 4), (none, some 124, 4), (none, some 124, 4), (none, some 124, 4), (none, some 124, 4), (none, some 124, 4), (none, some 124, 4), (none, some 124, 4), (none, some 124, 4), (none, some 35, 3), (none, some 35, 3), (none, some 35, 3), (none, some 35, 3), (none, some 35, 3), (none, some 35, 3), (none, some 35, 3), (none, some 35, 3), (none, some 62, 3), (none, some 62, 3), (none, some 62, 3), (none, some 62, 3), (none, some 62, 3), (none, some 62, 3), (none, some 62, 3), (none, some 62, 3)],
  [(none, some 39, 4), (none, some 39, 4), (none, some 39, 4), (none, some 39, 4), (none, some 39, 4), (none, some 39, 4), (none, some 39, 4), (none, some 39, 4), (none, some 39, 4), (none, some 39, 4), (none, some 39, 4), (none, some 39, 4), (none, some 39, 4), (none, some 39, 4), (none, some 39, 4), (none, some 39, 4), (none, some 43, 4), (none, some 43, 4), (none, some 43, 4), (none, some 43, 4), (none, some 43, 4), (none, some 43, 4), (none, some 43, 4), (none, some 43, 4), (none, some 43, 4), (none, some 43, 4), (none, some 43, 4), (none, some 43, 4), (none, some 43, 4), (none, some 43, 4), (none, some 43, 4), (none, some 43, 4)],
  [(none, some 45, 4), (none, some 45, 4), (none, some 45, 4), (none, some 45, 4), (none, some 45, 4), (none, some 45, 4), (none, some 45, 4), (none, some 45, 4), (none, some 45, 4), (none, some 45, 4), (none, some 45, 4), (none, some 45, 4), (none, some 45, 4), (none, some 45, 4), (none, some 45, 4), (none, some 45, 4), (none, some 46, 4), (none, some 46, 4), (none, some 46, 4), (none, some 46, 4), (none, some 46, 4), (none, some 46, 4), (none, some 46, 4), (none, some 46, 4), (none, some 46, 4), (none, some 46, 4), (none, some 46, 4), (none, some 46, 4), (none, some 46, 4), (none, some 46, 4), (none, some 46, 4), (none, some 46, 4)],
  [(none, some 47, 4), (none, some 47, 4), (none, some 47, 4), (none, some 47, 4), (none, some 47, 4), (none, some 47, 4), (none, some 47, 4), (none, some 47, 4), (none, some 47, 4), (none, some 47, 4), (none, some 47, 4), (none, some 47, 4), (none, some 47, 4), (none, some 47, 4), (none, some 47, 4), (none, some 47, 4), (none, some 51, 4), (none, some 51, 4), (none, some 51, 4), (none, some 51, 4), (none, some 51, 4), (none, some 51, 4), (none, some 51, 4), (none, some 51, 4), (none, some 51, 4), (none, some 51, 4), (none, some 51, 4), (none, some 51, 4), (none, some 51, 4), (none, some 51, 4), (none, some 51, 4), (none, some 51, 4)],
  [(none, some 52, 4), (none, some 52, 4), (none, some 52, 4), (none, some 52, 4), (none, some 52, 4), (none, some 52, 4), (none, some 52, 4), (none, some 52, 4), (none, some 52, 4), (none, some 52, 4), (none, some 52, 4), (none, some 52, 4), (none, some 52, 4), (none, some 52, 4), (none, some 52, 4), (none, some 52, 4), (none, some 53, 4), (none, some 53, 4), (none, some 53, 4), (none, some 53, 4), (none, some 53, 4), (none, some 53, 4), (none, some 53, 4), (none, some 53, 4), (none, some 53, 4), (none, some 53, 4), (none, some 53, 4), (none, some 53, 4), (none, some 53, 4), (none, some 53, 4), (none, some 53, 4), (none, some 53, 4)],
  [(none, some 54, 4), (none, some 54, 4), (none, some 54, 4), (none, some 54, 4), (none, some 54, 4), (none, some 54, 4), (none, some 54, 4), (none, some 54, 4), (none, some 54, 4), (none, some 54, 4), (none, some 54, 4), (none, some 54, 4), (none, some 54, 4), (none, some 54, 4), (none, some 54, 4), (none, some 54, 4), (none, some 55, 4), (none, some 55, 4), (none, some 55, 4), (none, some 55, 4), (none, some 55, 4), (none, some 55, 4), (none, some 55, 4), (none, some 55, 4), (none, some 55, 4), (none, some 55, 4), (none, some 55, 4), (none, some 55, 4), (none, some 55, 4), (none, some 55, 4), (none, some 55, 4), (none, some 55, 4)],
  [(none, some 56, 4), (none, some 56, 4), (none, some 56, 4), (none, some 56, 4), (none, some 56, 4), (none, some 56, 4), (none, some 56, 4), (none, some 56, 4), (none, some 56, 4), (none, some 56, 4), (none, some 56, 4), (none, some 56, 4), (none, some 56, 4), (none, some 56, 4), (none, some 56, 4), (none, some 56, 4), (none, some 57, 4), (none, some 57, 4), (none, some 57, 4), (none, some 57, 4), (none, some 57, 4), (none, some 57, 4), (none, some 57, 4), (none, some 57, 4), (none, some 57, 4), (none, some 57, 4), (none, some 57, 4), (none, some 57, 4), (none, some 57, 4), (none, some 57, 4), (none, some 57, 4), (none, some 57, 4)],
  [(none, some 58, 3), (none, some 58, 3), (none, some 58, 3), (none, some 58, 3), (none, some 58, 3), (none, some 58, 3), (none, some 58, 3), (none, some 58, 3), (none, some 66, 3), (none, some 66, 3), (none, some 66, 3), (none, some 66, 3), (none, some 66, 3), (none, some 66, 3), (none, some 66, 3), (none, some 66, 3), (none, some 67, 3), (none, some 67, 3), (none, some 67, 3), (none, some 67, 3), (none, some 67, 3), (none, some 67, 3), (none, some 67, 3), (none, some 67, 3), (none, some 68, 3), (none, some 68, 3), (none, some 68, 3), (none, some 68, 3), (none, some 68, 3), (none, some 68, 3), (none, some 68, 3), (none, some 68, 3)],
  [(none, some 61, 4), (none, some 61, 4), (none, some 61, 4), (none, some 61, 4), (none, some 61, 4), (none, some 61, 4), (none, some 61, 4), (none, some 61, 4), (none, some 61, 4), (none, some 61, 4), (none, some 61, 4), (none, some 61, 4), (none, some 61, 4), (none, some 61, 4), (none, some 61, 4), (none, some 61, 4), (none, some 65, 4), (none, some 65, 4), (none, some 65, 4), (none, some 65, 4), (none, some 65, 4), (none, some 65, 4), (none, some 65, 4), (none, some 65, 4), (none, some 65, 4), (none, some 65, 4), (none, some 65, 4), (none, some 65, 4), (none, some 65, 4), (none, some 65, 4), (none, some 65, 4), (none, some 65, 4)],
  [(none, some 69, 3), (none, some 69, 3), (none, some 69, 3), (none, some 69, 3), (none, some 69, 3), (none, some 69, 3), (none, some 69, 3), (none, some 69, 3), (none, some 70, 3), (none, some 70, 3), (none, some 70, 3), (none, some 70, 3), (none, some 70, 3), (none, some 70, 3), (none, some 70, 3), (none, some 70, 3), (none, some 71, 3), (none, some 71, 3), (none, some 71, 3), (none, some 71, 3), (none, some 71, 3), (none, some 71, 3), (none, some 71, 3), (none, some 71, 3), (none, some 72, 3), (none, some 72, 3), (none, some 72, 3), (none, some 72, 3), (none, some 72, 3), (none, some 72, 3), (none, some 72, 3), (none, some 72, 3)],
  [(none, some 73, 3), (none, some 73, 3), (none, some 73, 3), (none, some 73, 3), (none, some 73, 3), (none, some 73, 3), (none, some 73, 3), (none, some 73, 3), (none, some 74, 3), (none, some 74, 3), (none, some 74, 3), (none, some 74, 3), (none, some 74, 3), (none, some 74, 3), (none, some 74, 3), (none, some 74, 3), (none, some 75, 3), (none, some 75, 3), (none, some 75, 3), (none, some 75, 3), (none, some 75, 3), (none, some 75, 3), (none, some 75, 3), (none, some 75, 3), (none, some 76, 3), (none, some 76, 3), (none, some 76, 3), (none, some 76, 3), (none, some 76, 3), (none, some 76, 3), (none, some 76, 3), (none, some 76, 3)],
  [(none, some 77, 3), (none, some 77, 3), (none, some 77, 3), (none, some 77, 3), (none, some 77, 3), (none, some 77, 3), (none, some 77, 3), (none, some 77, 3), (none, some 78, 3), (none, some 78, 3), (none, some 78, 3), (none, some 78, 3), (none, some 78, 3), (none, some 78, 3), (none, some 78, 3), (none, some 78, 3), (none, some 79, 3), (none, some 79, 3), (none, some 79, 3), (none, some 79, 3), (none, some 79, 3), (none, some 79, 3), (none, some 79, 3), (none, some 79, 3), (none, some 80, 3), (none, some 80, 3), (none, some 80, 3), (none, some 80, 3), (none, some 80, 3), (none, some 80, 3), (none, some 80, 3), (none, some 80, 3)],
  [(none, some 81, 3), (none, some 81, 3), (none, some 81, 3), (none, some 81, 3), (none, some 81, 3), (none, some 81, 3), (none, some 81, 3), (none, some 81, 3), (none, some 82, 3), (none, some 82, 3), (none, some 82, 3), (none, some 82, 3), (none, some 82, 3), (none, some 82, 3), (none, some 82, 3), (none, some 82, 3), (none, some 83, 3), (none, some 83, 3), (none, some 83, 3), (none, some 83, 3), (none, some 83, 3), (none, some 83, 3), (none, some 83, 3), (none, some 83, 3), (none, some 84, 3), (none, some 84, 3), (none, some 84, 3), (none, some 84, 3), (none, some 84, 3), (none, some 84, 3), (none, some 84, 3), (none, some 84, 3)],
  [(none, some 85, 3), (none, some 85, 3), (none, some 85, 3), (none, some 85, 3), (none, some 85, 3), (none, some 85, 3), (none, some 85, 3), (none, some 85, 3), (none, some 86, 3), (none, some 86, 3), (none, some 86, 3), (none, some 86, 3), (none, some 86, 3), (none, some 86, 3), (none, some 86, 3), (none, some 86, 3), (none, some 87, 3), (none, some 87, 3), (none, some 87, 3), (none, some 87, 3), (none, some 87, 3), (none, some 87, 3), (none, some 87, 3), (none, some 87, 3), (none, some 89, 3), (none, some 89, 3), (none, some 89, 3), (none, some 89, 3), (none, some 89, 3), (none, some 89, 3), (none, some 89, 3), (none, some 89, 3)],
  [(none, some 95, 4), (none, some 95, 4), (none, some 95, 4), (none, some 95, 4), (none, some 95, 4), (none, some 95, 4), (none, some 95, 4), (none, some 95, 4), (none, some 95, 4), (none, some 95, 4), (none, some 95, 4), (none, some 95, 4), (none, some 95, 4), (none, some 95, 4), (none, some 95, 4), (none, some 95, 4), (none, some 98, 4), (none, some 98, 4), (none, some 98, 4), (none, some 98, 4), (none, some 98, 4), (none, some 98, 4), (none, some 98, 4), (none, some 98, 4), (none, some 98, 4), (none, some 98, 4), (none, some 98, 4), (none, some 98, 4), (none, some 98, 4), (none, some 98, 4), (none, some 98, 4), (none, some 98, 4)],
  [(none, some 100, 4), (none, some 100, 4), (none, some 100, 4), (none, some 100, 4), (none, some 100, 4), (none, some 100, 4), (none, some 100, 4), (none, some 100, 4), (none, some 100, 4), (none, some 100, 4), (none, some 100, 4), (none, some 100, 4), (none, some 100, 4), (none, some 100, 4), (none, some 100, 4), (none, some 100, 4), (none, some 102, 4), (none, some 102, 4), (none, some 102, 4), (none, some 102, 4), (none, some 102, 4), (none, some 102, 4), (none, some 102, 4), (none, some 102, 4), (none, some 102, 4), (none, some 102, 4), (none, some 102, 4), (none, some 102, 4), (none, some 102, 4), (none, some 102, 4), (none, some 102, 4), (none, some 102, 4)],
  [(none, some 103, 4), (none, some 103, 4), (none, some 103, 4), (none, some 103, 4), (none, some 103, 4), (none, some 103, 4), (none, some 103, 4), (none, some 103, 4), (none, some 103, 4), (none, some 103, 4), (none, some 103, 4), (none, some 103, 4), (none, some 103, 4), (none, some 103, 4), (none, some 103, 4), (none, some 103, 4), (none, some 104, 4), (none, some 104, 4), (none, some 104, 4), (none, some 104, 4), (none, some 104, 4), (none, some 104, 4), (none, some 104, 4), (none, some 104, 4), (none, some 104, 4), (none, some 104, 4), (none, some 104, 4), (none, some 104, 4), (none, some 104, 4), (none, some 104, 4), (none, some 104, 4), (none, some 104, 4)],
  [(none, some 106, 3), (none, some 106, 3), (none, some 106, 3), (none, some 106, 3), (none, some 106, 3), (none, some 106, 3), (none, some 106, 3), (none, some 106, 3), (none, some 107, 3), (none, some 107, 3), (none, some 107, 3), (none, some 107, 3), (none, some 107, 3), (none, some 107, 3), (none, some 107, 3), (none, some 107, 3), (none, some 113, 3), (none, some 113, 3), (none, some 113, 3), (none, some 113, 3), (none, some 113, 3), (none, some 113, 3), (none, some 113, 3), (none, some 113, 3), (none, some 118, 3), (none, some 118, 3), (none, some 118, 3), (none, some 118, 3), (none, some 118, 3), (none, some 118, 3), (none, some 118, 3), (none, some 118, 3)],
  [(none, some 108, 4), (none, some 108, 4), (none, some 108, 4), (none, some 108, 4), (none, some 108, 4), (none, some 108, 4), (none, some 108, 4), (none, some 108, 4), (none, some 108, 4), (none, some 108, 4), (none, some 108, 4), (none, some 108, 4), (none, some 108, 4), (none, some 108, 4), (none, some 108, 4), (none, some 108, 4), (none, some 109, 4), (none, some 109, 4), (none, some 109, 4), (none, some 109, 4), (none, some 109, 4), (none, some 109, 4), (none, some 109, 4), (none, some 109, 4), (none, some 109, 4), (none, some 109, 4), (none, some 109, 4), (none, some 109, 4), (none, some 109, 4), (none, some 109, 4), (none, some 109, 4), (none, some 109, 4)],
  [(none, some 110, 4), (none, some 110, 4), (none, some 110, 4), (none, some 110, 4), (none, some 110, 4), (none, some 110, 4), (none, some 110, 4), (none, some 110, 4), (none, some 110, 4), (none, some 110, 4), (none, some 110, 4), (none, some 110, 4), (none, some 110, 4), (none, some 110, 4), (none, some 110, 4), (none, some 110, 4), (none, some 112, 4), (none, some 112, 4), (none, some 112, 4), (none, some 112, 4), (none, some 112, 4), (none, some 112, 4), (none, some 112, 4), (none, some 112, 4), (none, some 112, 4), (none, some 112, 4), (none, some 112, 4), (none, some 112, 4), (none, some 112, 4), (none, some 112, 4), (none, some 112, 4), (none, some 112, 4)],
  [(none, some 114, 4), (none, some 114, 4), (none, some 114, 4), (none, some 114, 4), (none, some 114, 4), (none, some 114, 4), (none, some 114, 4), (none, some 114, 4), (none, some 114, 4), (none, some 114, 4), (none, some 114, 4), (none, some 114, 4), (none, some 114, 4), (none, some 114, 4), (none, some 114, 4), (none, some 114, 4), (none, some 117, 4), (none, some 117, 4), (none, some 117, 4), (none, some 117, 4), (none, some 117, 4), (none, some 117, 4), (none, some 117, 4), (none, some 117, 4), (none, some 117, 4), (none, some 117, 4), (none, some 117, 4), (none, some 117, 4), (none, some 117, 4), (none, some 117, 4), (none, some 117, 4), (none, some 117, 4)],
  [(none, some 119, 3), (none, some 119, 3), (none, some 119, 3), (none, some 119, 3), (none, some 119, 3), (none, some 119, 3), (none, some 119, 3), (none, some 119, 3), (none, some 120, 3), (none, some 120, 3), (none, some 120, 3), (none, some 120, 3), (none, some 120, 3), (none, some 120, 3), (none, some 120, 3), (none, some 120, 3), (none, some 121, 3), (none, some 121, 3), (none, some 121, 3), (none, some 121, 3), (none, some 121, 3), (none, some 121, 3), (none, some 121, 3), (none, some 121, 3), (none, some 122, 3), (none, some 122, 3), (none, some 122, 3), (none, some 122, 3), (none, some 122, 3), (none, some 122, 3), (none, some 122, 3), (none, some 122, 3)],
  [(none, some 230, 4), (none, some 230, 4), (none, some 230, 4), (none, some 230, 4), (none, some 230, 4), (none, some 230, 4), (none, some 230, 4), (none, some 230, 4), (none, some 230, 4), (none, some 230, 4), (none, some 230, 4), (none, some 230, 4), (none, some 230, 4), (none, some 230, 4), (none, some 230, 4), (none, some 230, 4), (none, some 129, 3), (none, some 129, 3), (none, some 129, 3), (none, some 129, 3), (none, some 129, 3), (none, some 129, 3), (none, some 129, 3), (none, some 129, 3), (none, some 132, 3), (none, some 132, 3), (none, some 132, 3), (none, some 132, 3), (none, some 132, 3), (none, some 132, 3), (none, some 132, 3), (none, some 132, 3)],
  [(none, some 133, 3), (none, some 133, 3), (none, some 133, 3), (none, some 133, 3), (none, some 133, 3), (none, some 133, 3), (none, some 133, 3), (none, some 133, 3), (none, some 134, 3), (none, some 134, 3), (none, some 134, 3), (none, some 134, 3), (none, some 134, 3), (none, some 134, 3), (none, some 134, 3), (none, some 134, 3), (none, some 136, 3), (none, some 136, 3), (none, some 136, 3), (none, some 136, 3), (none, some 136, 3), (none, some 136, 3), (none, some 136, 3), (none, some 136, 3), (none, some 146, 3), (none, some 146, 3), (none, some 146, 3), (none, some 146, 3), (none, some 146, 3), (none, some 146, 3), (none, some 146, 3), (none, some 146, 3)],
  [(none, some 147, 2), (none, some 147, 2), (none, some 147, 2), (none, some 147, 2), (none, some 149, 2), (none, some 149, 2), (none, some 149, 2), (none, some 149, 2), (none, some 150, 2), (none, some 150, 2), (none, some 150, 2), (none, some 150, 2), (none, some 151, 2), (none, some 151, 2), (none, some 151, 2), (none, some 151, 2), (none, some 152, 2), (none, some 152, 2), (none, some 152, 2), (none, some 152, 2), (none, some 155, 2), (none, some 155, 2), (none, some 155, 2), (none, some 155, 2), (none, some 157, 2), (none, some 157, 2), (none, some 157, 2), (none, some 157, 2), (none, some 158, 2), (none, some 158, 2), (none, some 158, 2), (none, some 158, 2)],
  [(none, some 153, 4), (none, some 153, 4), (none, some 153, 4), (none, some 153, 4), (none, some 153, 4), (none, some 153, 4), (none, some 153, 4), (none, some 153, 4), (none, some 153, 4), (none, some 153, 4), (none, some 153, 4), (none, some 153, 4), (none, some 153, 4), (none, some 153, 4), (none, some 153, 4), (none, some 153, 4), (none, some 161, 4), (none, some 161, 4), (none, some 161, 4), (none, some 161, 4), (none, some 161, 4), (none, some 161, 4), (none, some 161, 4), (none, some 161, 4), (none, some 161, 4), (none, some 161, 4), (none, some 161, 4), (none, some 161, 4), (none, some 161, 4), (none, some 161, 4), (none, some 161, 4), (none, some 161, 4)],
  [(none, some 154, 3), (none, some 154, 3), (none, some 154, 3), (none, some 154, 3), (none, some 154, 3), (none, some 154, 3), (none, some 154, 3), (none, some 154, 3), (none, some 156, 3), (none, some 156, 3), (none, some 156, 3), (none, some 156, 3), (none, some 156, 3), (none, some 156, 3), (none, some 156, 3), (none, some 156, 3), (none, some 160, 3), (none, some 160, 3), (none, some 160, 3), (none, some 160, 3), (none, some 160, 3), (none, some 160, 3), (none, some 160, 3), (none, some 160, 3), (none, some 163, 3), (none, some 163, 3), (none, some 163, 3), (none, some 163, 3), (none, some 163, 3), (none, some 163, 3), (none, some 163, 3), (none, some 163, 3)],
  [(none, some 164, 3), (none, some 164, 3), (none, some 164, 3), (none, some 164, 3), (none, some 164, 3), (none, some 164, 3), (none, some 164, 3), (none, some 164, 3), (none, some 169, 3), (none, some 169, 3), (none, some 169, 3), (none, some 169, 3), (none, some 169, 3), (none, some 169, 3), (none, some 169, 3), (none, some 169, 3), (none, some 170, 3), (none, some 170, 3), (none, some 170, 3), (none, some 170, 3), (none, some 170, 3), (none, some 170, 3), (none, some 170, 3), (none, some 170, 3), (none, some 173, 3), (none, some 173, 3), (none, some 173, 3), (none, some 173, 3), (none, some 173, 3), (none, some 173, 3), (none, some 173, 3), (none, some 173, 3)],
  [(none, some 165, 2), (none, some 165, 2), (none, some 165, 2), (none, some 165, 2), (none, some 166, 2), (none, some 166, 2), (none, some 166, 2), (none, some 166, 2), (none, some 168, 2), (none, some 168, 2), (none, some 168, 2), (none, some 168, 2), (none, some 174, 2), (none, some 174, 2), (none, some 174, 2), (none, some 174, 2), (none, some 175, 2), (none, some 175, 2), (none, some 175, 2), (none, some 175, 2), (none, some 180, 2), (none, some 180, 2), (none, some 180, 2), (none, some 180, 2), (none, some 182, 2), (none, some 182, 2), (none, some 182, 2), (none, some 182, 2), (none, some 183, 2), (none, some 183, 2), (none, some 183, 2), (none, some 183, 2)],
  [(none, some 167, 4), (none, some 167, 4), (none, some 167, 4), (none, some 167, 4), (none, some 167, 4), (none, some 167, 4), (none, some 167, 4), (none, some 167, 4), (none, some 167, 4), (none, some 167, 4), (none, some 167, 4), (none, some 167, 4), (none, some 167, 4), (none, some 167, 4), (none, some 167, 4), (none, some 167, 4), (none, some 172, 4), (none, some 172, 4), (none, some 172, 4), (none, some 172, 4), (none, some 172, 4), (none, some 172, 4), (none, some 172, 4), (none, some 172, 4), (none, some 172, 4), (none, some 172, 4), (none, some 172, 4), (none, some 172, 4), (none, some 172, 4), (none, some 172, 4), (none, some 172, 4), (none, some 172, 4)],
  [(none, some 176, 4), (none, some 176, 4), (none, some 176, 4), (none, some 176, 4), (none, some 176, 4), (none, some 176, 4), (none, some 176, 4), (none, some 176, 4), (none, some 176, 4), (none, some 176, 4), (none, some 176, 4), (none, some 176, 4), (none, some 176, 4), (none, some 176, 4), (none, some 176, 4), (none, some 176, 4), (none, some 177, 4), (none, some 177, 4), (none, some 177, 4), (none, some 177, 4), (none, some 177, 4), (none, some 177, 4), (none, some 177, 4), (none, some 177, 4), (none, some 177, 4), (none, some 177, 4), (none, some 177, 4), (none, some 177, 4), (none, some 177, 4), (none, some 177, 4), (none, some 177, 4), (none, some 177, 4)],
  [(none, some 178, 3), (none, some 178, 3), (none, some 178, 3), (none, some 178, 3), (none, some 178, 3), (none, some 178, 3), (none, some 178, 3), (none, some 178, 3), (none, some 181, 3), (none, some 181, 3), (none, some 181, 3), (none, some 181, 3), (none, some 181, 3), (none, some 181, 3), (none, some 181, 3), (none, some 181, 3), (none, some 185, 3), (none, some 185, 3), (none, some 185, 3), (none, some 185, 3), (none, some 185, 3), (none, some 185, 3), (none, some 185, 3), (none, some 185, 3), (none, some 186, 3), (none, some 186, 3), (none, some 186, 3), (none, some 186, 3), (none, some 186, 3), (none, some 186, 3), (none, some 186, 3), (none, some 186, 3)],
  [(none, some 179, 4), (none, some 179, 4), (none, some 179, 4), (none, some 179, 4), (none, some 179, 4), (none, some 179, 4), (none, some 179, 4), (none, some 179, 4), (none, some 179, 4), (none, some 179, 4), (none, some 179, 4), (none, some 179, 4), (none, some 179, 4), (none, some 179, 4), (none, some 179, 4), (none, some 179, 4), (none, some 209, 4), (none, some 209, 4), (none, some 209, 4), (none, some 209, 4), (none, some 209, 4), (none, some 209, 4), (none, some 209, 4), (none, some 209, 4), (none, some 209, 4), (none, some 209, 4), (none, some 209, 4), (none, some 209, 4), (none, some 209, 4), (none, some 209, 4), (none, some 209, 4), (none, some 209, 4)],
  [(none, some 187, 3), (none, some 187, 3), (none, some 187, 3), (none, some 187, 3), (none, some 187, 3), (none, some 187, 3), (none, some 187, 3), (none, some 187, 3), (none, some 189, 3), (none, some 189, 3), (none, some 189, 3), (none, some 189, 3), (none, some 189, 3), (none, some 189, 3), (none, some 189, 3), (none, some 189, 3), (none, some 190, 3), (none, some 190, 3), (none, some 190, 3), (none, some 190, 3), (none, some 190, 3), (none, some 190, 3), (none, some 190, 3), (none, some 190, 3), (none, some 196, 3), (none, some 196, 3), (none, some 196, 3), (none, some 196, 3), (none, some 196, 3), (none, some 196, 3), (none, some 196, 3), (none, some 196, 3)],
  [(none, some 192, 4), (none, some 192, 4), (none, some 192, 4), (none, some 192, 4), (none, some 192, 4), (none, some 192, 4), (none, some 192, 4), (none, some 192, 4), (none, some 192, 4), (none, some 192, 4), (none, some 192, 4), (none, some 192, 4), (none, some 192, 4), (none, some 192, 4), (none, some 192, 4), (none, some 192, 4), (none, some 193, 4), (none, some 193, 4), (none, some 193, 4), (none, some 193, 4), (none, some 193, 4), (none, some 193, 4), (none, some 193, 4), (none, some 193, 4), (none, some 193, 4), (none, some 193, 4), (none, some 193, 4), (none, some 193, 4), (none, some 193, 4), (none, some 193, 4), (none, some 193, 4), (none, some 193, 4)],
  [(none, some 198, 3), (none, some 198, 3), (none, some 198, 3), (none, some 198, 3), (none, some 198, 3), (none, some 198, 3), (none, some 198, 3), (none, some 198, 3), (none, some 228, 3), (none, some 228, 3), (none, some 228, 3), (none, some 228, 3), (none, some 228, 3), (none, some 228, 3), (none, some 228, 3), (none, some 228, 3), (none, some 232, 3), (none, some 232, 3), (none, some 232, 3), (none, some 232, 3), (none, some 232, 3), (none, some 232, 3), (none, some 232, 3), (none, some 232, 3), (none, some 233, 3), (none, some 233, 3), (none, some 233, 3), (none, some 233, 3), (none, some 233, 3), (none, some 233, 3), (none, some 233, 3), (none, some 233, 3)],
  [(none, some 200, 4), (none, some 200, 4), (none, some 200, 4), (none, some 200, 4), (none, some 200, 4), (none, some 200, 4), (none, some 200, 4), (none, some 200, 4), (none, some 200, 4), (none, some 200, 4), (none, some 200, 4), (none, some 200, 4), (none, some 200, 4), (none, some 200, 4), (none, some 200, 4), (none, some 200, 4), (none, some 201, 4), (none, some 201, 4), (none, some 201, 4), (none, some 201, 4), (none, some 201, 4), (none, some 201, 4), (none, some 201, 4), (none, some 201, 4), (none, some 201, 4), (none, some 201, 4), (none, some 201, 4), (none, some 201, 4), (none, some 201, 4), (none, some 201, 4), (none, some 201, 4), (none, some 201, 4)],
  [(none, some 202, 4), (none, some 202, 4), (none, some 202, 4), (none, some 202, 4), (none, some 202, 4), (none, some 202, 4), (none, some 202, 4), (none, some 202, 4), (none, some 202, 4), (none, some 202, 4), (none, some 202, 4), (none, some 202, 4), (none, some 202, 4), (none, some 202, 4), (none, some 202, 4), (none, some 202, 4), (none, some 205, 4), (none, some 205, 4), (none, some 205, 4), (none, some 205, 4), (none, some 205, 4), (none, some 205, 4), (none, some 205, 4), (none, some 205, 4), (none, some 205, 4), (none, some 205, 4), (none, some 205, 4), (none, some 205, 4), (none, some 205, 4), (none, some 205, 4), (none, some 205, 4), (none, some 205, 4)],
  [(none, some 255, 4), (none, some 255, 4), (none, some 255, 4), (none, some 255, 4), (none, some 255, 4), (none, some 255, 4), (none, some 255, 4), (none, some 255, 4), (none, some 255, 4), (none, some 255, 4), (none, some 255, 4), (none, some 255, 4), (none, some 255, 4), (none, some 255, 4), (none, some 255, 4), (none, some 255, 4), (none, some 203, 3), (none, some 203, 3), (none, some 203, 3), (none, some 203, 3), (none, some 203, 3), (none, some 203, 3), (none, some 203, 3), (none, some 203, 3), (none, some 204, 3), (none, some 204, 3), (none, some 204, 3), (none, some 204, 3), (none, some 204, 3), (none, some 204, 3), (none, some 204, 3), (none, some 204, 3)],
  [(none, some 210, 4), (none, some 210, 4), (none, some 210, 4), (none, some 210, 4), (none, some 210, 4), (none, some 210, 4), (none, some 210, 4), (none, some 210, 4), (none, some 210, 4), (none, some 210, 4), (none, some 210, 4), (none, some 210, 4), (none, some 210, 4), (none, some 210, 4), (none, some 210, 4), (none, some 210, 4), (none, some 213, 4), (none, some 213, 4), (none, some 213, 4), (none, some 213, 4), (none, some 213, 4), (none, some 213, 4), (none, some 213, 4), (none, some 213, 4), (none, some 213, 4), (none, some 213, 4), (none, some 213, 4), (none, some 213, 4), (none, some 213, 4), (none, some 213, 4), (none, some 213, 4), (none, some 213, 4)],
  [(none, some 211, 3), (none, some 211, 3), (none, some 211, 3), (none, some 211, 3), (none, some 211, 3), (none, some 211, 3), (none, some 211, 3), (none, some 211, 3), (none, some 212, 3), (none, some 212, 3), (none, some 212, 3), (none, some 212, 3), (none, some 212, 3), (none, some 212, 3), (none, some 212, 3), (none, some 212, 3), (none, some 214, 3), (none, some 214, 3), (none, some 214, 3), (none, some 214, 3), (none, some 214, 3), (none, some 214, 3), (none, some 214, 3), (none, some 214, 3), (none, some 221, 3), (none, some 221, 3), (none, some 221, 3), (none, some 221, 3), (none, some 221, 3), (none, some 221, 3), (none, some 221, 3), (none, some 221, 3)],
  [(none, some 216, 4), (none, some 216, 4), (none, some 216, 4), (none, some 216, 4), (none, some 216, 4), (none, some 216, 4), (none, some 216, 4), (none, some 216, 4), (none, some 216, 4), (none, some 216, 4), (none, some 216, 4), (none, some 216, 4), (none, some 216, 4), (none, some 216, 4), (none, some 216, 4), (none, some 216, 4), (none, some 217, 4), (none, some 217, 4), (none, some 217, 4), (none, some 217, 4), (none, some 217, 4), (none, some 217, 4), (none, some 217, 4), (none, some 217, 4), (none, some 217, 4), (none, some 217, 4), (none, some 217, 4), (none, some 217, 4), (none, some 217, 4), (none, some 217, 4), (none, some 217, 4), (none, some 217, 4)],
  [(none, some 218, 4), (none, some 218, 4), (none, some 218, 4), (none, some 218, 4), (none, some 218, 4), (none, some 218, 4), (none, some 218, 4), (none, some 218, 4), (none, some 218, 4), (none, some 218, 4), (none, some 218, 4), (none, some 218, 4), (none, some 218, 4), (none, some 218, 4), (none, some 218, 4), (none, some 218, 4), (none, some 219, 4), (none, some 219, 4), (none, some 219, 4), (none, some 219, 4), (none, some 219, 4), (none, some 219, 4), (none, some 219, 4), (none, some 219, 4), (none, some 219, 4), (none, some 219, 4), (none, some 219, 4), (none, some 219, 4), (none, some 219, 4), (none, some 219, 4), (none, some 219, 4), (none, some 219, 4)],
  [(none, some 222, 3), (none, some 222, 3), (none, some 222, 3), (none, some 222, 3), (none, some 222, 3), (none, some 222, 3), (none, some 222, 3), (none, some 222, 3), (none, some 223, 3), (none, some 223, 3), (none, some 223, 3), (none, some 223, 3), (none, some 223, 3), (none, some 223, 3), (none, some 223, 3), (none, some 223, 3), (none, some 241, 3), (none, some 241, 3), (none, some 241, 3), (none, some 241, 3), (none, some 241, 3), (none, some 241, 3), (none, some 241, 3), (none, some 241, 3), (none, some 244, 3), (none, some 244, 3), (none, some 244, 3), (none, some 244, 3), (none, some 244, 3), (none, some 244, 3), (none, some 244, 3), (none, some 244, 3)],
  [(none, some 227, 4), (none, some 227, 4), (none, some 227, 4), (none, some 227, 4), (none, some 227, 4), (none, some 227, 4), (none, some 227, 4), (none, some 227, 4), (none, some 227, 4), (none, some 227, 4), (none, some 227, 4), (none, some 227, 4), (none, some 227, 4), (none, some 227, 4), (none, some 227, 4), (none, some 227, 4), (none, some 229, 4), (none, some 229, 4), (none, some 229, 4), (none, some 229, 4), (none, some 229, 4), (none, some 229, 4), (none, some 229, 4), (none, some 229, 4), (none, some 229, 4), (none, some 229, 4), (none, some 229, 4), (none, some 229, 4), (none, some 229, 4), (none, some 229, 4), (none, some 229, 4), (none, some 229, 4)],
  [(none, some 238, 4), (none, some 238, 4), (none, some 238, 4), (none, some 238, 4), (none, some 238, 4), (none, some 238, 4), (none, some 238, 4), (none, some 238, 4), (none, some 238, 4), (none, some 238, 4), (none, some 238, 4), (none, some 238, 4), (none, some 238, 4), (none, some 238, 4), (none, some 238, 4), (none, some 238, 4), (none, some 240, 4), (none, some 240, 4), (none, some 240, 4), (none, some 240, 4), (none, some 240, 4), (none, some 240, 4), (none, some 240, 4), (none, some 240, 4), (none, some 240, 4), (none, some 240, 4), (none, some 240, 4), (none, some 240, 4), (none, some 240, 4), (none, some 240, 4), (none, some 240, 4), (none, some 240, 4)],
  [(none, some 242, 4), (none, some 242, 4), (none, some 242, 4), (none, some 242, 4), (none, some 242, 4), (none, some 242, 4), (none, some 242, 4), (none, some 242, 4), (none, some 242, 4), (none, some 242, 4), (none, some 242, 4), (none, some 242, 4), (none, some 242, 4), (none, some 242, 4), (none, some 242, 4), (none, some 242, 4), (none, some 243, 4), (none, some 243, 4), (none, some 243, 4), (none, some 243, 4), (none, some 243, 4), (none, some 243, 4), (none, some 243, 4), (none, some 243, 4), (none, some 243, 4), (none, some 243, 4), (none, some 243, 4), (none, some 243, 4), (none, some 243, 4), (none, some 243, 4), (none, some 243, 4), (none, some 243, 4)],
  [(none, some 245, 3), (none, some 245, 3), (none, some 245, 3), (none, some 245, 3), (none, some 245, 3), (none, some 245, 3), (none, some 245, 3), (none, some 245, 3), (none, some 246, 3), (none, some 246, 3), (none, some 246, 3), (none, some 246, 3), (none, some 246, 3), (none, some 246, 3), (none, some 246, 3), (none, some 246, 3), (none, some 247, 3), (none, some 247, 3), (none, some 247, 3), (none, some 247, 3), (none, some 247, 3), (none, some 247, 3), (none, some 247, 3), (none, some 247, 3), (none, some 248, 3), (none, some 248, 3), (none, some 248, 3), (none, some 248, 3), (none, some 248, 3), (none, some 248, 3), (none, some 248, 3), (none, some 248, 3)],
  [(none, some 250, 3), (none, some 250, 3), (none, some 250, 3), (none, some 250, 3), (none, some 250, 3), (none, some 250, 3), (none, some 250, 3), (none, some 250, 3), (none, some 251, 3), (none, some 251, 3), (none, some 251, 3), (none, some 251, 3), (none, some 251, 3), (none, some 251, 3), (none, some 251, 3), (none, some 251, 3), (none, some 252, 3), (none, some 252, 3), (none, some 252, 3), (none, some 252, 3), (none, some 252, 3), (none, some 252, 3), (none, some 252, 3), (none, some 252, 3), (none, some 253, 3), (none, some 253, 3), (none, some 253, 3), (none, some 253, 3), (none, some 253, 3), (none, some 253, 3), (none, some 253, 3), (none, some 253, 3)]]

end Verif.Huffman
