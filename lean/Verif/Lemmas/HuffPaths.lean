/-! Generated by tools/gen_paths.py. Proof helper data (checked by the kernel in HuffTables.lean): for every row of
a decoding table the path of bits that leads to it, as `(length, a symbol whose code continues the path)`. -/
namespace Verif.Huffman

def PATHS1 : List (Nat × Nat) := [(0, 0), (1, 0), (2, 0), (3, 0), (4, 0), (5, 0), (6, 0), (7, 0), (8, 0), (9, 0), (10, 0), (11, 0), (12, 0), (11, 1), (12, 1), (13, 1), (14, 1), (15, 1), (16, 1), (17, 1), (18, 1), (19, 1), (20, 1), (21, 1), (22, 1), (18, 2), (19, 2), (20, 2), (21, 2), (22, 2), (23, 2), (24, 2), (25, 2), (26, 2), (27, 2), (26, 4), (27, 4), (27, 6), (25, 8), (26, 8), (27, 8), (20, 9), (21, 9), (22, 9), (23, 9), (24, 10), (25, 10), (26, 10), (27, 10), (28, 10), (29, 10), (27, 12), (26, 15), (27, 15), (27, 17), (25, 19), (26, 19), (27, 19), (27, 21), (29, 22), (26, 24), (27, 24), (27, 26), (26, 28), (27, 28), (27, 30), (1, 32), (2, 32), (3, 32), (4, 32), (5, 32), (8, 33), (9, 33), (10, 35), (11, 35), (6, 38), (7, 38), (9, 39), (10, 39), (9, 40), (7, 44), (5, 45), (3, 47), (4, 47), (5, 47), (2, 48), (3, 48), (4, 48), (4, 50), (5, 52), (4, 54), (5, 54), (5, 56), (2, 58), (3, 58), (4, 58), (5, 58), (6, 58), (14, 60), (3, 61), (4, 61), (5, 61), (12, 64), (6, 67), (3, 69), (4, 69), (5, 69), (6, 69), (6, 71), (5, 73), (6, 73), (6, 75), (4, 77), (5, 77), (6, 77), (6, 79), (5, 81), (6, 81), (6, 83), (4, 85), (5, 85), (6, 85), (6, 87), (7, 88), (16, 92), (17, 92), (18, 92), (12, 93), (13, 94), (5, 95), (3, 99), (4, 99), (4, 100), (5, 100), (5, 103), (4, 105), (5, 106), (6, 106), (4, 108), (5, 108), (5, 110), (6, 113), (5, 114), (4, 115), (5, 119), (6, 119), (6, 121), (27, 127), (18, 128), (19, 128), (17, 129), (18, 129), (19, 129), (20, 129), (21, 129), (17, 131), (18, 131), (19, 131), (20, 133), (21, 133), (21, 136), (22, 137), (21, 139), (22, 139), (22, 141), (22, 144), (23, 144), (19, 147), (20, 147), (21, 147), (22, 147), (23, 148), (22, 150), (21, 152), (22, 152), (18, 153), (19, 153), (20, 153), (19, 154), (20, 154), (21, 154), (22, 157), (21, 160), (20, 164), (21, 164), (20, 165), (21, 165), (22, 165), (20, 167), (22, 168), (21, 170), (21, 171), (22, 171), (23, 171), (21, 175), (22, 175), (18, 176), (19, 176), (20, 176), (19, 178), (20, 178), (21, 178), (20, 179), (22, 182), (19, 184), (21, 185), (20, 187), (21, 187), (21, 188), (22, 188), (21, 190), (22, 192), (23, 192), (24, 192), (25, 192), (22, 197), (20, 198), (21, 198), (22, 199), (23, 199), (24, 199), (25, 200), (24, 202), (25, 202), (23, 203), (24, 203), (25, 203), (26, 203), (25, 210), (23, 211), (24, 211), (25, 211), (26, 211), (26, 214), (23, 215), (19, 216), (20, 216), (24, 218), (25, 218), (25, 222), (26, 222), (19, 224), (20, 227), (21, 232), (24, 234), (23, 236), (25, 238), (26, 241), (25, 242), (24, 245), (25, 245), (26, 245), (26, 247), (25, 250), (26, 250), (26, 252)]

def PATHS2 : List (Nat × Nat) := [(0, 0), (2, 0), (4, 0), (6, 0), (8, 0), (10, 0), (12, 0), (12, 1), (14, 1), (16, 1), (18, 1), (20, 1), (22, 1), (18, 2), (20, 2), (22, 2), (24, 2), (26, 2), (26, 4), (26, 8), (20, 9), (22, 9), (24, 10), (26, 10), (28, 10), (26, 15), (26, 19), (26, 24), (26, 28), (2, 32), (4, 32), (8, 33), (10, 35), (6, 38), (10, 39), (4, 47), (2, 48), (4, 48), (4, 50), (4, 54), (2, 58), (4, 58), (6, 58), (14, 60), (4, 61), (12, 64), (6, 67), (4, 69), (6, 69), (6, 71), (6, 73), (6, 75), (4, 77), (6, 77), (6, 79), (6, 81), (6, 83), (4, 85), (6, 85), (6, 87), (16, 92), (18, 92), (12, 93), (4, 99), (4, 100), (4, 105), (6, 106), (4, 108), (6, 113), (4, 115), (6, 119), (6, 121), (18, 128), (18, 129), (20, 129), (18, 131), (20, 133), (22, 137), (22, 139), (22, 141), (22, 144), (20, 147), (22, 147), (22, 150), (22, 152), (18, 153), (20, 153), (20, 154), (22, 157), (20, 164), (20, 165), (22, 165), (20, 167), (22, 168), (22, 171), (22, 175), (18, 176), (20, 176), (20, 178), (20, 179), (22, 182), (20, 187), (22, 188), (22, 192), (24, 192), (22, 197), (20, 198), (22, 199), (24, 199), (24, 202), (24, 203), (26, 203), (24, 211), (26, 211), (26, 214), (20, 216), (24, 218), (26, 222), (20, 227), (24, 234), (26, 241), (24, 245), (26, 245), (26, 247), (26, 250), (26, 252)]

def PATHS3 : List (Nat × Nat) := [(0, 0), (3, 0), (6, 0), (9, 0), (12, 0), (12, 1), (15, 1), (18, 1), (21, 1), (18, 2), (21, 2), (24, 2), (27, 2), (27, 4), (27, 6), (27, 8), (21, 9), (24, 10), (27, 10), (27, 12), (27, 15), (27, 17), (27, 19), (27, 21), (27, 24), (27, 26), (27, 28), (27, 30), (3, 32), (9, 33), (6, 38), (9, 39), (9, 40), (3, 47), (3, 48), (3, 58), (6, 58), (3, 61), (12, 64), (6, 67), (3, 69), (6, 69), (6, 71), (6, 73), (6, 75), (6, 77), (6, 79), (6, 81), (6, 83), (6, 85), (6, 87), (18, 92), (12, 93), (3, 99), (6, 106), (6, 113), (6, 119), (6, 121), (27, 127), (18, 128), (18, 129), (21, 129), (18, 131), (21, 133), (21, 136), (21, 139), (21, 147), (21, 152), (18, 153), (21, 154), (21, 160), (21, 164), (21, 165), (21, 170), (21, 171), (21, 175), (18, 176), (21, 178), (21, 185), (21, 187), (21, 188), (21, 190), (24, 192), (21, 198), (24, 199), (24, 202), (24, 203), (24, 211), (24, 218), (21, 232), (24, 234), (24, 245)]

def PATHS4 : List (Nat × Nat) := [(0, 0), (4, 0), (8, 0), (12, 0), (12, 1), (16, 1), (20, 1), (20, 2), (24, 2), (20, 9), (24, 10), (28, 10), (4, 32), (8, 33), (4, 47), (4, 48), (4, 50), (4, 54), (4, 58), (4, 61), (12, 64), (4, 69), (4, 77), (4, 85), (16, 92), (12, 93), (4, 99), (4, 100), (4, 105), (4, 108), (4, 115), (20, 129), (20, 133), (20, 147), (20, 153), (20, 154), (20, 164), (20, 165), (20, 167), (20, 176), (20, 178), (20, 179), (20, 187), (24, 192), (20, 198), (24, 199), (24, 202), (24, 203), (24, 211), (20, 216), (24, 218), (20, 227), (24, 234), (24, 245)]

def PATHS5 : List (Nat × Nat) := [(0, 0), (5, 0), (10, 0), (15, 1), (20, 1), (20, 2), (25, 2), (25, 8), (20, 9), (25, 10), (25, 19), (5, 32), (10, 35), (10, 39), (5, 45), (5, 47), (5, 52), (5, 54), (5, 56), (5, 58), (5, 61), (5, 69), (5, 73), (5, 77), (5, 81), (5, 85), (5, 95), (5, 100), (5, 103), (5, 106), (5, 108), (5, 110), (5, 114), (5, 119), (20, 129), (20, 133), (20, 147), (20, 153), (20, 154), (20, 164), (20, 165), (20, 167), (20, 176), (20, 178), (20, 179), (20, 187), (25, 192), (20, 198), (25, 200), (25, 202), (25, 203), (25, 210), (25, 211), (20, 216), (25, 218), (25, 222), (20, 227), (25, 238), (25, 242), (25, 245), (25, 250)]

end Verif.Huffman
