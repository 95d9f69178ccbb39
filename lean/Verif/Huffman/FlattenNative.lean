import Verif.Huffman.Flattener
/-! `flatten` with the build profile as a parameter: `chk` says whether overflow checks are on. The only operation that can overflow
is the shift `bits >> (chunks_len - i - 1) * speed` of a `u32`, /repo/huffman/src/flattener/mod.rs:219. -/
namespace Verif.Huffman

/-- The loop collecting `chunks`, /repo/huffman/src/flattener/mod.rs:218-222. Without overflow checks the shift amount is taken modulo 32. -/
def chunksOfOn (chk : Bool) (bits speed : Nat) : Nat → Res Unit (List Nat)
  | 0 => .ok []
  | m + 1 => do
    if chk = true ∧ 32 ≤ m * speed then .panic else
    let rest ← chunksOfOn chk bits speed m
    .ok (bits / 2 ^ (m * speed % 32) % 2 ^ speed :: rest)

/-- `generate_coding_paths`, /repo/huffman/src/flattener/mod.rs:209-234. -/
def codingPathsOn (chk : Bool) (coding : Nat × Nat) (speed : Nat) : Res Unit (List (List Nat)) := do
  let chunksLen := ceilDiv coding.1 speed
  let leftover := chunksLen * speed - coding.1
  let bits := coding.2 * 2 ^ leftover % 2 ^ 32
  let chunks ← chunksOfOn chk bits speed chunksLen
  match chunks.getLast? with
  | none => .panic
  | some chunkLast => .ok ((List.range (2 ^ leftover)).map fun i => chunks.dropLast ++ [chunkLast + i])

/-- One iteration of `for (ascii, coding) in codings.iter().enumerate()`, /repo/huffman/src/flattener/mod.rs:151-185. -/
def flattenCodeOn (chk : Bool) (speed : Nat) (table : List (List Cell)) (ascii : Nat) (coding : Nat × Nat) :
    Res Unit (List (List Cell)) := do
  let leftover := ceilDiv coding.1 speed * speed - coding.1
  let paths ← codingPathsOn chk coding speed
  match paths with
  | [] => .ok table
  | first :: _ => do
    let (table, id) ← walkCreate speed table 0 first.dropLast
    setTargets id ascii leftover table paths

/-- The loop over the codes, /repo/huffman/src/flattener/mod.rs:151-185. -/
def flattenLoopOn (chk : Bool) (speed : Nat) : List (List Cell) → Nat → List (Nat × Nat) → Res Unit (List (List Cell))
  | table, _, [] => .ok table
  | table, ascii, coding :: codings => do
    let table ← flattenCodeOn chk speed table ascii coding
    flattenLoopOn chk speed table (ascii + 1) codings

/-- `flatten`, /repo/huffman/src/flattener/mod.rs:141-188. -/
def flattenOn (chk : Bool) (codings : List (Nat × Nat)) (speed : Speed) : Res Unit (List (List Cell)) :=
  flattenLoopOn chk speed.toNat [blankTransition speed.toNat] 0 codings

end Verif.Huffman
