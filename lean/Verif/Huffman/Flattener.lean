import Verif.Huffman.Decoder
/-! Model of /repo/huffman/src/flattener/mod.rs. -/
namespace Verif.Huffman

/-- `generate_blank_transition`, /repo/huffman/src/flattener/mod.rs:191-199. -/
def blankTransition (speed : Nat) : List Cell := List.replicate (2 ^ speed) (none, none, 0)

/-- `(x as f32 / speed as f32).ceil() as usize`, /repo/huffman/src/flattener/mod.rs:152 and 211, as exact ceiling division.
(`x` is a `u8` and `speed` is 1 to 5: the f32 quotient of such numbers rounds to an integer only when it is one.) -/
def ceilDiv (x speed : Nat) : Nat := (x + speed - 1) / speed

/-- The loop collecting `chunks`, /repo/huffman/src/flattener/mod.rs:218-222. A shift of a `u32` by 32 or more panics. -/
def chunksOf (bits n speed : Nat) : Nat → Res Unit (List Nat)
  | 0 => .ok []
  | m + 1 => do
    -- i counts up; m + 1 chunks remain, hence `chunks_len - i - 1 = m`
    if 32 ≤ m * speed then .panic else
    let rest ← chunksOf bits n speed m
    .ok (bits / 2 ^ (m * speed) % 2 ^ speed :: rest)

/-- `generate_coding_paths`, /repo/huffman/src/flattener/mod.rs:209-234. `bits <<= leftover` drops bits above 32.
`chunks.pop().unwrap()` panics for a code of length zero. -/
def codingPaths (coding : Nat × Nat) (speed : Nat) : Res Unit (List (List Nat)) := do
  let chunksLen := ceilDiv coding.1 speed
  let leftover := chunksLen * speed - coding.1
  let bits := coding.2 * 2 ^ leftover % 2 ^ 32
  let chunks ← chunksOf bits chunksLen speed chunksLen
  match chunks.getLast? with
  | none => .panic
  | some chunkLast => .ok ((List.range (2 ^ leftover)).map fun i => chunks.dropLast ++ [chunkLast + i])

/-- The walk along the first path, creating rows, /repo/huffman/src/flattener/mod.rs:157-177. Indexing outside of the table or row
panics. `(table.len() - 1) as u8` truncates. -/
def walkCreate (speed : Nat) : List (List Cell) → Nat → List Nat → Res Unit (List (List Cell) × Nat)
  | table, id, [] => .ok (table, id)
  | table, id, key :: keys =>
    match table[id]? with
    | none => .panic
    | some row =>
      match row[key]? with
      | none => .panic
      | some (some nextId, _, _) => walkCreate speed table nextId keys
      | some (none, ascii, left) =>
        let nextId := table.length % 256
        let table := (table ++ [blankTransition speed]).set id (row.set key (some nextId, ascii, left))
        walkCreate speed table nextId keys

/-- Setting the target of the last key, /repo/huffman/src/flattener/mod.rs:179-183. -/
def setTarget (table : List (List Cell)) (id key ascii leftover : Nat) : Res Unit (List (List Cell)) :=
  match table[id]? with
  | none => .panic
  | some row =>
    match row[key]? with
    | none => .panic
    | some (nextId, _, _) => .ok (table.set id (row.set key (nextId, some (ascii % 2 ^ 16), leftover % 2 ^ 8)))

/-- The inner `for (path_index, keys)` loop after the first walk: the last key of every path variant.
/repo/huffman/src/flattener/mod.rs:155-184. -/
def setTargets (id ascii leftover : Nat) : List (List Cell) → List (List Nat) → Res Unit (List (List Cell))
  | table, [] => .ok table
  | table, keys :: paths =>
    match keys.getLast? with
    | none => .panic
    | some key => do
      let table ← setTarget table id key ascii leftover
      setTargets id ascii leftover table paths

/-- One iteration of `for (ascii, coding) in codings.iter().enumerate()`, /repo/huffman/src/flattener/mod.rs:151-185. The walk of the
first path (`path_index == 0`) comes before its last key is set, and `id` is kept for the other variants. -/
def flattenCode (speed : Nat) (table : List (List Cell)) (ascii : Nat) (coding : Nat × Nat) :
    Res Unit (List (List Cell)) := do
  let leftover := ceilDiv coding.1 speed * speed - coding.1
  let paths ← codingPaths coding speed
  match paths with
  | [] => .ok table
  | first :: _ => do
    let (table, id) ← walkCreate speed table 0 first.dropLast
    setTargets id ascii leftover table paths

/-- `for (ascii, coding) in codings.iter().enumerate()`, /repo/huffman/src/flattener/mod.rs:151-185. -/
def flattenLoop (speed : Nat) : List (List Cell) → Nat → List (Nat × Nat) → Res Unit (List (List Cell))
  | table, _, [] => .ok table
  | table, ascii, coding :: codings => do
    let table ← flattenCode speed table ascii coding
    flattenLoop speed table (ascii + 1) codings

/-- `flatten`, /repo/huffman/src/flattener/mod.rs:141-188. -/
def flatten (codings : List (Nat × Nat)) (speed : Speed) : Res Unit (List (List Cell)) :=
  flattenLoop speed.toNat [blankTransition speed.toNat] 0 codings

end Verif.Huffman
