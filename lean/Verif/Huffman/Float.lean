import Verif.Huffman.Flattener
/-! The Huffman functions with the floating point divisions of the Rust code.

`Verif.Huffman.decode` and `flatten` divide naturals exactly. Here the operations `as f32`, `as f64` and `/` round with `rnd`. -/
namespace Verif.Huffman

/-- `(x as f32 / speed as f32).ceil() as usize`, /repo/huffman/src/flattener/mod.rs:152 and 211; with `f64` in
/repo/huffman/src/decoder/reader.rs:68. The conversions and the division round; `ceil` is exact; `as usize` of a number below 0 is 0. -/
def ceilFloat (rnd : Rat → Rat) (x speed : Nat) : Nat := (rnd (rnd (x : Rat) / rnd (speed : Rat))).ceil.toNat

/-- `finalize`, /repo/huffman/src/decoder/reader.rs:67-98. -/
def finalizeFloat (rnd : Rat → Rat) : M Reader DecErr Unit := do
  let r ← M.get
  let shiftLen ← subU (ceilFloat rnd r.bufSize r.speed * r.speed) r.bufSize
  let b ← shl64 r.buf shiftLen
  M.modify fun r => { r with buf := b, bufSize := r.bufSize + shiftLen }
  finalizeChar shiftLen
  finalizeTail shiftLen

/-- `decode`, /repo/huffman/src/decoder/mod.rs:101-114. -/
def decodeFloat (rnd : Rat → Rat) (src : Bytes) (dst : Bytes) (speed : Speed) : Res DecErr Unit × Bytes :=
  let r := (do readLoop src; finalizeFloat rnd : M Reader DecErr Unit) (Reader.new speed.toNat dst)
  (r.1, r.2.dst)

/-- `generate_coding_paths`, /repo/huffman/src/flattener/mod.rs:209-234. -/
def codingPathsFloat (rnd : Rat → Rat) (coding : Nat × Nat) (speed : Nat) : Res Unit (List (List Nat)) := do
  let chunksLen := ceilFloat rnd coding.1 speed
  let leftover := chunksLen * speed - coding.1
  let bits := coding.2 * 2 ^ leftover % 2 ^ 32
  let chunks ← chunksOf bits chunksLen speed chunksLen
  match chunks.getLast? with
  | none => .panic
  | some chunkLast => .ok ((List.range (2 ^ leftover)).map fun i => chunks.dropLast ++ [chunkLast + i])

/-- One iteration of the loop of `flatten`, /repo/huffman/src/flattener/mod.rs:151-185. -/
def flattenCodeFloat (rnd : Rat → Rat) (speed : Nat) (table : List (List Cell)) (ascii : Nat) (coding : Nat × Nat) :
    Res Unit (List (List Cell)) := do
  let leftover := ceilFloat rnd coding.1 speed * speed - coding.1
  let paths ← codingPathsFloat rnd coding speed
  match paths with
  | [] => .ok table
  | first :: _ => do
    let (table, id) ← walkCreate speed table 0 first.dropLast
    setTargets id ascii leftover table paths

/-- The loop `for (ascii, coding) in codings.iter().enumerate()`, /repo/huffman/src/flattener/mod.rs:151-185. -/
def flattenLoopFloat (rnd : Rat → Rat) (speed : Nat) : List (List Cell) → Nat → List (Nat × Nat) → Res Unit (List (List Cell))
  | table, _, [] => .ok table
  | table, ascii, coding :: codings => do
    let table ← flattenCodeFloat rnd speed table ascii coding
    flattenLoopFloat rnd speed table (ascii + 1) codings

/-- `flatten`, /repo/huffman/src/flattener/mod.rs:141-188. -/
def flattenFloat (rnd : Rat → Rat) (codings : List (Nat × Nat)) (speed : Speed) : Res Unit (List (List Cell)) :=
  flattenLoopFloat rnd speed.toNat [blankTransition speed.toNat] 0 codings

end Verif.Huffman
