# Formal model of httlib-rs (huffman, hpack, protos) in Lean 4

## Layout

* `lean/Verif/Basic.lean` – result type `Res` (`ok`, `err`, `panic`, `hang`), bytes, bit helpers.
* `lean/Verif/Huffman/*` – model of the `huffman` crate. `Table`, `DecodeTable1..5`, `Asset` are generated
  from the text of `/repo` by `tools/gen_huffman.py` (the generated Lean is committed).
* `lean/Verif/Hpack/*` – model of the `hpack` crate. `lean/Verif/Protos/*` – model of the `protos` crate.
* `lean/Verif/Spec/*` – independent specifications (RFC 7541 codes, integers, representations, table;
  protobuf wire format). From the models they take the data types of the API only (`Hpack/Types`, `Protos/Types`), with
  three exceptions that say so: `HpackAbs` reads the table of the model as the table of the RFC, `ProtosValues` says
  "the conversion returns this value", `ProtosNested` contains the code a user writes for nested messages.
* `lean/Verif/Lemmas/*` – helper lemmas.  `lean/Verif/Props/*` – the property theorems, each followed by
  examples showing that the hypotheses are met by a concrete case.

## Modelling conventions

* `&mut` arguments become state that is returned, **also when the call fails**, so partial mutation on error
  is visible. A Rust panic (index out of bounds, arithmetic overflow under debug assertions, `unwrap` on
  `None`) is `Res.panic`. A loop that could diverge takes fuel and gives `Res.hang` when it runs out; theorems
  prove that this never happens with the fuel the model gives it.
* Bytes are `List UInt8`. API integers keep their width (`UInt32`, `UInt64`, `Int32`, `Int64`). `usize` is
  taken to be 64 bits wide and slice lengths are assumed below 2^63 as in any Rust program; where the code
  converts a length to `u32` the check is modelled.
* `f32`/`f64` values are their bit patterns (`to_le_bytes`/`from_le_bytes` are bit-exact).
* The `f32`/`f64` ceil divisions in the Huffman reader and flattener are modelled as exact ceiling division of
  naturals. C84 justifies this: with operations that round in any way IEEE 754 allows, the results are the same.

* No file depends on automatically bound variables (all of them compile with `autoImplicit` off), so every name in a statement is
  a defined one.

## Trusted base

* Lean 4.33.0 kernel. No axioms beyond `propext`, `Classical.choice` and `Quot.sound`; `AXIOMS.txt` lists them for every
  theorem of the manifest (made by `tools/axioms.sh`). `decide +kernel` is evaluated by the kernel.
* The reading of the Rust text into the definitions (every definition cites file and lines).
* The generator scripts for tables (a mistake there would make the `C10`/`C11`/`C25` checks fail, since these
  compare the shipped tables with tables computed by other means: the asset's text, the RFC's list, the flattener).
* Rust standard library behaviour: `Vec`, `VecDeque`, `Cow`, `Write for Vec<u8>`, iterators, integer operations,
  `str::lines`, `str::trim`, `u32::from_str_radix`, `String::from_utf8` (taken to be Lean's `String.fromUTF8?`, whose
  acceptance is compared with an own UTF-8 specification in C70), `Vec::with_capacity(1)` has capacity at
  least 1 (`decode` is modelled with exactly 1; C83 shows what changes with more, C36 treats `decode_exact` for every capacity).
* Overflow checks: Huffman and HPACK are modelled with checks on and a 64-bit `usize`. C105 proves that the arithmetic of a
  release build and of 32-bit targets (`Huffman/Native.lean`, `Hpack/Native.lean`, `Hpack/NativeCodec.lean`) gives the same results, for
  the Huffman coder and the whole HPACK encoder and decoder; C107 compares `flatten` in both profiles (`Huffman/FlattenNative.lean`). In protos the only operation where the profiles differ is the shift
  in `decode_varint`; the parameter `chk` covers both profiles and all theorems hold for both unless they say otherwise; C91 treats
  other widths of `usize`, otherwise it is 64 bits.

### What is modelled

| crate | modelled | not modelled |
| --- | --- | --- |
| huffman | `encode`, `decode`, `DecodeReader`, `DecoderSpeed` (with `known`), the five decode tables, the encode table, `flatten`, `parse`, the asset, both example programs, text of errors (`Display`) | tests |
| hpack | `Table`, `DynamicTable`, `TableIter`, static table, `Encoder` (all methods), `EncoderInput` and its `From`s, `Decoder` (all methods), integer and string primitives, error conversions, text of errors | tests |
| protos | `Typ`, all encoder and decoder primitives, `Encoder` (all methods, over an arbitrary failing `Write`), `EncoderLit`, `DecoderLit` and all their `From`s, `Decoder`, text of errors | `From<io::Error>` other than "any writer error becomes one error" |

Not modelled at all: allocation failure, running time and memory (except the counts of C75 and C108 to C111), benchmarks, tests, crate features.

### Evidence that the model is the code

Not proofs, but checks of the definitions against what the Rust code is known to compute:

* `lean/Verif/Conform/*.lean` (made by `tools/gen_conform.py`): all the unit and integration tests of the three crates except
  the stories, about the model, evaluated by the kernel.
* `lean/Verif/Conform/Docs.lean`: the examples of the documentation of the three crates.
* `tools/conformance/Stories.lean.txt`: the model of `Decoder::decode` run (compiled, outside of the build) on the 446 stories of
  /repo/hpack/fixtures, 47142 blocks with 548382 headers from a dozen other encoders: all headers are as expected and no
  octet is left. (The repository's own test looks only at the first header of each block.)
* `tools/conformance/README.md` tells how to run it.

### Tests against wrong programs

`seeded/LOG.jsonl` has one line per edit of a definition of the model (realistic bugs by hand, then systematic edits of constants,
comparisons, arguments and branches of every definition by `tools/genmut.py`, `tools/gen3.py`), with the theorems that no longer
hold or prove. An edit after which everything still builds was either shown to be equivalent or unreachable, or led to a stronger theorem.
A proof may break although its statement is still true, so the rounds "statements" test the statements alone: `tools/stub.py`
makes a scratch copy whose proofs are all replaced by a stub, a definition is edited, and `tools/refute.py` checks that `False`
follows from the statement on the edited program by one concrete case, and does not on the original one.

## Plan per property

### Huffman
* C01 round trip: encoder invariant over the u64 accumulator gives the bit string (C03); decoder invariant
  gives `decode = greedy bit parse`; compose with prefix-freeness.
* C02 speed independence: all five speeds refine the same bit-level parse.
* C03/C04 encoder bits and length: induction over the input with invariant "written bits ++ pending bits =
  concatenated codes, bits = pending * 2^bits_left mod 2^40".
* C05 injectivity: corollary of C01.
* C06 acceptance: iff-theorem on the bit parse; C07 exact description of the accepted paddings, and a witness that the
  strict rule of the RFC is not enforced; C08 EOS; C09 prefix code and completeness via kernel check of the whole table (Kraft / tree walk).
* C10 tables = flatten: kernel evaluation of the modelled `flatten` on the whole ENCODE_TABLE for each speed.
* C11 parser: kernel evaluation of the modelled `parse` on the asset's bytes.
* C12 flatten for all prefix codes: invariant over the loop; hardest Huffman item.
* C76: induction over the lines of a text in the RFC format (`Spec/CodeText.lean`). C90: C76 composed with C12.
  C71: every bit string has a greedy parse; the parse of an extension extends the parse.
  C84: a rounded quotient has the same ceiling; `decodeFloat`/`flattenFloat` (`Huffman/Float.lean`) equal `decode`/`flatten`.
  C92: equivalence of `parse` with a grammar of lines, white space and numbers (`Spec/ParseText.lean`).
* C13–C16: corollaries of the decoder refinement. Termination and absence of panics: the reader model has
  explicit `panic`/`hang` results.

### HPACK
* C17–C19, C21: integers/strings against the RFC 5.1/5.2 relation `IntWire`/`StrWire`.
* C20: witness of panic and an exact description of the panicking inputs.
* C22–C26: invariant of the dynamic table over all operation sequences, refinement of RFC 4.3/4.4 eviction.
* C27, C39, C40: encoder calls refine `Rep` (spec of representations); C29/C30 from it.
* C28: composition of C27 and C31 by induction over the history, invariant "both tables equal".
* C31–C38, C41: decoder step sound and complete w.r.t. `RepWire`/`Rep.apply`; loops by induction.

* C68: `C28` at the default sizes. C75: invariant "table size ≤ M" over the representations of a block. C79, C85, C86:
  exact number of octets of each call (`Spec/HpackLen.lean`). C80: the maximum after a block. C81: the loop of
  `decode_exact` is additive in the number of rounds. C82: unfolding, flag arithmetic.
* C87: the decoded part of the buffer is a block; running `decode` on the extended buffer replays it, then continues in the
  state left by the first call. C93: C28 composed with C87. C96, C98: a congruence for the decoder monad (no action looks at the speed or at `dst`). C77: induction over the events with C94 for each block. C95: the model tests only these bits. C75 for histories: induction with the bound of one call. C94: induction over the calls with C40 for the refused ones. C83: simulation of the loop with capacity 1 by the loop with larger capacities. C88, C89: completeness of `decode` for blocks, applied to changed blocks and limits.

* C106: invariant over the history, seen from one entry (`Seen`): eviction keeps it or everything up to its place is newer.
* C107: the same loop invariant as C12 (`Shape`) without assumptions on the codes; a code that is empty or too long panics in the first step of its own
  iteration. C12's row count: the rows are in bijection with the strings of chunks before the last one (`walkCreate_count`), up to the first wrap of a row number.
* C108: a copy of the reader over `Reader × Work` that counts rounds and lookups; forgetting the counters gives the reader of C01 (simulation). The
  invariant of C06 is extended: the walked bits are whole groups, rounds = rounds of the octets written + groups walked. Monotonicity in the speed from
  unique parsing.
* C109: copies of the HPACK and protos loops that add what `drain` moves; the HPACK loop invariant (`Reads`) with the exact sum, the protos bound from the
  case analysis of one round (`step_cases`), the worst cases by induction on their length.
* C110: `find` with the lazy iterator and a call counter, `consolidate` with a counter of `pop_back`; induction over the history, length bound from
  the size accounting of C22.
* C111: copy of the HPACK decoder over `DecoderState × Nat` that adds the lookups of C108 for each string (simulation `Sim`); every representation
  pays with the octets it takes (`Paid`).
* C112: the example programs as functions to the printed characters; `Spec/RustSource.lean` is a lexer (comments, numbers, words) and reader of array
  literals; printing then reading by induction over rows and columns.
* C113: the six `Display` implementations (`ErrorTexts.lean`); the texts are distinct, so the characterisations C101, C06, C102 of the errors carry over to what is printed.
* C114: from the exact output length (C86): six octets for an integer below 2^32, 30 bits for the longest code; comparing the two lengths of a string for the flags.
* C115 (and the exact forms of C58, C65): the rounds of `decode` as a deterministic relation (`Run`); reading whole fields and a header reaches the state before the rest, where one round ends the run as `Ending` says; conversely every run ends so.
* C116 (and the exact form of C40): the specification of `encode` also describes the state after `IntegerOverflow` (octets before the string, table of the header).
* C117: sessions cut into blocks; the encoder tables before the blocks depend only on the number of storing blocks before them, so any arrival with the right storing blocks is decoded by C28.
* C118: invariant "the entries stored since the beginning are the newest ones of the table, distinct and in S", so they always fit; the choice of the representation is that of C27.
* C119: both histories are decoded by the same decoder (C28, C34, C98).
* C120: `decode_spec` gives one direction; for the other, the block is replayed (`block_steps`) and the ending is forced (`decodeOne_defect`, `decodeOne_cut`). Unique reading: the first octet fixes the kind, then integers and strings are prefix-free.
* C121: both lists are read back from the bytes (C52, C64); a payload converts to one value per format.
* C122: the accounting of C54 is carried along the schedule by induction; a field has at least two bytes, one more than its payload; elements from C60.
* C123: relation "same newest entries, at least the room" between two tables is kept by every step (`keepFitting_within`); then `C120_verdict` and C28.
* C124: lengths from `encode_spec`; induction over the pieces; permutations keep sums.
* C125: `keepFitting` composes to the minimum; induction over the row of updates; for the decoder with `C120_verdict`.
* C126: representations that do not refer to the table have the same header for every table (induction over the calls); a table after storing `hs` is `keepFitting max (stored hs ++ old)`, in which `old` vanishes when the stored ones leave less than 32 octets; then C28 and C34.
* C127: packed payloads are the concatenation of the scalar payloads (C48, C52); for arbitrary payloads via the element sequences of C60.
* C128: the values of the table against the sum formula (kernel check of all 257 symbols); order of the code words of all pairs (kernel check), lifted to texts and octets by the first differing bit.
* C129: from the verdict (C120): every defect except a short string is a defect of every longer input; a cut integer or string is completed explicitly.
* C130: from the verdict (C115), completing the unfinished field explicitly.
* C131: a specification of an arbitrary peer (Spec/HpackPeer); receiving by induction on the blocks with decode_block, sending by induction on the calls with C27.
* C132: a specification of an arbitrary peer (Spec/ProtosPeer); each form a peer may choose is one the readers accept (VarintItem, FixedItem), then pump_message over the whole message; sending from C56 and the varint lemmas.
* C133: the statement lists the wire format of each method; from C56 and C49 per literal.
* C134: exact length of the chosen form (C104) against the lower bound on the octets of any wire form; the lowest matching index is at most the rival's.
* C135: a small specification of reading by tag; concatenation of complete inputs (C78) and appending encodes (C56); lists with equal per-tag sublists are permutations of each other.
* C136: with an empty table a representation that means something uses only static indices or literals, so it means the same in every table; induction over the representations, blocks and arrivals.
* C137: call by call the effect on the table (`op_effect`) and the sameness of results for tables with the same entries (`op_same`); insertion without eviction does not depend on the maximum size; the anomaly is a concrete history.
* C138: relational proof: the search, the insertion and the eviction commute with a renaming that keeps names and lengths; results and octets of a call depend only on the names at indices and on the place found; instance: the renaming that swaps two values.
* C139: the bytes of a list of fields are known (C56); their number is computed with `groups7` (log2), and every wire encoding of the same number, list or bytes is at least as long, since k groups of seven bits hold less than 128^k. Finding: a negative int32 takes ten bytes where a peer may write five.
* C140: every reachable state has the bytes of a header (C54); reading them leads a new decoder to this state, and the rounds from there on are the same (determinism of `Run`). Finding: after a message that was cut off, the next one is taken for the missing bytes, even if the buffer was cleared.
* C141: pairs of inputs: Huffman from the exact description of the output (C13) and of the accepted inputs (C06); HPACK from the meaning of blocks (C31: replace one representation by another with the same effect on the table) and C87; protobuf from the rounds of the decoder. Finding: a changed octet in a stored header is repeated in later, intact blocks.
* C142: from the exact verdict of `decode_exact` (C120) and unique reading: 0 iff no header; the loop by induction on the fuel with C36 (resume), C81 and C37. Findings: a loop that ends at 0 stops early after as many size updates as the capacity; `Vec::new()` never progresses.
* C143: the loop is modelled beside the loop of `decode`; induction on the fuel with the fact that one round delivers at most one header (C36) and consumes octets (C41).
* C144: the loop beside `pump`, induction on the chunks; the state at a refusal from C53 and the final state of `drain`; acceptance by cutting the specification of a message at any byte and the verdict C115.
* C105: simulation of the checked model by one whose operations wrap: under the invariant of the reader (C06) no operation overflows.
* C104: reported flags are 0, 4 or 8 and survive encoding; C27 and C28 for one hop, induction over the hops.
* C100: calls without WITH_INDEXING keep the table (also on failure); induction over the histories. A literal without BEST_FORMAT is
  a sequence of actions that do not look at the table.
* C101: `Spec/HpackDefect.lean` states the defects of a representation on the octets; `decodeOne` fails exactly on these.
  C20 for `decode_exact` in the same way. C102: corollaries of C03, C40, C57, C58 and the cases of `decode_varint`.

### Protos
* C42–C46: varint and zigzag arithmetic. C45 witness for both profiles.
* C47/C48: scalar and packed round trips. C49/C50 keys.
* C51–C55, C58: `decode` as a small-step machine; steps are monotone under appended bytes, which gives
  chunk-invariance. C52 negative witness.
* C56/C57: encoder over an abstract writer which can fail at any call.
* C97: chunks by C53, cut-off streams by prefix-freeness of wire forms (`wire_prefix_free`), crashes through the write plan of C57.
* C99: lengths of varints at the values of each conversion; boundaries by monotonicity.
* C103: `Protos/Socket.lean` models `Write::write_all` of std over a writer that follows a schedule of partial writes, interruptions
  and failures; induction over the schedule, then the write plan of C57 and the cut-off streams of C97.
* C74: every wire form is at least as long as the shortest one; then C64 (acceptance is an equivalence) and C52.
* C91: `decodeOn w` (`Protos/Narrow.lean`) with a `usize` of `w` bits, simulation of the two loops.
* C59–C61: case analysis / corollaries.
* C64–C66: the decoder relation is functional and complete, so acceptance is an equivalence.
* C67, C69, C70: conversions `From`, case by case; UTF-8 through Lean's verified `String.fromUTF8?` compared with an
  own specification of the encoding (`Spec/Utf8.lean`).
* C72: mutual induction over trees of fields. C73: payload of one format read in another. C78: `MessageWire` is closed
  under concatenation.

## Findings (property false of the code)
* C07: non-EOS paddings `0..01..1` of at most 7 bits are accepted.
* C18: the encoder emits integers the decoder cannot read.
* C20: `Decoder::decode` panics on truncated input such as `[0x7f]` or `[0x40]`.
* C30: `NEVER_INDEXED` is lost with `BEST_FORMAT` on a full match.
* C33/C55: "on error nothing is consumed" in the docs is false.
* C36: the whole capacity of the vector counts for `decode_exact`, not the free part, and size updates use it up.
* C37: the returned count leaves out size updates.
* C80: `Decoder::max_dynamic_size` does not report the limit set by `set_max_dynamic_size`.
* C134: with an empty value and 194 entries or more, `BEST_FORMAT` may write three octets where two suffice.
* C79: with an empty name, or with 16338 entries or more, `BEST_FORMAT` may be longer. C88: size updates are accepted in the middle of a block.
* C89: `Decoder::set_max_dynamic_size` does not shrink the table. Any pair of limits: by the verdict of C120, whose description is monotone in the limit.
* C100: with `BEST_FORMAT` the length of the output shows whether a header is in the table (compression side channel).
* C103: calling `encode` again after `Interrupted`, which the docs suggest, writes the beginning of the field twice.
* C137: a larger dynamic table can make the output longer (first-in-first-out eviction).
* C91: on a 32-bit target a declared length is taken modulo 2^32.
* C92: the parser does not compare the bits of a line with its value.
* C12: `flatten` truncates row ids to `u8`: more than 256 rows give wrong tables. At 3 and 5 bits at a time it drops leading bits of codes of 31 and more bits.
* C45: a varint of more than ten bytes panics (debug) or wraps (release) instead of an error.
* C52: an empty length-delimited field ends `decode` early.
