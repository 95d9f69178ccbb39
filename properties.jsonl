{"id": "C01", "title": "Huffman round trip at every speed", "statement": "Huffman-decoding the Huffman encoding of a byte string succeeds and returns exactly that byte string, for each of the five decoder speeds.", "quantifier": "all byte strings of any length; all five DecoderSpeed values", "why_tests_cant": "Strings are unbounded and the decoder's chunk boundary falls at a different bit offset for each prefix, so tests only sample alignments.", "anchors": ["huffman/src/encoder/mod.rs:encode", "huffman/src/decoder/mod.rs:decode", "huffman/src/decoder/reader.rs:DecodeReader", "huffman/src/decoder/table1.rs:DECODE_TABLE", "huffman/src/decoder/table2.rs:DECODE_TABLE", "huffman/src/decoder/table3.rs:DECODE_TABLE", "huffman/src/decoder/table4.rs:DECODE_TABLE", "huffman/src/decoder/table5.rs:DECODE_TABLE"]}
{"id": "C02", "title": "Decoder speed does not change meaning", "statement": "For any input bytes, decoding at any two speeds gives the same verdict and leaves the same bytes in dst, also when the input is rejected.", "quantifier": "all byte strings (valid or not); all pairs of speeds", "why_tests_cant": "The input space is all byte strings, including malformed ones, times five tables of up to 1952 cells.", "anchors": ["huffman/src/decoder/mod.rs:decode", "huffman/src/decoder/reader.rs:DecodeReader", "huffman/src/decoder/table1.rs:DECODE_TABLE", "huffman/src/decoder/table2.rs:DECODE_TABLE", "huffman/src/decoder/table3.rs:DECODE_TABLE", "huffman/src/decoder/table4.rs:DECODE_TABLE", "huffman/src/decoder/table5.rs:DECODE_TABLE"]}
{"id": "C03", "title": "Huffman encoding is the RFC 7541 bit string", "statement": "encode never fails and appends to dst exactly the concatenation of the RFC 7541 Appendix B codes of the input bytes, most significant bit first, padded to an octet with fewer than eight 1-bits; what was in dst before stays in front.", "quantifier": "all byte strings; all prior contents of dst", "why_tests_cant": "The 64-bit accumulator is shifted and reused across characters; correctness at every alignment needs an invariant, not samples.", "anchors": ["huffman/src/encoder/mod.rs:encode", "huffman/src/encoder/table.rs:ENCODE_TABLE"]}
{"id": "C04", "title": "Length of a Huffman encoding", "statement": "The number of bytes encode appends is the sum of the code lengths divided by eight, rounded up; hence between 5n/8 and 30n/8 rounded up for n input bytes.", "quantifier": "all byte strings", "why_tests_cant": "Needs to hold for unbounded inputs.", "anchors": ["huffman/src/encoder/mod.rs:encode", "huffman/src/encoder/table.rs:ENCODE_TABLE"]}
{"id": "C05", "title": "Huffman encoding is injective", "statement": "Two different byte strings never have the same Huffman encoding.", "quantifier": "all pairs of byte strings", "why_tests_cant": "Quantifies over pairs of unbounded strings.", "anchors": ["huffman/src/encoder/mod.rs:encode"]}
{"id": "C06", "title": "Exact acceptance of the Huffman decoder", "statement": "decode accepts src and appends s to dst exactly when the bits of src are the codes of the bytes of s followed by a remainder that contains no complete code, and the remainder read as a number is one of 0,1,3,7,15,31,63,127.", "quantifier": "all byte strings; all speeds", "why_tests_cant": "An iff over all byte strings.", "anchors": ["huffman/src/decoder/mod.rs:decode", "huffman/src/decoder/reader.rs:DecodeReader", "huffman/src/decoder/table1.rs:DECODE_TABLE", "huffman/src/decoder/table2.rs:DECODE_TABLE", "huffman/src/decoder/table3.rs:DECODE_TABLE", "huffman/src/decoder/table4.rs:DECODE_TABLE", "huffman/src/decoder/table5.rs:DECODE_TABLE"]}
{"id": "C07", "title": "Exactly which paddings decode accepts", "statement": "After the codes of the decoded string, decode accepts exactly nineteen left-over bit strings, all shorter than an octet: the empty one, up to seven bits of ones, and eleven that the RFC forbids (at most five bits, starting with a zero, such as 0, 000, 01 or 0011). So the RFC 7541 5.2 rule that padding must be all ones is not enforced (refuted by [0x00]), but no accepted padding has eight bits or more and the decoded string does not depend on it.", "quantifier": "all byte strings; all speeds", "why_tests_cant": "Tests cannot show absence of an accepted bad padding; the negation needs a witness plus an exact description of what is accepted.", "anchors": ["huffman/src/decoder/reader.rs:DecodeReader"]}
{"id": "C08", "title": "EOS is rejected", "statement": "Any input whose bits contain, at a code boundary, the 30-bit EOS code is rejected with InvalidInput, with the bytes decoded before it left in dst.", "quantifier": "all byte strings containing EOS at any code boundary; all speeds", "why_tests_cant": "EOS may come after any prefix at any bit offset.", "anchors": ["huffman/src/decoder/reader.rs:DecodeReader", "huffman/src/decoder/table1.rs:DECODE_TABLE", "huffman/src/decoder/table2.rs:DECODE_TABLE", "huffman/src/decoder/table3.rs:DECODE_TABLE", "huffman/src/decoder/table4.rs:DECODE_TABLE", "huffman/src/decoder/table5.rs:DECODE_TABLE"]}
{"id": "C09", "title": "The code table is a complete prefix code", "statement": "No code of the table is a prefix of another and every bit sequence of at least 30 bits starts with exactly one code, so decoding never gets stuck.", "quantifier": "all pairs of symbols; all bit sequences", "why_tests_cant": "Second half ranges over all bit sequences.", "anchors": ["huffman/src/encoder/table.rs:ENCODE_TABLE"]}
{"id": "C10", "title": "The five shipped decoding tables are what flatten generates", "statement": "flatten(ENCODE_TABLE, speed) equals the shipped DECODE_TABLE of that speed.", "quantifier": "five speeds, every cell", "why_tests_cant": "The repository's tests only probe one cell of a 9-entry sample.", "anchors": ["huffman/src/flattener/mod.rs:flatten", "huffman/src/encoder/table.rs:ENCODE_TABLE", "huffman/src/decoder/table1.rs:DECODE_TABLE", "huffman/src/decoder/table2.rs:DECODE_TABLE", "huffman/src/decoder/table3.rs:DECODE_TABLE", "huffman/src/decoder/table4.rs:DECODE_TABLE", "huffman/src/decoder/table5.rs:DECODE_TABLE"]}
{"id": "C11", "title": "The shipped encoding table is what parse reads from the RFC table", "statement": "parse of assets/hpack-huffman.txt returns ENCODE_TABLE, and in each line the binary column, the hexadecimal column and the length agree.", "quantifier": "all 257 lines", "why_tests_cant": "The tests probe three lines.", "anchors": ["huffman/src/parser/mod.rs:parse", "huffman/src/encoder/table.rs:ENCODE_TABLE", "huffman/assets/hpack-huffman.txt"]}
{"id": "C12", "title": "flatten is correct for every prefix code", "statement": "For every prefix-free list of codes that needs at most 256 rows and whose codes fit (filled up with zeros to whole chunks of `speed` bits they are 32-bit numbers: all codes of 1..30 bits at every speed; all of up to 32 bits at 1, 2 and 4 bits at a time; at 3 and 5 longer ones exactly if enough leading bits are zeros), walking the matrix produced by flatten in chunks of `speed` bits finds symbol a with leftover l exactly when the bits walked, minus the last l, are the code of a. The rows needed are one for each string of chunks that some code has before its last chunk, the empty one included: the matrix has at most 256 rows exactly if there are at most 256 of these, and then exactly so many. Both limits are real: leading bits of codes that do not fit are dropped without a sign, so that the matrix is the one for the codes without them.", "quantifier": "all prefix-free coding lists; all five speeds", "why_tests_cant": "Quantifies over code tables.", "anchors": ["huffman/src/flattener/mod.rs:flatten"]}
{"id": "C13", "title": "Huffman decode only appends", "statement": "decode never changes what was in dst; on failure dst is extended by exactly the characters decoded before the failure.", "quantifier": "all byte strings; all prior dst; all speeds", "why_tests_cant": "Includes all failing inputs.", "anchors": ["huffman/src/decoder/mod.rs:decode", "huffman/src/decoder/reader.rs:DecodeReader"]}
{"id": "C14", "title": "Canonical re-encoding", "statement": "If decode accepts src and returns s then src is the encoding of s followed by nothing exactly when the padding of src is all ones; otherwise they differ only in the padding bits of the last byte.", "quantifier": "all accepted byte strings", "why_tests_cant": "Unbounded inputs.", "anchors": ["huffman/src/decoder/mod.rs:decode", "huffman/src/encoder/mod.rs:encode"]}
{"id": "C15", "title": "The Huffman decoder terminates and never panics", "statement": "For any bytes and speed decode returns (no infinite loop, no arithmetic underflow or over-long shift, no out-of-range table row), and the internal buffers stay below 2^30.", "quantifier": "all byte strings; all speeds", "why_tests_cant": "Panics and loops depend on table contents reached through arbitrary input.", "anchors": ["huffman/src/decoder/reader.rs:DecodeReader", "huffman/src/decoder/table1.rs:DECODE_TABLE", "huffman/src/decoder/table2.rs:DECODE_TABLE", "huffman/src/decoder/table3.rs:DECODE_TABLE", "huffman/src/decoder/table4.rs:DECODE_TABLE", "huffman/src/decoder/table5.rs:DECODE_TABLE"]}
{"id": "C16", "title": "Bounded expansion of Huffman decoding", "statement": "decode appends at most 8n/5 bytes for n input bytes, on success and on failure.", "quantifier": "all byte strings; all speeds", "why_tests_cant": "Unbounded inputs.", "anchors": ["huffman/src/decoder/mod.rs:decode"]}
{"id": "C17", "title": "HPACK integer round trip", "statement": "An integer below 2^28 + 2^N - 1 encoded with an N-bit prefix (1..8) decodes to itself, consuming exactly the bytes written whatever follows; the flag bits above the prefix are preserved and do not influence the value.", "quantifier": "all u32 below the bound, all prefixes 1..8, all flags, all following bytes", "why_tests_cant": "2^28 values times 8 prefixes times arbitrary suffixes.", "anchors": ["hpack/src/encoder/primitives.rs:encode_integer", "hpack/src/decoder/primitives.rs:decode_integer"]}
{"id": "C18", "title": "Integers the decoder cannot read back", "statement": "Every u32 of at least 2^28 + 2^N - 1 is encoded by the encoder to more than five octets and rejected by the decoder with IntegerOverflow; so a table size update at or above 2^28 + 31 produced by the encoder is rejected by the decoder.", "quantifier": "all u32 at or above the bound", "why_tests_cant": "Range of about 4 billion values.", "anchors": ["hpack/src/encoder/primitives.rs:encode_integer", "hpack/src/decoder/primitives.rs:decode_integer", "hpack/src/encoder/mod.rs:Encoder::update_max_dynamic_size"]}
{"id": "C19", "title": "Integer decoding is sound", "statement": "Whenever the decoder reads an integer it used at most five octets, these are an RFC 5.1 representation of the value, and the value is below 2^28 + 2^N - 1.", "quantifier": "all byte strings, all prefixes", "why_tests_cant": "All byte strings.", "anchors": ["hpack/src/decoder/primitives.rs:decode_integer"]}
{"id": "C20", "title": "Exactly which byte strings make decoding panic", "statement": "For every decoder state reachable through the API, Decoder::decode panics exactly on the inputs that, after any number of complete meaningful representations, end inside or just before an integer (index, string length or table size) of the next one; on all other inputs it returns Ok or Err. So the expectation that it never panics on untrusted bytes is refuted (by [0x7f] and by [0x40]).", "quantifier": "all byte strings, all decoder states", "why_tests_cant": "Absence of panics over all inputs.", "anchors": ["hpack/src/decoder/primitives.rs:decode_integer", "hpack/src/decoder/primitives.rs:decode_string", "hpack/src/decoder/mod.rs:Decoder::decode"]}
{"id": "C21", "title": "String literal round trip", "statement": "A string literal written plain or Huffman-coded is read back exactly, consuming exactly the bytes written whatever follows, if its encoded length is below 2^28 + 127.", "quantifier": "all byte strings, both forms, all suffixes", "why_tests_cant": "Unbounded strings.", "anchors": ["hpack/src/encoder/primitives.rs:encode_string", "hpack/src/decoder/primitives.rs:decode_string"]}
{"id": "C22", "title": "Dynamic table size accounting", "statement": "After any sequence of insertions and size changes the reported dynamic size equals the sum over entries of name length + value length + 32 and does not exceed the current maximum; eviction always terminates.", "quantifier": "all operation sequences, all entries", "why_tests_cant": "Arbitrary histories.", "anchors": ["hpack/src/table/dynamic.rs:DynamicTable", "hpack/src/table/mod.rs:Table"]}
{"id": "C23", "title": "Insertion follows RFC 7541 4.4", "statement": "Inserting an entry evicts from the oldest end until the table has room or is empty and then adds the entry if it fits; an oversized entry empties the table.", "quantifier": "all reachable tables, all entries", "why_tests_cant": "Arbitrary histories and entry sizes.", "anchors": ["hpack/src/table/dynamic.rs:DynamicTable::insert"]}
{"id": "C24", "title": "Size change follows RFC 7541 4.3", "statement": "Changing the maximum size keeps exactly the longest run of newest entries that fits; raising the maximum evicts nothing.", "quantifier": "all reachable tables, all new sizes", "why_tests_cant": "Arbitrary histories.", "anchors": ["hpack/src/table/dynamic.rs:DynamicTable::update_max_size"]}
{"id": "C25", "title": "Index address space", "statement": "Index 0 is never valid, 1..61 are the RFC Appendix A entries, 62 onwards are the dynamic entries newest first and nothing beyond; iteration lists exactly these in order, and an exhausted iterator keeps returning None for the first 2^32 - 2 calls in total; the next call panics in a build with overflow checks, and without them the iterator starts over.", "quantifier": "all reachable tables, all u32 indices", "why_tests_cant": "Arbitrary histories and indices.", "anchors": ["hpack/src/table/mod.rs:Table::get", "hpack/src/table/mod.rs:Table::iter", "hpack/src/table/static.rs:STATIC_TABLE", "hpack/src/table/iter.rs:TableIter::next"]}
{"id": "C26", "title": "Table search", "statement": "find returns the lowest index holding the exact header if there is one, otherwise the lowest index holding the name, otherwise nothing.", "quantifier": "all reachable tables, all names and values", "why_tests_cant": "Arbitrary table contents.", "anchors": ["hpack/src/table/mod.rs:Table::find"]}
{"id": "C27", "title": "Encoder refines RFC 7541", "statement": "Each successful encoder call appends the wire form of exactly one RFC 7541 representation, chosen by the input and the flags as documented, and changes the table exactly as that representation prescribes.", "quantifier": "all encoder states, inputs and flags", "why_tests_cant": "Unbounded inputs and histories.", "anchors": ["hpack/src/encoder/mod.rs:Encoder::encode", "hpack/src/encoder/mod.rs:Encoder::encode_indexed", "hpack/src/encoder/mod.rs:Encoder::encode_indexed_name", "hpack/src/encoder/mod.rs:Encoder::encode_literal", "hpack/src/encoder/mod.rs:Encoder::update_max_dynamic_size"]}
{"id": "C28", "title": "Session round trip and table synchronisation", "statement": "For every sequence of successful encoder calls (headers in any form and size updates within the decoder limits), feeding the produced bytes to a decoder created with the same size yields the same headers in order and leaves both tables identical; this also holds when the bytes are decoded call by call.", "quantifier": "all histories of encoder calls", "why_tests_cant": "Unbounded histories: a bug may need a particular eviction pattern.", "anchors": ["hpack/src/encoder/mod.rs:Encoder::encode", "hpack/src/decoder/mod.rs:Decoder::decode"]}
{"id": "C29", "title": "Name and value are preserved for every flag combination", "statement": "Whatever flags are used, including BEST_FORMAT, the decoded header has the name and value that were given to encode.", "quantifier": "all flag bytes, states, names and values", "why_tests_cant": "256 flag bytes times arbitrary state.", "anchors": ["hpack/src/encoder/mod.rs:Encoder::encode", "hpack/src/decoder/mod.rs:Decoder::decode"]}
{"id": "C30", "title": "Exactly when a sensitive header stays sensitive", "statement": "A header encoded with NEVER_INDEXED (and without WITH_INDEXING) enters neither table, always; and it is decoded with the NEVER_INDEXED flag if and only if BEST_FORMAT was not asked for or the whole header is not in the table. So the expectation that the mark always survives is refuted (by :method GET with NEVER_INDEXED and BEST_FORMAT).", "quantifier": "all states, names, values, flags with bit 0x8 and without 0x4", "why_tests_cant": "Depends on the table contents.", "anchors": ["hpack/src/encoder/mod.rs:Encoder::encode", "hpack/src/encoder/mod.rs:Encoder::encode_literal", "hpack/src/decoder/mod.rs:Decoder::decode_literal"]}
{"id": "C31", "title": "Decoder accepts every RFC 7541 representation", "statement": "For every wire form (any integer encoding up to 5 octets, plain or Huffman strings) of a representation that is meaningful in the current state, the decoder consumes exactly these bytes, emits the header the RFC prescribes with the right flag and changes the table as prescribed.", "quantifier": "all decoder states, representations, wire forms and following bytes", "why_tests_cant": "All wire forms, not only those of this encoder.", "anchors": ["hpack/src/decoder/mod.rs:Decoder::decode_exact", "hpack/src/decoder/mod.rs:Decoder::decode_literal", "hpack/src/decoder/mod.rs:Decoder::decode_indexed"]}
{"id": "C32", "title": "Decoder accepts nothing else", "statement": "Whenever one decoding step succeeds, the bytes consumed are a wire form of a representation meaningful in the current state, and header, flag and table change are those of that representation.", "quantifier": "all decoder states and byte strings", "why_tests_cant": "All byte strings.", "anchors": ["hpack/src/decoder/mod.rs:Decoder::decode_exact", "hpack/src/decoder/mod.rs:Decoder::decode_literal", "hpack/src/decoder/mod.rs:Decoder::decode_indexed"]}
{"id": "C33", "title": "What a failed decode leaves behind", "statement": "When decode fails, dst has been extended by the headers of the representations before the offending one, buf starts at the offending representation, and the table is the one after those headers; so a failure is atomic per representation. [The documentation claims that nothing is consumed or written at all, which is false.]", "quantifier": "all byte strings, all states", "why_tests_cant": "All failing inputs.", "anchors": ["hpack/src/decoder/mod.rs:Decoder::decode"]}
{"id": "C34", "title": "Decoding in pieces", "statement": "If decode succeeds on b1 then decoding b1 followed by b2 is the same as decoding b1 and then b2.", "quantifier": "all byte strings b1, b2, all states", "why_tests_cant": "All split points.", "anchors": ["hpack/src/decoder/mod.rs:Decoder::decode"]}
{"id": "C35", "title": "Size updates obey the protocol limit", "statement": "A size update above the limit is rejected with InvalidMaxDynamicSize without any change; after any history of decodes and limit changes the table occupies no more than the largest limit in force so far.", "quantifier": "all byte strings, all histories", "why_tests_cant": "Adversarial histories.", "anchors": ["hpack/src/decoder/mod.rs:Decoder::update_max_dynamic_size", "hpack/src/decoder/mod.rs:Decoder::set_max_dynamic_size"]}
{"id": "C36", "title": "decode_exact honours the capacity", "statement": "decode_exact processes at most capacity representations and thus adds at most capacity headers; with room for all it equals decode; it leaves the rest of the buffer in place. The expectations that the vector never holds more headers than its capacity, and that exactly as many headers are decoded as there is capacity, are refuted (the whole capacity counts even if the vector is full; a size update uses up one).", "quantifier": "all byte strings, all capacities", "why_tests_cant": "Unbounded.", "anchors": ["hpack/src/decoder/mod.rs:Decoder::decode_exact"]}
{"id": "C37", "title": "Meaning of the returned count", "statement": "On success decode returns the number of bytes consumed by header representations; bytes of size updates are not counted. [The count therefore is not always the number of bytes consumed.]", "quantifier": "all byte strings, all states", "why_tests_cant": "All inputs.", "anchors": ["hpack/src/decoder/mod.rs:Decoder::decode"]}
{"id": "C38", "title": "Flags reported by the decoder", "statement": "Each decoded header carries flag 0x4 exactly when it was read as literal with incremental indexing (and then was inserted), 0x8 exactly when read as never indexed, else 0; no other representation changes the entries of the table.", "quantifier": "all decoder steps", "why_tests_cant": "All inputs.", "anchors": ["hpack/src/decoder/mod.rs:Decoder::decode_literal"]}
{"id": "C39", "title": "Invalid indices are rejected", "statement": "Index 0 as header index and any index beyond the table are rejected with InvalidIndex by encoder and decoder, with no effect.", "quantifier": "all states and indices", "why_tests_cant": "Arbitrary table length.", "anchors": ["hpack/src/encoder/mod.rs:Encoder::encode_indexed", "hpack/src/encoder/mod.rs:Encoder::encode_indexed_name", "hpack/src/decoder/mod.rs:Decoder::decode_indexed", "hpack/src/decoder/mod.rs:Decoder::decode_literal"]}
{"id": "C40", "title": "When encoding fails", "statement": "encode returns InvalidIndex (nothing written, table unchanged) exactly if the caller's index has no header, else IntegerOverflow exactly if the representation chosen has a string of 2^32 octets or more, else success; it never panics.", "quantifier": "all states and inputs", "why_tests_cant": "All inputs.", "anchors": ["hpack/src/encoder/mod.rs:Encoder::encode"]}
{"id": "C41", "title": "Decoding makes progress", "statement": "Every successful decoding step consumes at least one byte, so decode terminates on every input.", "quantifier": "all byte strings and states", "why_tests_cant": "Termination over all inputs.", "anchors": ["hpack/src/decoder/mod.rs:Decoder::decode"]}
{"id": "C42", "title": "Varint round trip", "statement": "Encoding a u64 as a varint and decoding it, with any bytes after it, returns the value and the number of bytes written.", "quantifier": "all u64, all suffixes", "why_tests_cant": "2^64 values.", "anchors": ["protos/src/encoder/primitives.rs:encode_varint", "protos/src/decoder/primitives.rs:decode_varint"]}
{"id": "C43", "title": "Varint size", "statement": "encode_varint writes between 1 and 10 bytes, returns that number, and it is the smallest number of 7-bit groups that can hold the value.", "quantifier": "all u64", "why_tests_cant": "2^64 values.", "anchors": ["protos/src/encoder/primitives.rs:encode_varint"]}
{"id": "C44", "title": "Varint decoding is sound", "statement": "If decode_varint succeeds on at most ten bytes, it stopped at the first byte below 0x80 and the value is the little-endian base-128 value of those bytes modulo 2^64; input without such a byte yields InputUnderflow.", "quantifier": "all byte strings", "why_tests_cant": "All byte strings.", "anchors": ["protos/src/decoder/primitives.rs:decode_varint"]}
{"id": "C45", "title": "What happens to a varint of more than ten bytes", "statement": "A varint of more than ten bytes is never reported as an error: with overflow checks the call panics, without them it succeeds with the groups shifted modulo 64, consuming exactly the varint. So the expectation that over-long varints are rejected is refuted (eleven bytes that say 2^70 are read as 64).", "quantifier": "all byte strings with more than ten continuation bytes, both build profiles", "why_tests_cant": "All byte strings.", "anchors": ["protos/src/decoder/primitives.rs:decode_varint"]}
{"id": "C46", "title": "ZigZag", "statement": "sint32/sint64 encoding maps v >= 0 to 2v and v < 0 to -2v-1 and decoding inverts it.", "quantifier": "all i32, all i64", "why_tests_cant": "2^64 values.", "anchors": ["protos/src/encoder/primitives.rs:encode_sint32", "protos/src/encoder/primitives.rs:encode_sint64", "protos/src/decoder/primitives.rs:decode_sint32", "protos/src/decoder/primitives.rs:decode_sint64"]}
{"id": "C47", "title": "Scalar round trip", "statement": "Every scalar of each of the 13 formats, written by the encoder and wrapped in the matching DecoderLit, converts back to the same value.", "quantifier": "all values of bool, int32, int64, uint32, uint64, sint32, sint64, fixed32, fixed64, sfixed32, sfixed64, float and double (bit patterns)", "why_tests_cant": "2^64 values.", "anchors": ["protos/src/encoder/primitives.rs:encode_int32", "protos/src/decoder/lit.rs:DecoderLit"]}
{"id": "C48", "title": "Packed repeated round trip", "statement": "Every vector of each of the 13 formats, including the empty one, encoded as a packed field converts back to the same vector.", "quantifier": "all vectors of all lengths", "why_tests_cant": "Unbounded vectors.", "anchors": ["protos/src/encoder/mod.rs:Encoder::encode_int32_vec", "protos/src/decoder/primitives.rs:decode_int32_vec", "protos/src/decoder/lit.rs:DecoderLit"]}
{"id": "C49", "title": "Field key", "statement": "A key with tag 1..2^29-1 and a known wire type decodes to the same tag and type; encoding with any other tag fails with InvalidTag and writes nothing.", "quantifier": "all u32 tags, all wire types, all field formats", "why_tests_cant": "2^32 tags.", "anchors": ["protos/src/encoder/primitives.rs:encode_key", "protos/src/decoder/primitives.rs:decode_key"]}
{"id": "C50", "title": "Malformed keys are rejected", "statement": "A key with tag 0, with wire type 3, 4, 6 or 7, or above 2^32-1 is rejected with InvalidInput; accepted keys have tag 1..2^29-1.", "quantifier": "all byte strings", "why_tests_cant": "All byte strings.", "anchors": ["protos/src/decoder/primitives.rs:decode_key"]}
{"id": "C51", "title": "Message round trip", "statement": "Encoding any list of fields none of which is an empty length-delimited field and decoding the bytes in one call yields exactly these tags, wire types and payloads in order and consumes everything.", "quantifier": "all lists of fields, all formats", "why_tests_cant": "Unbounded messages.", "anchors": ["protos/src/encoder/mod.rs:Encoder::encode", "protos/src/decoder/mod.rs:Decoder::decode"]}
{"id": "C52", "title": "Exactly when one decode call reads the whole message", "statement": "On the encoding of any list of fields, one call of decode reads the whole message if and only if no field before the last has an empty length-delimited value; otherwise it stops right after the first such field, which is still delivered. Calling decode until it returns 0 reads every message. So the expectation that one call is always enough is refuted.", "quantifier": "all lists of fields", "why_tests_cant": "Unbounded messages.", "anchors": ["protos/src/decoder/mod.rs:Decoder::decode", "protos/src/decoder/mod.rs:Decoder::extract_ld_bytes"]}
{"id": "C53", "title": "Streaming", "statement": "Splitting a byte stream into chunks in any way, appending each chunk to the buffer and decoding until decode returns 0, yields the same fields, the same error and the same rest as decoding the whole stream at once.", "quantifier": "all byte streams, all chunkings", "why_tests_cant": "Number of chunkings is exponential.", "anchors": ["protos/src/decoder/mod.rs:Decoder::decode"]}
{"id": "C54", "title": "Nothing is lost or invented", "statement": "After decode, successful or not, the bytes removed from the buffer followed by what is left are the original bytes, the emitted payloads appear in the removed bytes, and on success the returned number is the number of bytes removed.", "quantifier": "all byte strings, all decoder states", "why_tests_cant": "All inputs.", "anchors": ["protos/src/decoder/mod.rs:Decoder::decode"]}
{"id": "C55", "title": "Failed decode", "statement": "After an error the buffer starts at the offending key, the fields before it were delivered, and decoding again fails the same way. [The documentation claims nothing is consumed on error, which is false.]", "quantifier": "all byte strings", "why_tests_cant": "All failing inputs.", "anchors": ["protos/src/decoder/mod.rs:Decoder::decode"]}
{"id": "C56", "title": "Encoder sizes and append", "statement": "Each encode call appends to the destination exactly the bytes it would write to an empty one, and returns their number.", "quantifier": "all fields, all prior contents", "why_tests_cant": "Unbounded.", "anchors": ["protos/src/encoder/mod.rs:Encoder::encode"]}
{"id": "C57", "title": "Failing writer", "statement": "With a writer that may fail at any call, encode returns Interrupted exactly when a write failed, and what reached the writer is a prefix of the write calls of the successful run.", "quantifier": "all writers, all failure points, all fields", "why_tests_cant": "All failure points.", "anchors": ["protos/src/encoder/primitives.rs:encode_varint", "protos/src/encoder/mod.rs:Encoder::encode"]}
{"id": "C58", "title": "Decoder terminates", "statement": "Decoder::decode terminates on all bytes. Calling it until it returns 0 panics exactly if overflow checks are on and, after whole fields, a key or the length of a length-delimited field has more than ten bytes; without overflow checks it never panics.", "quantifier": "all byte strings, all states", "why_tests_cant": "All inputs.", "anchors": ["protos/src/decoder/mod.rs:Decoder::decode", "protos/src/decoder/primitives.rs:decode_varint"]}
{"id": "C59", "title": "Wire type matches format", "statement": "encode uses wire type 0 for varint formats, 5 and 1 for 32 and 64-bit formats, and 2 for bytes and all repeated formats; decode reports that type.", "quantifier": "all formats", "why_tests_cant": "With round trip over unbounded values.", "anchors": ["protos/src/encoder/mod.rs:Encoder::encode"]}
{"id": "C60", "title": "Packed decoding is all or nothing", "statement": "Decoding a packed vector either consumes the whole payload and appends all elements or fails leaving the destination unchanged; truncated payloads fail, and DecoderLit conversions then give the empty vector.", "quantifier": "all byte strings, all 13 formats", "why_tests_cant": "All byte strings.", "anchors": ["protos/src/decoder/primitives.rs:decode_int32_vec", "protos/src/decoder/lit.rs:DecoderLit"]}
{"id": "C61", "title": "Negative int32 and int64 interoperate", "statement": "A negative int32 is written as its ten-byte sign-extended varint, so it reads back the same as int32 and as int64.", "quantifier": "all i32", "why_tests_cant": "2^32 values.", "anchors": ["protos/src/encoder/primitives.rs:encode_int32", "protos/src/decoder/primitives.rs:decode_int64"]}
{"id": "C62", "title": "HPACK integers are written in the shortest form", "statement": "The octets the encoder writes for an integer are an RFC 7541 5.1 representation of it, keep the flag bits above the prefix, and no other representation with the same prefix is shorter.", "quantifier": "all u32, all prefixes 1..8, all flag octets, all representations", "why_tests_cant": "Compares with infinitely many alternative representations of 2^32 values.", "anchors": ["hpack/src/encoder/primitives.rs encode_integer"]}
{"id": "C63", "title": "HPACK encoder only appends", "statement": "Encoder::encode and Encoder::update_max_dynamic_size never change what the destination already holds; verdict, table and appended octets do not depend on it, also when the call fails.", "quantifier": "all encoder states, inputs, sizes and prior contents", "why_tests_cant": "Ranges over all prior contents and all states.", "anchors": ["hpack/src/encoder/mod.rs Encoder::encode, Encoder::update_max_dynamic_size"]}
{"id": "C64", "title": "The protos decoder accepts exactly the wire format", "statement": "Calling Decoder::decode until it returns 0 empties the buffer and delivers a list of fields if and only if the buffer is the concatenation of encodings of exactly these fields (also with non-minimal varints); so a byte string encodes at most one list of fields.", "quantifier": "all byte strings, all lists of fields, both build profiles", "why_tests_cant": "An equivalence over all byte strings.", "anchors": ["protos/src/decoder/mod.rs Decoder::decode"]}
{"id": "C65", "title": "Zero means wait", "statement": "Decoder::decode returns 0 exactly when the buffer ends inside the next key, length or value (with overflow checks: and a key or length has not already more than ten bytes); the call then changes nothing.", "quantifier": "all decoder states, all buffers", "why_tests_cant": "Ranges over all reachable states and buffers.", "anchors": ["protos/src/decoder/mod.rs Decoder::decode"]}
{"id": "C66", "title": "Scalar conversions of arbitrary payloads", "statement": "Converting any bytes with a scalar DecoderLit gives the first element they start with (int32, uint32 and sint32 keep the low 32 bits, bool is true for any non-zero number) and otherwise the default value; there is no other outcome except the panic on over-long varints with overflow checks.", "quantifier": "all byte strings, 13 formats, both build profiles", "why_tests_cant": "Ranges over all byte strings.", "anchors": ["protos/src/decoder/lit.rs", "protos/src/decoder/primitives.rs"]}
{"id": "C67", "title": "Conversion of a DecoderLit to a type of another kind", "statement": "Converting a DecoderLit into a Rust type that does not belong to its variant gives the default value of the type (false, 0, empty vector, empty string), whatever bytes it holds; it never panics.", "quantifier": "all DecoderLit values, 16 target types, both build profiles", "why_tests_cant": "Ranges over all payloads of all 29 variants.", "anchors": ["protos/src/decoder/lit.rs From<DecoderLit> impls"]}
{"id": "C69", "title": "EncoderLit::from picks the natural format", "statement": "EncoderLit::from(&value) followed by Encoder::encode writes the value in the protobuf format named like the Rust type (bool, int32, int64, uint32, uint64, float, double, bytes, packed vectors of them), and decoding the field and converting the payload in the variant of the same name gives the value back.", "quantifier": "all values and vectors of the 15 types, all tags 1..2^29-1, all prior contents", "why_tests_cant": "Ranges over all values of all types.", "anchors": ["protos/src/encoder/lit.rs From impls", "protos/src/encoder/mod.rs Encoder::encode", "protos/src/decoder/lit.rs"]}
{"id": "C70", "title": "Text survives", "statement": "A string written as bytes and converted back with String::from(DecoderLit::Bytes) is the same string; bytes which are no UTF-8 text give the empty string, never a part of a text.", "quantifier": "all strings, all byte strings", "why_tests_cant": "Ranges over all strings of Unicode scalar values and all byte strings.", "anchors": ["protos/src/decoder/lit.rs From<DecoderLit> for String"]}
{"id": "C72", "title": "Nested messages", "statement": "A message nested to any depth (each inner message is encoded into its own buffer and written as Bytes) has the protobuf encoding, and decoding it level by level delivers every field at every level with its tag, wire type and value.", "quantifier": "all trees of fields of any depth and width, both build profiles", "why_tests_cant": "Unbounded depth; every combination of types at every level.", "anchors": ["protos/src/encoder/mod.rs Encoder::encode", "protos/src/decoder/mod.rs Decoder::decode"]}
{"id": "C73", "title": "Compatible type changes", "statement": "A field written as bool, int32, int64, uint32 or uint64 and read as another of these formats gives the value reduced to the size of the new type (bool: non-zero); likewise sint32/sint64, and fixed/sfixed of the same size.", "quantifier": "all values, all pairs of compatible formats, all tags, both build profiles", "why_tests_cant": "25 pairs of formats times all 64-bit values.", "anchors": ["protos/src/encoder/lit.rs", "protos/src/decoder/lit.rs"]}
{"id": "C78", "title": "Concatenation of messages", "statement": "If byte strings are each decoded completely into lists of fields, their concatenation is decoded completely into the concatenation of the lists.", "quantifier": "all finite lists of byte strings, both build profiles", "why_tests_cant": "Ranges over all lists of all messages.", "anchors": ["protos/src/decoder/mod.rs Decoder::decode"]}
{"id": "C68", "title": "Default encoder and decoder interoperate", "statement": "Encoder::default() and Decoder::default() report a maximum table size of 4096; every session of the default encoder with size updates up to 4096 is decoded by the default decoder into the headers given, with equal tables at the end; the default decoder accepts size updates up to 4096 and rejects larger ones.", "quantifier": "all sessions of headers and size updates, all size updates", "why_tests_cant": "Ranges over all histories and all sizes.", "anchors": ["hpack/src/encoder/mod.rs impl Default for Encoder, max_dynamic_size", "hpack/src/decoder/mod.rs impl Default for Decoder", "hpack/src/table/dynamic.rs Default"]}
{"id": "C75", "title": "Bounded decompression", "statement": "Decoding, successful or not, adds at most one header per octet consumed; names and values have in total at most max(28, M-32) octets per header plus 8/5 octets per octet consumed, where M bounds the table size and the limit. The same bounds hold over the whole life of a decoder, for any history of decode, decode_exact and set_max_dynamic_size calls, with the total number of octets given and the largest limit.", "quantifier": "all decoder states, all inputs, all bounds M, all histories", "why_tests_cant": "A bound over all inputs, including those crafted to amplify.", "anchors": ["hpack/src/decoder/mod.rs Decoder::decode"]}
{"id": "C76", "title": "The parser reads every table in the RFC format", "statement": "parse returns length and value of each code for every text in the format of RFC 7541 appendix B: any number of lines, any codes of up to 30 bits, any labels, LF or CR LF.", "quantifier": "all code tables, all labels and trailing texts (ASCII)", "why_tests_cant": "The test only parses the one shipped file.", "anchors": ["huffman/src/parser/mod.rs parse, parse_line"]}
{"id": "C79", "title": "BEST_FORMAT does not cost", "statement": "For a header with a non-empty name and a table of at most 16337 entries, whenever encoding without BEST_FORMAT succeeds, encoding with it succeeds and appends no more octets. In general it is longer exactly if the index of the header (or, when only the name is in the table, of the name) needs more octets than what it replaces; this happens with an empty name and with 16338 entries (shown).", "quantifier": "all encoder states, names, values, flags", "why_tests_cant": "Ranges over all tables and headers.", "anchors": ["hpack/src/encoder/mod.rs Encoder::encode", "hpack/src/table/mod.rs Table::find"]}
{"id": "C80", "title": "What Decoder::max_dynamic_size reports", "statement": "Decoder::max_dynamic_size reports the size of the table in force: the last size update decoded, or else the value before, also after a failed decode. set_max_dynamic_size does not change it, so it is not the protocol limit its documentation announces.", "quantifier": "all decoder states, inputs and limits", "why_tests_cant": "Ranges over all inputs and states.", "anchors": ["hpack/src/decoder/mod.rs max_dynamic_size, set_max_dynamic_size"]}
{"id": "C81", "title": "decode_exact in a loop is decode", "statement": "Calling decode_exact repeatedly with vectors of any capacities whose sum is at least the length of the input gives the same headers, table, remaining buffer, verdict and count as one call of decode.", "quantifier": "all decoder states, inputs and sequences of capacities", "why_tests_cant": "Ranges over all ways to split the work.", "anchors": ["hpack/src/decoder/mod.rs Decoder::decode_exact, Decoder::decode"]}
{"id": "C82", "title": "The specific encoding methods agree with encode", "statement": "encode_indexed, encode_indexed_name and encode_literal do the same as encode with the corresponding EncoderInput (made by From), in every state and also when they fail; encode_literal ignores BEST_FORMAT.", "quantifier": "all encoder states and arguments", "why_tests_cant": "Ranges over all states, strings and flag octets.", "anchors": ["hpack/src/encoder/mod.rs encode_indexed, encode_indexed_name, encode_literal", "hpack/src/encoder/input.rs From impls"]}
{"id": "C85", "title": "A stored header costs one octet", "statement": "After a header that fits the table was sent as a literal with WITH_INDEXING, sending it again with BEST_FORMAT (and any other flags) appends exactly one octet and leaves the encoder's table unchanged.", "quantifier": "all encoder states, headers and flags", "why_tests_cant": "Ranges over all tables and headers.", "anchors": ["hpack/src/encoder/mod.rs Encoder::encode", "hpack/src/table/mod.rs Table::find, Table::insert"]}
{"id": "C86", "title": "The encoder's output is the shortest form of the representation", "statement": "A successful call appends exactly the number of octets of the shortest wire form of the chosen representation (with the chosen Huffman coding), also for size updates; no other wire form of it is shorter.", "quantifier": "all encoder states, inputs and wire forms", "why_tests_cant": "Compares with infinitely many alternative encodings.", "anchors": ["hpack/src/encoder/mod.rs", "hpack/src/encoder/primitives.rs"]}
{"id": "C87", "title": "HPACK decoding can be resumed and fed in chunks", "statement": "Calling decode after more octets were appended to the buffer that an earlier decode call left (whatever that call returned) gives the same decoded headers, table and remaining buffer as one call on everything, and the same verdict: both succeed, or both fail with the same error, or both panic. The same holds for any division of the input into chunks. The headers delivered for a truncated block are a prefix of those delivered for the whole block.", "quantifier": "all decoder states, all buffers and all divisions into chunks", "why_tests_cant": "The number of ways to cut a block is exponential in its length and every state is possible.", "anchors": ["hpack/src/decoder/mod.rs Decoder::decode"]}
{"id": "C88", "title": "Size updates are accepted anywhere in a block", "statement": "If decode accepts a block, it also accepts the block followed by a dynamic table size update not above the limit, delivers the same headers, and then resizes the table. RFC 7541 4.2 requires such updates at the beginning of a block; the decoder does not enforce it.", "quantifier": "all decoder states, accepted blocks and size updates in any of their wire forms", "why_tests_cant": "Ranges over all blocks and tables.", "anchors": ["hpack/src/decoder/mod.rs Decoder::decode, update_max_dynamic_size"]}
{"id": "C89", "title": "set_max_dynamic_size on the decoder only limits later size updates", "statement": "Decoder::set_max_dynamic_size does not change how any block without size updates is decoded: same headers, same table, same reported maximum; in particular it neither shrinks the table nor evicts. A higher limit changes nothing at all for input, valid or not, that is not refused because of the limit; a lower one makes a difference only by stopping at the first size update beyond it with InvalidMaxDynamicSize, after the beginning of the same headers.", "quantifier": "all decoder states, all inputs, all pairs of limits", "why_tests_cant": "Ranges over all limits, tables and blocks.", "anchors": ["hpack/src/decoder/mod.rs Decoder::set_max_dynamic_size, decode"]}
{"id": "C90", "title": "Parsing then flattening the text of a prefix code gives a correct decoder", "statement": "For every text in the RFC 7541 Appendix B layout that lists a prefix code, parse followed by flatten returns a matrix; if it has at most 256 rows, walking it finds a symbol with some unused bits exactly when the bits walked are the code printed on that symbol's line followed by these bits.", "quantifier": "all texts of prefix codes, all speeds, all walks", "why_tests_cant": "Ranges over all prefix codes and their textual layouts, not the single shipped asset.", "anchors": ["huffman/src/parser/mod.rs parse", "huffman/src/flattener/mod.rs flatten"]}
{"id": "C91", "title": "The protos decoder on targets with a narrow usize", "statement": "On a target whose usize has w bits and for a buffer that fits its address space, Decoder::decode gives the same result and state as on a 64-bit target, unless the 64-bit decoder ends up waiting for a payload whose declared length does not fit w bits; in that case the declared length is taken modulo 2^w: the decoder waits if fewer bytes are there, otherwise it delivers that many bytes as the whole field and goes on from a wrong field boundary.", "quantifier": "all widths w, decoder states and buffers shorter than 2^w", "why_tests_cant": "Ranges over all states and inputs, and over targets the tests do not run on.", "anchors": ["protos/src/decoder/primitives.rs extract_ld", "protos/src/decoder/mod.rs Decoder::decode, extract_ld_bytes"]}
{"id": "C92", "title": "Exactly which texts the table parser accepts", "statement": "parse returns a table exactly when each line of the text has at least 59 bytes, only the characters 0, 1, bar and space in columns 12 to 44, and a hexadecimal number below 2^32 (optionally with a plus sign, surrounded by Unicode white space) in columns 50 to 58; the row is the number of bits in the former and the value of the latter. On every other text it panics. The bits are only counted, not compared with the value.", "quantifier": "all texts", "why_tests_cant": "Ranges over all texts, not only the shipped asset.", "anchors": ["huffman/src/parser/mod.rs parse, parse_line"]}
{"id": "C83", "title": "decode does not depend on the capacity the allocator grants", "statement": "Decoder::decode reads each header into a fresh Vec::with_capacity(1), of which Rust promises only a capacity of at least one. Whatever capacities are granted, decode returns the same result and count, leaves the same table, limit and buffer, and on success delivers the same headers; on failure the delivered headers are the same up to a missing tail.", "quantifier": "all decoder states and inputs, all sequences of granted capacities >= 1", "why_tests_cant": "A test runs with the one allocator it has; the claim is about all allocators and all inputs.", "anchors": ["hpack/src/decoder/mod.rs Decoder::decode, decode_exact"]}
{"id": "C84", "title": "Floating point rounding never shows in Huffman results", "statement": "decode and flatten compute chunk counts with f64 and f32 divisions rounded up. Whatever rounding mode of IEEE 754 is used, decode returns the same result and output as with exact arithmetic, for every input and speed, and so does flatten for every list of codes.", "quantifier": "all inputs, speeds, code lists (lengths in u8) and all roundings that are monotone and exact on representable numbers", "why_tests_cant": "Ranges over all inputs and rounding modes; a single quotient rounded across an integer would shift a whole table.", "anchors": ["huffman/src/decoder/reader.rs DecodeReader::finalize", "huffman/src/flattener/mod.rs flatten, generate_coding_paths"]}
{"id": "C71", "title": "Truncated and extended Huffman input", "statement": "What decode appends for an input is the beginning of what it appends for any longer input, successful or not and at any speed; decoding part of an encoding of s delivers a beginning of s, and a proper one if at least one octet is missing. Encoding s ++ t is encoding s and then t if and only if (t being not empty) the codes of s end at an octet boundary; and in exactly these cases the two encodings joined are decoded to s ++ t.", "quantifier": "all inputs, all extensions, all cut points, all strings s and t", "why_tests_cant": "All inputs and all cut points.", "anchors": ["huffman/src/decoder/mod.rs:decode", "huffman/src/encoder/mod.rs:encode", "huffman/src/decoder/reader.rs:DecodeReader"]}
{"id": "C93", "title": "An HPACK session over a byte stream", "statement": "The octets an encoder produced for any history of calls can be cut into chunks anywhere; a synchronised decoder called after each chunk, whatever the calls return, has in the end delivered exactly the headers the calls mean, in order, with nothing left and the encoder's table. If the stream is cut off, it has delivered a beginning of these headers.", "quantifier": "all histories of encoder calls, all ways of cutting, all synchronised states", "why_tests_cant": "Ranges over histories and over all chunkings.", "anchors": ["hpack/src/encoder/mod.rs:Encoder::encode", "hpack/src/encoder/mod.rs:Encoder::update_max_dynamic_size", "hpack/src/decoder/mod.rs:Decoder::decode"]}
{"id": "C94", "title": "Refused encoder calls leave no trace", "statement": "A user may ignore InvalidIndex errors and go on: the calls refused are exactly those whose index had no header at that moment, and a synchronised decoder yields exactly the headers of the other calls and stays synchronised.", "quantifier": "all histories of encoder calls, also with invalid indices; all synchronised states", "why_tests_cant": "Which indices are valid depends on the whole history.", "anchors": ["hpack/src/encoder/mod.rs:Encoder::encode", "hpack/src/encoder/mod.rs:Encoder::encode_indexed", "hpack/src/encoder/mod.rs:Encoder::encode_indexed_name"]}
{"id": "C77", "title": "Header blocks and limit changes on a connection", "statement": "On a connection with any history of header blocks (each made by encoder calls, refused ones included) and of set_max_dynamic_size calls of the receiver, if every size update sent is within the limit in force then, every decode call succeeds, exactly the headers of the accepted calls are delivered in order, and the tables are equal after every block.", "quantifier": "all histories of blocks and limit changes", "why_tests_cant": "Ranges over interleavings of two parties' actions.", "anchors": ["hpack/src/encoder/mod.rs:Encoder::encode", "hpack/src/encoder/mod.rs:Encoder::update_max_dynamic_size", "hpack/src/decoder/mod.rs:Decoder::decode", "hpack/src/decoder/mod.rs:Decoder::set_max_dynamic_size"]}
{"id": "C95", "title": "Which flag bits the HPACK encoder looks at", "statement": "For a literal only the five documented bits matter (NEVER_INDEXED only without WITH_INDEXING), for an indexed name only HUFFMAN_VALUE, WITH_INDEXING and NEVER_INDEXED; flags that agree on these have the same effect in every state. With BEST_FORMAT and the whole header in the table no other flag matters. Each of the five bits matters for some header. The public constants are these bits: names joined with | set exactly the bits named. A receiver testing with the decoder's constants finds a header stored exactly if WITH_INDEXING was given and sensitive exactly if NEVER_INDEXED was given without WITH_INDEXING, unless BEST_FORMAT found the whole header in the table (then neither).", "quantifier": "all encoder states, headers and pairs of flag octets", "why_tests_cant": "All states and all 256 x 256 pairs of flags.", "anchors": ["hpack/src/encoder/mod.rs:Encoder::encode", "hpack/src/encoder/mod.rs:Encoder::encode_literal", "hpack/src/encoder/mod.rs:Encoder::encode_indexed_name"]}
{"id": "C97", "title": "Protobuf messages over a byte stream", "statement": "The bytes the encoder writes for any list of fields can be cut into chunks anywhere; decoding until 0 after each chunk delivers exactly these fields, with nothing left. If the stream is cut off anywhere, or the writer fails at any call, then without an error exactly the fields whose bytes have all arrived are delivered.", "quantifier": "all lists of fields, all chunkings, all cut points, all failing write calls", "why_tests_cant": "All chunkings and crash points.", "anchors": ["protos/src/encoder/mod.rs:Encoder::encode", "protos/src/decoder/mod.rs:Decoder::decode"]}
{"id": "C96", "title": "The speed chosen by the HPACK decoder cannot be observed", "statement": "HPACK decoding gives the same verdict, count, headers, table and rest of the buffer whatever Huffman reading speed the decoder uses internally.", "quantifier": "all decoder states, inputs, capacities and speeds", "why_tests_cant": "All inputs and states.", "anchors": ["hpack/src/decoder/mod.rs:Decoder", "hpack/src/decoder/primitives.rs:decode_string"]}
{"id": "C98", "title": "HPACK decoder only appends", "statement": "decode and decode_exact only append to dst, also when they fail: verdict, table, rest of the buffer and the headers appended do not depend on what dst holds.", "quantifier": "all decoder states, inputs and contents of dst", "why_tests_cant": "All inputs and contents.", "anchors": ["hpack/src/decoder/mod.rs:Decoder::decode", "hpack/src/decoder/mod.rs:Decoder::decode_exact"]}
{"id": "C99", "title": "Which integer format is shorter", "statement": "A negative number costs ten bytes as int32 or int64; as sint32 at most five, as sint64 ten only below -2^62. For numbers >= 0 int32/int64 is never longer than sint32/sint64, which adds at most one byte. fixed32 is shorter than uint32 exactly from 2^28 on, fixed64 shorter than uint64 exactly from 2^56 on.", "quantifier": "all i32, i64, u32, u64", "why_tests_cant": "The comparison must hold for all values of the domains (2^64); the boundaries are where sizes change.", "anchors": ["protos/src/encoder/primitives.rs: encode_int32, encode_int64, encode_sint32, encode_sint64, encode_uint32, encode_uint64, encode_fixed32, encode_fixed64"]}
{"id": "C100", "title": "Headers that are not stored do not influence the rest", "statement": "If two call histories of an HPACK encoder differ only in headers encoded without WITH_INDEXING, all other calls return the same results, write the same octets and leave the same table; such headers may also be left out or added. A literal without BEST_FORMAT is written without regard to the table. With BEST_FORMAT the length of the output does depend on the table (shown by a witness: compression side channel).", "quantifier": "all pairs of histories of encode and size-update calls of any length, all tables, all contents of the unstored headers", "why_tests_cant": "Non-interference compares all pairs of executions; no finite set of runs settles it.", "anchors": ["hpack/src/encoder/mod.rs:Encoder::encode", "hpack/src/encoder/mod.rs:Encoder::encode_literal", "hpack/src/encoder/mod.rs:Encoder::encode_indexed_name", "hpack/src/encoder/mod.rs:Encoder::encode_indexed"]}
{"id": "C101", "title": "What each error of the HPACK decoder means", "statement": "decode fails with error e exactly if, after complete meaningful representations, the input goes on with a representation having the defect e stands for: InvalidIndex an index that names no entry, InvalidMaxDynamicSize a size update above the limit, IntegerOverflow an integer too long for u32, IntegerUnderflow a string shorter than its length, InvalidInput a string with no Huffman decoding. decode_exact likewise, with fewer representations than the capacity before it. InvalidPrefix never occurs.", "quantifier": "all decoder states, buffers, capacities and error kinds", "why_tests_cant": "An equivalence over all inputs; tests show single inputs per error only.", "anchors": ["hpack/src/decoder/mod.rs:Decoder::decode", "hpack/src/decoder/mod.rs:Decoder::decode_exact", "hpack/src/decoder/primitives.rs:decode_integer", "hpack/src/decoder/primitives.rs:decode_string", "hpack/src/decoder/error.rs:DecoderError"]}
{"id": "C102", "title": "Which errors occur at all", "statement": "Huffman encoding never fails. The HPACK encoder reports only InvalidIndex and IntegerOverflow; size updates are always accepted. The protos encoder reports InvalidTag exactly for tags outside 1..2^29-1, Interrupted only from a writer that failed, and never DataOverflow. protos Decoder::decode reports no error but InvalidInput. decode_varint reports only InputUnderflow, exactly if the bytes end before the varint does; decode_key reports it in the same cases and otherwise InvalidInput.", "quantifier": "all inputs, states and writers", "why_tests_cant": "Absence of an outcome over all inputs.", "anchors": ["huffman/src/encoder/mod.rs:encode", "hpack/src/encoder/mod.rs:Encoder::encode", "protos/src/encoder/mod.rs:Encoder::encode", "protos/src/encoder/error.rs:EncoderError", "protos/src/decoder/mod.rs:Decoder::decode", "protos/src/decoder/primitives.rs:decode_varint", "protos/src/decoder/primitives.rs:decode_key"]}
{"id": "C103", "title": "Writers that take the bytes in pieces", "statement": "With a writer that accepts any number of bytes per call, is interrupted or fails at any point, encode hands over a beginning of exactly the bytes a vector would get; it succeeds exactly if that is all of them, which is the case if no call of write fails or takes nothing. The receiver reads a beginning of the fields without an error, all of them on success. Retrying after Interrupted, which the documentation allows, may corrupt the message (witness).", "quantifier": "all schedules of outcomes of write, all lists of fields", "why_tests_cant": "All schedules of partial writes, interruptions and failures.", "anchors": ["protos/src/encoder/mod.rs:Encoder::encode", "protos/src/encoder/primitives.rs:write_all calls", "protos/src/encoder/error.rs:EncoderError::Interrupted"]}
{"id": "C104", "title": "Intermediaries pass headers on unchanged", "statement": "If an intermediary decodes headers (completely or up to an error) and hands each of them, with the flag the decoder reported and any choice of Huffman bits, to the encoder of another synchronised connection, all calls succeed and the next decoder delivers the same headers with the same flags in the same order; so a header marked never-indexed stays marked on every hop. The same along any number of hops, each with its own table contents and sizes.", "quantifier": "all decoder states and inputs of the first hop, all table states of all further hops, any number of hops, any choice of Huffman flags; names and values short enough for the integer coding", "why_tests_cant": "All inputs, all table histories on each hop and chains of any length.", "anchors": ["hpack/src/decoder/mod.rs:Decoder::decode", "hpack/src/encoder/mod.rs:Encoder::encode", "hpack/src/encoder/input.rs:EncoderInput", "hpack/src/decoder/mod.rs:Decoder::NEVER_INDEXED"]}
{"id": "C74", "title": "Schema-less rewriting of a protobuf message", "statement": "If Decoder::decode reads a whole message and each field is converted by the widest unsigned format of its wire type and encoded again, all conversions and calls succeed, the new message is not longer and is read as the same fields (same tags, wire types, fixed-size and length-delimited payloads, varints of the same 64-bit value in shortest form). A message written by this encoder, in any formats, is reproduced byte for byte, so rewriting twice changes nothing more. Varints of more than ten bytes are excluded (C45).", "quantifier": "all byte strings the decoder reads as a message, all lists of fields written by the encoder, both build profiles", "why_tests_cant": "All messages, including those with overlong keys, lengths and varints.", "anchors": ["protos/src/decoder/mod.rs:Decoder::decode", "protos/src/decoder/lit.rs:DecoderLit", "protos/src/encoder/mod.rs:Encoder::encode", "protos/src/encoder/lit.rs:EncoderLit"]}
{"id": "C105", "title": "Debug and release builds and 32- and 64-bit targets agree", "statement": "Huffman encode and decode, HPACK integer and string coding, the dynamic table, and the whole HPACK Encoder and Decoder (encode, update_max_dynamic_size, decode, decode_exact) give the same results, the same output, the same states and the same panics with overflow checks (debug profile) and with wrapping arithmetic and masked shift amounts (release profile), on any target whose usize has at least 32 bits. For insertion into the table the sizes of all entries must fit into usize; for a call of the decoder it suffices that twice the larger of the table's maximum and the protocol limit plus four times the input length plus 64 fits into usize. (protos, where the profiles differ, is treated in C45 and C91.)", "quantifier": "all inputs, speeds, tables with consistent size, both profiles, all widths of at least 32 bits", "why_tests_cant": "Tests run in one profile on one target; agreement ranges over all inputs and all profiles.", "anchors": ["huffman/src/decoder/reader.rs:DecodeReader::decode", "huffman/src/decoder/reader.rs:DecodeReader::finalize", "huffman/src/encoder/mod.rs:encode", "hpack/src/decoder/primitives.rs:decode_integer", "hpack/src/decoder/primitives.rs:decode_string", "hpack/src/encoder/primitives.rs:encode_string", "hpack/src/table/dynamic.rs:DynamicTable::consolidate", "hpack/src/decoder/mod.rs: Decoder::decode, decode_exact", "hpack/src/encoder/mod.rs: Encoder::encode, update_max_dynamic_size"]}
{"id": "C106", "title": "Lifetime and place of a dynamic table entry", "statement": "In any history of insertions and size changes, a header inserted k insertions ago is found at index 62 + k exactly if at no moment since its insertion the size of it and all newer entries exceeded the maximal size of that moment; otherwise there is nothing at that index (never another header). While the maximal size does not change, the condition is that the sizes of it and all later headers sum up to at most the maximum.", "quantifier": "all tables, all histories of insertions and size changes of any length, every insertion in them", "why_tests_cant": "All histories; the condition refers to every moment of the past.", "anchors": ["hpack/src/table/dynamic.rs:DynamicTable::insert", "hpack/src/table/dynamic.rs:DynamicTable::update_max_size", "hpack/src/table/dynamic.rs:DynamicTable::consolidate", "hpack/src/table/mod.rs:Table::get"]}
{"id": "C107", "title": "flatten on arbitrary code lists", "statement": "With overflow checks, flatten panics exactly when some code has length 0 or is longer than the last multiple of the speed before a shift of 32 bits (32, 32, 33, 32, 35 bits for one to five bits at a time); otherwise it returns a matrix. Whatever the list (also no prefix code, also values with too many bits), in the returned matrix every row has 2^speed cells, every pointer leads to a row of the matrix, and there are at most 1 + sum over the codes of (chunks - 1) rows. Release builds panic exactly when some code has length 0, return the same matrix whenever a debug build returns one, and for longer codes return a matrix that is safe to walk but shift by the amount modulo 32: a code is then found where it belongs exactly if the chunks so obtained are its chunks (at one bit at a time: if all bits of its value at positions p mod 32, for p from 32 to its length, are zero).", "quantifier": "all lists of codes, all five speeds", "why_tests_cant": "unbounded lists of codes with arbitrary lengths and values; the repository tests one table", "anchors": ["huffman/src/flattener/mod.rs: flatten, generate_coding_paths, generate_blank_transition"]}
{"id": "C108", "title": "Work of Huffman decoding", "statement": "decode at s bits at a time takes, for every octet it appends, the length of its code divided by s and rounded up rounds, and for the undecodable rest only its complete groups of s bits (for EOS the thirty bits rounded up); table lookups exceed rounds by at most one. So the work is at most one round per input bit, s times the rounds exceeds the number of input bits by at most s-1 per decoded octet plus s-1, and a higher speed never takes more rounds - for every input, also rejected ones.", "quantifier": "all input byte strings, output prefixes and pairs of speeds", "why_tests_cant": "a benchmark samples inputs; that a higher speed never costs more and that no input makes decoding superlinear is a statement about all of them", "anchors": ["huffman/src/decoder/mod.rs: decode", "huffman/src/decoder/reader.rs: DecodeReader::decode, finalize, decode_next, find_target", "huffman/src/decoder/speed.rs: DecoderSpeed", "huffman/src/flattener/mod.rs: flatten (performance remark)"]}
{"id": "C109", "title": "Octets moved while decoding grow quadratically, and no faster", "statement": "hpack Decoder::decode and protos Decoder::decode take every representation (key, length or payload) off the front of the caller's vector, which moves everything behind it. For hpack the number of octets moved in a call is exactly the sum, over the representations read, of what is left behind them. In both crates a call on n octets moves at most n(n-1)/2 octets, whatever the octets and whatever the outcome, and this is reached for every n by n one-octet indexed fields, and for every even n by two-octet varint fields.", "quantifier": "all buffers and decoder states (all reachable ones for protos), all lengths n", "why_tests_cant": "the bound is over all inputs and the growth over all lengths; a timing test sees only some sizes", "anchors": ["hpack/src/decoder/mod.rs: Decoder::decode, decode_exact, decode_indexed, decode_literal, update_max_dynamic_size", "protos/src/decoder/mod.rs: Decoder::decode, decode_key, extract_varint, extract_bit32, extract_bit64, decode_ld_len, extract_ld_bytes"]}
{"id": "C110", "title": "Work of the header table", "statement": "The dynamic table of any encoder or decoder never holds more than max_dynamic_size/32 headers (and can hold that many). Table::find asks its iterator for exactly i headers when the searched header is at index i, and for one more than the number of headers in the table otherwise, so at most 62 + max_dynamic_size/32. The entries evicted over the life of a table plus the entries still in it are exactly the entries inserted, whatever the sizes and size changes, so eviction costs at most one removal per insertion.", "quantifier": "all maximum sizes, all histories of insertions and size changes, all searched names and values", "why_tests_cant": "The bounds must hold for every history of insertions and size changes of every length; a test can only time or count a few.", "anchors": ["hpack/src/table/mod.rs: Table::find, Table::iter, Table::insert, Table::update_max_dynamic_size", "hpack/src/table/iter.rs: TableIter::next", "hpack/src/table/dynamic.rs: consolidate, insert, update_max_size"]}
{"id": "C111", "title": "Huffman work of HPACK decoding", "statement": "One call of Decoder::decode makes at most eight lookups in the Huffman decoding tables per octet of the buffer, whatever the octets, the table, the speed and the outcome; indexed fields and size updates make none, and a literal makes exactly those of its Huffman-coded strings. Retrying is a different matter: when the Huffman-coded new name of a literal has arrived and its value arrives octet by octet, each failing attempt decodes the whole name again, so a value of m octets makes decode decode the name m times.", "quantifier": "all buffers, dynamic tables, limits, speeds and outcomes; for the retries all Huffman-coded names and values of any lengths", "why_tests_cant": "A worst case bound over all inputs cannot be observed by running some of them.", "anchors": ["hpack/src/decoder/mod.rs: decode, decode_exact, decode_literal, decode_indexed, update_max_dynamic_size", "hpack/src/decoder/primitives.rs: decode_string", "huffman/src/decoder/mod.rs: decode", "huffman/src/decoder/reader.rs: find_target"]}
{"id": "C112", "title": "The generator programs print source for the tables", "statement": "The example program flatten prints Rust source for a constant DECODE_TABLE which, read with the comments and white space removed, has the declared dimensions of the table and exactly its contents, for every table whose rows have one length and at each speed; run at any of the five speeds it prints the table this crate ships for that speed. The example program parse prints Rust source for a constant ENCODE_TABLE with exactly the entries the parser read, always declared with 257 entries; on the file of the repository these are the entries this crate ships. When the parser panics nothing is printed.", "quantifier": "all decoding tables with rows of one length, all speeds, all texts given to the parser", "why_tests_cant": "That printing loses nothing, for instance at the last column, the last row or in short hexadecimal numbers, has to hold for every table a user may generate; the programs have no tests at all.", "anchors": ["huffman/examples/flatten.rs: main", "huffman/examples/parse.rs: main", "huffman/src/decoder/speed.rs: DecoderSpeed", "huffman/src/flattener/mod.rs: flatten", "huffman/src/parser/mod.rs: parse"]}
{"id": "C113", "title": "What the text of an error says", "statement": "Within each error type the Display text identifies the variant. HPACK decoding prints one of five texts, each exactly if, after some complete meaningful representations, the input goes on with the defect the text names ('Not enough bytes.' exactly for cut-off strings, and so on); HPACK encoding prints only 'Invalid index.' and 'Too many bytes.'. Huffman decoding prints 'Invalid Huffman sequence.' exactly if the input is no sequence of codes with an accepted padding (the HPACK decoder never prints that text and Huffman encoding prints nothing). Protos encoding prints 'Found tag with invalid number.' exactly for tags outside 1..2^29-1 and else only 'Write operation interrupted.' after a failing write; protos decoding prints only 'Invalid byte stream.'.", "quantifier": "all inputs, all decoder and encoder states, all writers", "why_tests_cant": "says for all inputs which text occurs, in both directions", "anchors": ["huffman/src/encoder/error.rs:Display", "huffman/src/decoder/error.rs:Display", "hpack/src/encoder/error.rs:Display", "hpack/src/decoder/error.rs:Display", "protos/src/encoder/error.rs:Display", "protos/src/decoder/error.rs:Display"]}
{"id": "C114", "title": "Room for encoded headers, and when Huffman coding pays", "statement": "A successful encode of a literal appends at most 13 octets plus the data of name and value: their lengths, or 30/8 of their lengths (rounded up) where Huffman coding is asked for; with an indexed name at most 12 plus the value; an indexed field or a size update at most 6. For a literal without BEST_FORMAT, adding HUFFMAN_NAME (or HUFFMAN_VALUE) makes the output not longer exactly if the code lengths of that string sum up to at most eight bits an octet, and shorter exactly if they save at least one octet; text of characters with codes of at most eight bits never gets longer. The bound of 30 bits an octet is reached.", "quantifier": "all encoder states, names, values, flags and indices", "why_tests_cant": "an upper bound and an equivalence over all strings, tables and flags", "anchors": ["hpack/src/encoder/mod.rs:Encoder::encode", "hpack/src/encoder/primitives.rs:encode_string", "hpack/src/encoder/primitives.rs:encode_integer"]}
{"id": "C115", "title": "The protobuf decoder's verdict on every byte string", "statement": "Every byte string is, in exactly one way, a sequence of whole fields, the header (nothing, a key, or a key and a non-zero length) of an unfinished field, and a rest at which reading has to stop: because the rest ends inside the next part, because it starts with a key no field can have, or, with overflow checks, because it starts with a key or length of more than ten bytes. Calling decode until it returns 0 delivers exactly those fields, leaves exactly that rest in the buffer and ends accordingly: successfully, with InvalidInput, or with a panic.", "quantifier": "all byte strings, with and without overflow checks", "why_tests_cant": "an equivalence between the decoder's outcome and the grammar for all inputs", "anchors": ["protos/src/decoder/mod.rs: Decoder::decode", "protos/src/decoder/primitives.rs: decode_varint, decode_key"]}
{"id": "C116", "title": "A failed encode with IntegerOverflow is not without effect", "statement": "When encode fails with IntegerOverflow, the octets of the representation that come before the string that is too long have been appended to the output, and the encoder's table is already changed as if the header had been sent; with WITH_INDEXING and strings of 2^32 octets or more it is emptied. Going on after such a failure breaks the connection: the receiver takes the next header for the beginning of a string and does not get it (in contrast to InvalidIndex, C94).", "quantifier": "all encoder states, inputs and strings of 2^32 octets or more", "why_tests_cant": "needs strings of 4 GiB and all states", "anchors": ["hpack/src/encoder/mod.rs: Encoder::encode, encode_indexed_name, encode_literal", "hpack/src/encoder/primitives.rs: encode_string"]}
{"id": "C117", "title": "Blocks that store nothing may be lost, repeated and reordered; storing blocks may not", "statement": "Let an encoder send any sequence of blocks, each decoded on its own by a decoder in step with it. If every storing block (one with a header with WITH_INDEXING or a size update) arrives once and in order, and the blocks that store nothing arrive between the storing blocks they were sent between, in any order, any number of times or not at all, then the decoder never fails, delivers for every block that arrives exactly the headers that block means, and its table is the encoder's once all storing blocks have arrived. The loss, the repetition or the reordering of storing blocks is not noticed: the decoder delivers wrong headers without an error.", "quantifier": "all synchronised encoder and decoder states, all sequences of blocks of calls that the encoder accepts, all arrival orders", "why_tests_cant": "unboundedly many blocks and arrival orders", "anchors": ["hpack/src/encoder/mod.rs: Encoder::encode, update_max_dynamic_size", "hpack/src/decoder/mod.rs: Decoder::decode", "hpack/src/table/mod.rs: Table"]}
{"id": "C118", "title": "Headers whose working set fits the table are sent as a literal at most once", "statement": "Let a connection send headers of a set S with BEST_FORMAT and WITH_INDEXING (and headers of the static table), in any order and any number of times, mixed with any headers without WITH_INDEXING. If the sizes of the headers of S sum up to at most the maximal size of the table, then from any initial table each header of S is sent as a literal at most once, and afterwards always as an index (one or two octets for tables of up to 6176 octets); so at most as many literals are sent as S has headers, however long the connection. If the set does not fit, eviction in the order of insertion can make every call a literal for ever (three headers in turn with room for two).", "quantifier": "all initial encoder tables, all sets S that fit, all histories of any length and order", "why_tests_cant": "unboundedly long histories and all initial tables", "anchors": ["hpack/src/encoder/mod.rs: Encoder::encode", "hpack/src/table/mod.rs: Table::find", "hpack/src/table/dynamic.rs: DynamicTable::insert, consolidate"]}
{"id": "C119", "title": "HPACK octets are unambiguous", "statement": "If two histories of encoder calls from the same table produce the same octets, they mean the same headers (with the same sensitivity) and leave the same table; if the octets of one are a beginning of the octets of the other, its headers are a beginning of the other's headers.", "quantifier": "all encoder states, all pairs of histories of calls that the encoder accepts, with strings of decodable length", "why_tests_cant": "ranges over all pairs of histories", "anchors": ["hpack/src/encoder/mod.rs: Encoder::encode, update_max_dynamic_size"]}
{"id": "C120", "title": "The HPACK decoder's verdict on every octet string", "statement": "For every octet string, a decode call ends in exactly one way, and the format says which: the longest run of complete, valid representations is applied (headers appended, table changed, octets removed) and then the call succeeds if nothing is left, fails with the error named by the format's list of defects if the next representation is defective, and panics if the next representation is cut short. decode_exact does the same but also stops with success when its vector has no room. Every octet string has such a description, it has only one, and a representation can be read from the front of an octet string in at most one way.", "quantifier": "all decoder states with a well-formed table, all octet strings, all results, all vector capacities", "why_tests_cant": "an equivalence over every octet string and every table: no sample covers it", "anchors": ["hpack/src/decoder/mod.rs: Decoder::decode, decode_exact, decode_indexed, decode_literal, update_max_dynamic_size", "hpack/src/decoder/primitives.rs: decode_integer, decode_string"]}
{"id": "C121", "title": "The bytes of a protobuf message are unambiguous", "statement": "If two lists of fields are encoded into the same bytes, they have equally many fields with the same tags, wire types and payloads, one by one, and the same values wherever they are written in the same format; under a schema that fixes one format per tag the two lists are equal. If the bytes of one list are the beginning of the bytes of another, then it is the beginning of the other, and the remaining bytes are those of the remaining fields.", "quantifier": "all pairs of lists of fields the encoder accepts, all schemas", "why_tests_cant": "ranges over all pairs of messages", "anchors": ["protos/src/encoder/mod.rs: Encoder::encode", "protos/src/encoder/lit.rs: EncoderLit"]}
{"id": "C122", "title": "Bounded expansion of protobuf decoding", "statement": "However the bytes of a stream arrive and however decode is called, also when a call fails, the decoder delivers at most one field per two bytes that arrived, and the payloads of the delivered fields plus one byte per field plus the bytes left in the buffer are at most the bytes that arrived. Converting a packed payload to a vector gives at most one element per byte (per four or eight bytes for fixed-size formats). So hostile input cannot make the decoder hold more than a small multiple of what was sent.", "quantifier": "all byte streams, all schedules of appending and calling decode, all payloads, all 13 packed formats", "why_tests_cant": "ranges over all hostile inputs and all schedules", "anchors": ["protos/src/decoder/mod.rs: Decoder::decode", "protos/src/decoder/primitives.rs: decode_*_vec", "protos/src/decoder/lit.rs: DecoderLit"]}
{"id": "C123", "title": "Encoder and decoder with dynamic tables of different size", "statement": "For any octets, a decoder with a smaller table or limit delivers a beginning of the headers that a decoder with a larger table (holding the same newest entries) delivers, and unless it stops with InvalidIndex or InvalidMaxDynamicSize both give the same headers and the same verdict. Hence: if the decoder was created with at least the size of the encoder, every session of the encoder (headers and size updates within the decoder's limit) is decoded to exactly the headers the calls mean, although the tables differ; if the decoder's table is smaller it never delivers a wrong header: it delivers all of them, or a beginning of them followed by InvalidIndex (or InvalidMaxDynamicSize).", "quantifier": "all encoder and decoder states whose tables agree in the newest entries, all table sizes, all sessions and, for the first part, all octet sequences", "why_tests_cant": "the effect of a size mismatch depends on the whole history of insertions and evictions on both sides; a test compares a few sessions for a few pairs of sizes", "anchors": ["hpack/src/table/mod.rs: Table::insert, Table::get", "hpack/src/encoder/mod.rs: Encoder::encode", "hpack/src/decoder/mod.rs: Decoder::decode"]}
{"id": "C124", "title": "Cost of Huffman coding in pieces", "statement": "If a text is cut into pieces and each piece is Huffman encoded on its own, all calls succeed and the encodings are together not shorter than the encoding of the whole text and at most 7/8 octet per piece longer (with two pieces at most one octet); the bound is reached. The length of an encoding does not depend on the order of the bytes.", "quantifier": "all texts, all ways to cut them into any number of pieces, all permutations", "why_tests_cant": "the cost depends on the code lengths of all bytes of all pieces; tests cover a few texts", "anchors": ["huffman/src/encoder/mod.rs: encode"]}
{"id": "C125", "title": "Several table size updates in a row", "statement": "After any row of size updates the table limit is the last size, and the table holds the longest row of newest entries that fits all announced sizes. So only the smallest and the last size matter, as RFC 7541 4.2 says: rows with the same smallest and the same last size leave the same table. Leaving out the first of two updates leaves the same table exactly if the second size is not larger or the entries kept by the second alone fit the first size. The same holds for updates met by the decoder.", "quantifier": "all reachable encoder and decoder states, all rows of sizes of any length, all wire forms of the updates", "why_tests_cant": "ranges over all histories of the table and all rows of updates", "anchors": ["hpack/src/encoder/mod.rs: Encoder::update_max_dynamic_size", "hpack/src/decoder/mod.rs: Decoder::decode", "hpack/src/table/mod.rs: Table::update_max_dynamic_size"]}
{"id": "C126", "title": "Getting diverged dynamic tables in step again", "statement": "However the tables of an encoder and a decoder have come apart (lost blocks, failures): calls that do not refer to the dynamic table (size updates, static indices, literals without BEST_FORMAT) are still understood. After a size update to 0 followed by one to an allowed size the tables are equal, and everything sent afterwards, in any format, is decoded to exactly the headers the calls mean. Without a reset, if both have the same maximal size, it is enough to send such headers with WITH_INDEXING whose entry sizes sum up to more than the maximal size less 32 (this bound is sharp).", "quantifier": "all encoder and decoder states with consistent tables, all call histories before, during and after", "why_tests_cant": "ranges over all pairs of table contents and all later sessions", "anchors": ["hpack/src/encoder/mod.rs: Encoder::encode, Encoder::update_max_dynamic_size", "hpack/src/decoder/mod.rs: Decoder::decode", "hpack/src/table/mod.rs: Table::insert, Table::update_max_dynamic_size"]}
{"id": "C127", "title": "Repeated fields in several chunks", "statement": "If the elements of a repeated field are written in any chunks, packed vectors or single values, with any other fields in between, then reading the message, joining the payloads of the fields with this tag and converting once with the packed DecoderLit gives all elements in order. For payloads of any origin that convert properly, the joined payload converts to the joined vector; malformed payloads that convert to nothing may join to elements nobody sent (witness).", "quantifier": "all messages, tags and ways to cut the elements into chunks, all 13 packed formats, both build profiles; all pairs of payloads", "why_tests_cant": "ranges over all values, cuts and interleavings", "anchors": ["protos/src/encoder/mod.rs: Encoder::encode", "protos/src/decoder/mod.rs: Decoder::decode", "protos/src/decoder/lit.rs: From<DecoderLit>", "protos/src/decoder/primitives.rs: decode_*_vec"]}
{"id": "C128", "title": "The Huffman code is canonical and encoding keeps the order of texts", "statement": "The shipped table is the canonical code of its lengths: ordering the 257 symbols by code length and then by symbol, the code word of each symbol is determined by the lengths alone (the sum, over the symbols before it, of the share of code words each of them takes). Consequently encodings compare like the texts: where two texts first differ, the encoding of the one with the earlier character in that order is the smaller octet string in the order of Vec<u8>, whatever follows, and the two encodings are never equal.", "quantifier": "all 257 symbols; all texts, all pairs of different characters after a common beginning, all continuations", "why_tests_cant": "the order holds for every pair of texts of any length and any continuation, and depends on the padding of the last octet", "anchors": ["huffman/src/encoder/table.rs: ENCODE_TABLE", "huffman/src/encoder/mod.rs: encode", "huffman/src/lib.rs: canonical Huffman (crate documentation)"]}
{"id": "C129", "title": "Which HPACK decoding failures are final", "statement": "When decode fails with an error other than IntegerUnderflow, no octets that could follow change anything: the call on the longer input fails with the same error, delivers the same headers, leaves the same table, and the octets that follow stay unread; calling again any number of times with more octets repeats the error and delivers nothing. IntegerUnderflow, and the panic on an integer that is cut off, are never final: every input has a continuation with which decode succeeds or fails with a final error. So an error will be reported whatever follows if and only if it is reported now and is not IntegerUnderflow.", "quantifier": "all decoder states with a well-formed table, all octet strings, all continuations, all sequences of later chunks", "why_tests_cant": "it speaks about all continuations of all inputs, including strings with lengths up to 2^28", "anchors": ["hpack/src/decoder/mod.rs: Decoder::decode", "hpack/src/decoder/primitives.rs: decode_integer, decode_string", "hpack/src/decoder/error.rs: DecoderError"]}
{"id": "C130", "title": "A protobuf input that stops early can be finished", "statement": "If a message ends inside a field whose key was read, there are bytes that finish it: with them decoding delivers the fields before and this field with the key read, and nothing is left over (with overflow checks a length of already ten unfinished bytes is excepted). Every byte string can be continued so that decoding ends: all fields complete and nothing left, or refused with InvalidInput, or (with overflow checks) with a panic.", "quantifier": "all byte strings, with and without overflow checks", "why_tests_cant": "it speaks about all inputs and the existence of continuations of any length", "anchors": ["protos/src/decoder/mod.rs: Decoder::decode"]}
{"id": "C131", "title": "Interoperation with any RFC 7541 peer", "statement": "Over a whole connection: whatever sequence of header blocks another implementation sends that follows RFC 7541 (size updates first and within the limit in force, any choice of representation, plain or Huffman strings with the RFC's padding, integers of at most five octets, minimal or not), the decoder accepts every block and delivers exactly the headers the RFC assigns, its table always being the one the RFC prescribes. In the other direction, whatever the encoder sends when the user announces sizes only at the start of a block and none above the peer's limit is a sequence of RFC 7541 header blocks (integers of at most six octets) that means exactly the headers the calls mean, and the encoder's table is the one every conforming decoder has.", "quantifier": "all numbers of blocks, all limits, all octet sequences a conforming peer may send; all calls with all names, values, indices and flags; all consistent starting tables", "why_tests_cant": "The peer is arbitrary: the forms it may choose for each header and the states of the tables are unbounded.", "anchors": ["hpack/src/encoder/mod.rs: Encoder::encode, update_max_dynamic_size", "hpack/src/decoder/mod.rs: Decoder::decode, set_max_dynamic_size", "hpack/src/table/mod.rs: Table"]}
{"id": "C132", "title": "Interoperation with any protobuf peer", "statement": "Whatever bytes another implementation writes for a list of fields within the protobuf wire format (keys, lengths and numbers as varints of at most ten bytes, not necessarily the shortest; 32-bit integers extended to 64 bits or not; any number but 0 for true; packed lists), and however these bytes are cut into pieces and handed to the decoder, the decoder accepts them, delivers exactly the fields in order with field number, wire type and payload, keeps nothing back, and every payload converts to the value the peer meant, in debug and in release builds. In the other direction, what the encoder writes for any valid list of fields is within that format.", "quantifier": "all lists of fields, all field numbers from 1 to 2^29-1, all values of all 27 kinds, all forms a peer may choose, all ways of cutting the bytes, both build profiles", "why_tests_cant": "The peer is arbitrary: messages, values, non-minimal forms and cuts are unbounded.", "anchors": ["protos/src/decoder/mod.rs: Decoder::decode", "protos/src/decoder/primitives.rs", "protos/src/decoder/lit.rs: DecoderLit", "protos/src/encoder/mod.rs: Encoder::encode"]}
{"id": "C133", "title": "The encoding methods of the protobuf encoder, called directly", "statement": "Each of the 27 methods (encode_bool, encode_int32, ..., encode_double_vec, encode_bytes), called directly with a valid tag, appends the field in the protobuf format of its name (key with the right wire type, for bytes and vectors the length, the value) and returns the number of bytes. With an invalid tag each of them returns InvalidTag and does not touch the writer. With any writer, also a failing one, each does exactly what encode does with the literal of the same name.", "quantifier": "all 27 methods, all tags, all values and vectors, all prior contents, all writers", "why_tests_cant": "Values, vectors and writers are unbounded; a test sees one value per method.", "anchors": ["protos/src/encoder/mod.rs: Encoder::encode_bool to Encoder::encode_sfixed64_vec", "protos/src/encoder/primitives.rs"]}
{"id": "C134", "title": "BEST_FORMAT writes the shortest form", "statement": "When a header with a non-empty name is encoded with BEST_FORMAT, no other octet sequence that RFC 7541 allows for the same header at this point of the connection is shorter: whatever index, indexed name or literal name a rival uses, and however it writes its integers, if it means the same (name, value) for the receiver and keeps the same kind of literal and the same choice of Huffman coding for name and value, the encoder appends at most as many octets. This holds for any table with at most 193 entries, so for every dynamic table size up to 6207 octets including the default, and for up to 16337 entries when the value is not empty either. Two conditions are necessary and shown so: with 194 entries and an empty value the encoder can write three octets where two suffice, and another kind of literal can be shorter.", "quantifier": "every encoder state reachable with a consistent table, every header with a non-empty name, all flag octets containing BEST_FORMAT, and every rival representation and wire form", "why_tests_cant": "The rivals are all the representations and wire forms of RFC 7541, with any index and any integer length, for every table content; a test compares with a few hand-written forms.", "anchors": ["hpack/src/encoder/mod.rs: Encoder::encode", "hpack/src/encoder/mod.rs: Encoder::BEST_FORMAT", "hpack/src/table/mod.rs: Table::find", "hpack/src/encoder/primitives.rs: encode_integer"]}
{"id": "C135", "title": "Messages are read by tag: order, merging, unknown and overriding fields", "statement": "A user who reads a protobuf message by tag gets: (a) the order in which fields of different tags were encoded makes no difference to the values found under each tag or to the message length; (b) concatenating two byte strings that each decode completely decodes completely, and under each tag gives the values of the first followed by those of the second, so the last value of a non-repeated field is the second one's if present and otherwise the first one's; (c) inserting fields with other tags between fields changes nothing under the known tags; (d) encoding one more field behind any completely decodable bytes overrides that field (the last value under its tag is the new one and converts back) and leaves every other tag as it was.", "quantifier": "all lists of fields with valid tags, all byte strings that decode completely, all tags, debug and release arithmetic", "why_tests_cant": "It ranges over all messages, all interleavings of their fields and all decodable byte strings, not only those written by this encoder.", "anchors": ["protos/src/encoder/mod.rs: Encoder::encode", "protos/src/decoder/mod.rs: Decoder::decode"]}
{"id": "C136", "title": "An encoder with dynamic size 0 is stateless", "statement": "If an encoder has the maximum dynamic size 0, then whatever headers are encoded and whatever flags are used (also WITH_INDEXING and BEST_FORMAT), its table stays empty and the octets of every block mean the same header list to every decoder, whatever that decoder has stored and whatever its limit is. So blocks may be lost, repeated, reordered and sent to several decoders that also receive other traffic: each arriving block yields exactly its own headers. For a new encoder of size 0 and any list of (name, value, flags) with strings of readable length, encoding succeeds and every decoder yields exactly these names and values.", "quantifier": "all histories of calls (with size updates only to 0), all flags, all decoder states with a consistent table, all orders, losses and repetitions of blocks", "why_tests_cant": "It ranges over all decoder tables and all arrival sequences for every history of the encoder.", "anchors": ["hpack/src/encoder/mod.rs: Encoder::with_dynamic_size", "hpack/src/encoder/mod.rs: Encoder::encode", "hpack/src/decoder/mod.rs: Decoder::decode", "hpack/src/table/dynamic.rs: DynamicTable::insert"]}
{"id": "C137", "title": "The size of the dynamic table matters only when something is evicted", "statement": "Two encoders with the same entries and different maximum dynamic sizes, both with room for everything a history of headers stores, return the same results and write the same octets for every call. A larger table is not always better: there are header lists for which an encoder with a larger maximum size writes more octets in total than one with a smaller maximum size, because entries are evicted in order of insertion.", "quantifier": "all histories of headers with any flags (stored headers being literals or having a static name index), all pairs of maximum sizes with enough room, all consistent tables", "why_tests_cant": "It compares two encoders over all histories and all pairs of sizes.", "anchors": ["hpack/src/encoder/mod.rs: Encoder::encode", "hpack/src/encoder/mod.rs: Encoder::with_dynamic_size", "hpack/src/table/mod.rs: Table::find", "hpack/src/table/dynamic.rs: DynamicTable::insert"]}
{"id": "C138", "title": "A stored value is learned from the output only by guessing it completely", "statement": "Take a history of encoder calls in which one header (name, value) occurs any number of times with any flags, and replace its value by another of the same length. Every other call that mentions neither of the two values returns the same result and writes the same octets in both histories, however long the prefix it shares with them; and if the value is not Huffman coded, the calls that carry it also have the same result and the same number of octets. More generally, renaming headers (same name, same length, one-to-one, static headers left alone) in table and history changes nothing else. A complete guess, and a value of another length, can be seen in the output.", "quantifier": "all histories with any flags and size changes, all pairs of values of the same length, all consistent starting tables without these headers, all renamings", "why_tests_cant": "It relates the outputs of pairs of runs over all histories and all pairs of secrets (a hyperproperty).", "anchors": ["hpack/src/encoder/mod.rs: Encoder::encode", "hpack/src/encoder/mod.rs: Encoder::update_max_dynamic_size", "hpack/src/table/mod.rs: Table::find", "hpack/src/table/dynamic.rs: DynamicTable::insert"]}
{"id": "C139", "title": "Protobuf messages have an exact size and nobody writes them shorter", "statement": "For every list of fields with valid tags, the number of bytes encode writes and returns is the sum over the fields of the 7-bit groups of 8*tag plus the size of the value: the 7-bit groups of the number (10 for negative int32/int64; the zigzag number for sint32/sint64), 1, 4 or 8 for fixed formats, and for lists and bytes the content preceded by the groups of its length. No implementation that writes the same fields within the wire format can use fewer bytes, with one exception: a negative int32, which this encoder writes in ten bytes as the specification demands and which a peer may write in five (and the decoder accepts).", "quantifier": "all lists of fields with tags 1..2^29-1 and all literals; all encodings of the same fields within the wire format", "why_tests_cant": "It gives a lower bound over all encodings of all messages.", "anchors": ["protos/src/encoder/mod.rs: Encoder::encode", "protos/src/encoder/primitives.rs: encode_varint", "protos/src/encoder/primitives.rs: encode_int32"]}
{"id": "C140", "title": "An unfinished field stays with the protobuf decoder when the buffer is replaced", "statement": "A decoder that has read the key (and perhaps the length) of a field whose value has not arrived remembers it, whatever the caller does to the buffer. Whatever buffer and destination the caller goes on with, decoding does exactly what a new decoder does on the bytes of that header followed by the buffer; so the decoder behaves like a new one on every buffer exactly if no key is pending. If the length of a value has been read, the next bytes, whatever they are, are delivered as this value under the old tag, after which the decoder is like new. A message that is cut off therefore corrupts the next one, unless the caller takes a new decoder.", "quantifier": "all reachable decoder states, all buffers and destinations supplied afterwards, with and without overflow checks", "why_tests_cant": "It ranges over all histories of a decoder and all buffers given to it later.", "anchors": ["protos/src/decoder/mod.rs: Decoder::decode", "protos/src/decoder/mod.rs: Decoder::extract_ld", "protos/src/decoder/mod.rs: Decoder::extract_key"]}
{"id": "C141", "title": "What changed octets can do to decoded data", "statement": "Huffman: every character whose code lies before the first changed bit is decoded unchanged, whether or not the call succeeds; a change that keeps length and text is confined to the padding in the last octet, so a change in any earlier octet of an encoding is refused or gives another text. HPACK: headers delivered for the common beginning of two inputs come first in both; changing the octets of a plain value of a header that is not stored changes this value and nothing else (same other headers, same table, same success); changing a stored header lasts: later intact blocks yield the wrong value without an error. Protobuf: fields delivered for the common beginning come first; changing the bytes of a length-delimited value changes this value and nothing else.", "quantifier": "all inputs, all changes, all decoder states with a consistent table, all speeds, with and without overflow checks", "why_tests_cant": "It relates the results for all pairs of inputs.", "anchors": ["huffman/src/decoder/mod.rs: decode", "hpack/src/decoder/mod.rs: Decoder::decode", "protos/src/decoder/mod.rs: Decoder::decode"]}
{"id": "C142", "title": "What a 0 from decode_exact means, and which loops around it are right", "statement": "A successful call of decode_exact returns 0 exactly if it delivered no header: the buffer was empty, the vector had no capacity, or as many size updates as the capacity came first. A vector without capacity (Vec::new()) makes no progress, however often the call is repeated. A loop that ends at the first 0 therefore stops early, without an error, after as many size updates as the capacity, and leaves the headers that follow unread. With a capacity greater than the number of size updates among what decode reads, the loop does exactly what one call of decode does, whether that succeeds or fails.", "quantifier": "all decoder states with a consistent table, all buffers (also damaged and cut ones), all capacities, all numbers of calls", "why_tests_cant": "It quantifies over all buffers, capacities and lengths of the loop.", "anchors": ["hpack/src/decoder/mod.rs: Decoder::decode_exact", "hpack/src/decoder/mod.rs: Decoder::update_max_dynamic_size"]}
{"id": "C143", "title": "Enforcing a limit on the size of the header list", "statement": "A loop that calls decode_exact with room for one header and adds up the sizes (RFC 9113 6.5.2: name, value and 32) enforces a limit exactly. If the headers that decode would deliver fit the limit, the loop delivers the same headers and ends with the same table, the same rest of the buffer and the same error or success as decode. Otherwise it stops with the shortest beginning of the list that exceeds the limit: all headers before the last one fit, so there are at most limit/32 of them. Decoding what is left then ends in the same state and with the same verdict as one decode of the whole block, so the connection can be kept.", "quantifier": "all decoder states with a consistent table, all buffers (well-formed, damaged, cut), all limits", "why_tests_cant": "It quantifies over all buffers, tables and limits.", "anchors": ["hpack/src/decoder/mod.rs: Decoder::decode_exact", "hpack/src/decoder/mod.rs: Decoder::decode"]}
{"id": "C144", "title": "Limiting how many bytes wait for an unfinished protobuf field", "statement": "A receiver that, for every chunk that arrives, appends it, calls decode until it returns 0 and gives up when more than limit bytes are left, bounds what a peer can make it store. The buffer never holds more than limit bytes beyond the chunk that has just arrived. The check changes nothing else: the loop does what the loop without the check does, or it gives up at the first chunk after which more than limit bytes are left. When it gives up (limit at least 8), everything that had arrived is a sequence of fields, all of them reported, then the header of one field, then more than limit bytes that are part of a length-delimited value declared longer than that or of a varint that does not end. With a limit of at least 9 a peer whose values have at most limit+1 bytes (and keys and lengths of at most ten) is never refused, however its bytes are cut into chunks, in particular a peer that uses this crate's encoder; every field is reported. It is no limit on the size of a value: one byte more is accepted in one chunk and refused when its last byte arrives later.", "quantifier": "all limits, all byte strings and all ways to cut them into chunks, all decoder states a user can reach, both overflow modes, all field lists", "why_tests_cant": "It quantifies over all chunkings of all streams and over all limits.", "anchors": ["protos/src/decoder/mod.rs: Decoder::decode", "protos/src/encoder/mod.rs: Encoder::encode"]}
