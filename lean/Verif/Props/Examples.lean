import Verif.Lemmas.RustSource
import Verif.Props.Huffman
import Verif.Props.ParserExact
/-! C112: the example programs print Rust source for the tables. -/
namespace Verif.Props
open Verif Verif.Spec Verif.Huffman Verif.Spec.RustSource

set_option maxRecDepth 20000 in
/-- C112. Whatever table with rows of one length is printed, at whatever speed: the text is a Rust item `DECODE_TABLE` whose
declared dimensions are the number of columns and of rows, and whose contents are the table. -/
theorem C112_decode_source (sp : Speed) (t : List (List Cell)) (w : Nat) (hne : t ≠ []) (hw : ∀ r ∈ t, r.length = w) :
    ∃ text, showDecodeTable sp t = .ok text ∧ decodeConst text = some (w, t.length, t) := by
  cases t with
  | nil => exact absurd rfl hne
  | cons row rows =>
    have hrow : row.length = w := hw row (by simp)
    refine ⟨_, rfl, ?_⟩
    generalize hT : row :: rows = T at *
    have e1 : ∀ r, lex .between (lit "\n" ++ (lit "/// This is a static translation table for decoding Huffman sequence by reading\n" ++
        (lit "/// " ++ (showSpeed sp ++ (lit "-bit(s) at at time.\n" ++ r))))) = lex .between r := by
      intro r; cases sp <;> rfl
    have e2 : ∀ r, lex .between (lit "pub const DECODE_TABLE: [[(Option<u8>, Option<u16>, u8); " ++ r) =
        toks "pub const DECODE_TABLE: [[(Option<u8>, Option<u16>, u8);" ++ lex .between r := fun r => rfl
    have e3 : ∀ r, lit "]; " ++ r = ']' :: ';' :: ' ' :: r := fun r => rfl
    have e4 : ∀ r, lex .between (']' :: ';' :: ' ' :: r) = toks "];" ++ lex .between r := fun r => rfl
    have e5 : ∀ r, lit "] = [ // (next_id, ascii, leftover)\n" ++ r = ']' :: ' ' :: '=' :: ' ' :: (lit "[ // (next_id, ascii, leftover)\n" ++ r) :=
      fun r => rfl
    have e6 : ∀ r, lex .between (']' :: ' ' :: '=' :: ' ' :: (lit "[ // (next_id, ascii, leftover)\n" ++ r)) =
        toks "] =" ++ .punct '[' :: lex .between r := fun r => rfl
    have e7 : lex .between (lit "];\n" ++ lit "\n") = .punct ']' :: (toks ";" ++ []) := rfl
    unfold decodeConst
    simp only [List.append_assoc]
    rw [e1, e2, e3, lex_dec _ _ _ (by decide), e4, e5, lex_dec _ _ _ (by decide), e6,
      lex_rows T.length row.length 0 T _ (by omega) (fun r hr => by rw [hw r hr, hrow]), e7]
    have harr : array (array cell) (.punct '[' :: (seps rowToks T ++ .punct ']' :: (toks ";" ++ []))) = some (T, toks ";" ++ []) := by
      refine array_spec (array cell) rowToks ?_ (fun a => ⟨'[', _, rfl, by decide⟩) T _
      intro r ts
      have := array_spec cell cellToks cell_spec (fun a => ⟨'(', _, rfl, by decide⟩) r ts
      simpa [rowToks] using this
    simp only [expect_spec, Option.bind_eq_bind, Option.bind_some, number, harr, hrow, if_true]

/-- A table of two rows with two cells. -/
example : ∃ text, showDecodeTable .OneBit [[(some 1, none, 0), (none, some 65, 0)], [(none, some 66, 0), (none, some 67, 0)]] = .ok text ∧
    decodeConst text = some (2, 2, [[(some 1, none, 0), (none, some 65, 0)], [(none, some 66, 0), (none, some 67, 0)]]) :=
  C112_decode_source _ _ 2 (by decide) (by decide)

/-- C112. The example `flatten`, at each of the five speeds: it prints Rust source which denotes exactly the decoding table that
this crate ships for that speed, with the right dimensions. -/
theorem C112_flatten_example (sp : Speed) :
    ∃ text, flattenMain sp = .ok text ∧ decodeConst text = some (2 ^ sp.toNat, (tableOf sp.toNat).length, tableOf sp.toNat) := by
  have hrows : ∀ r ∈ tableOf sp.toNat, r.length = 2 ^ sp.toNat := by cases sp <;> decide +kernel
  have hne : tableOf sp.toNat ≠ [] := by cases sp <;> decide +kernel
  obtain ⟨text, h1, h2⟩ := C112_decode_source sp (tableOf sp.toNat) _ hne hrows
  exact ⟨text, by rw [flattenMain, C10_tables_are_flatten]; exact h1, h2⟩

set_option maxRecDepth 20000 in
/-- C112. The comment above the printed table names the speed it was made for, by the name of the variant of `DecoderSpeed`. -/
theorem C112_names_speed (sp : Speed) : ∃ post, flattenMain sp =
    .ok ("\n".toList ++ ("/// This is a static translation table for decoding Huffman sequence by reading\n".toList ++ ("/// ".toList ++
      (["OneBit", "TwoBits", "ThreeBits", "FourBits", "FiveBits"][sp.toNat - 1]!.toList ++ ("-bit(s) at at time.\n".toList ++ post))))) := by
  have hne : tableOf sp.toNat ≠ [] := by cases sp <;> decide +kernel
  rw [flattenMain, C10_tables_are_flatten]
  generalize tableOf sp.toNat = t at *
  cases t with
  | nil => exact absurd rfl hne
  | cons row rows =>
    refine ⟨lit "pub const DECODE_TABLE: [[(Option<u8>, Option<u16>, u8); " ++ (showDec row.length ++ (lit "]; " ++
      (showDec (row :: rows).length ++ (lit "] = [ // (next_id, ascii, leftover)\n" ++
      (showRows (row :: rows).length row.length 0 (row :: rows) ++ (lit "];\n" ++ lit "\n")))))), ?_⟩
    show showDecodeTable sp (row :: rows) = _
    simp only [showDecodeTable, List.append_assoc]
    have hs : showSpeed sp = ["OneBit", "TwoBits", "ThreeBits", "FourBits", "FiveBits"][sp.toNat - 1]!.toList := by cases sp <;> rfl
    rw [hs]
    rfl

set_option maxRecDepth 20000 in
/-- C112. The example `parse`, on the text of any table: if the parser reads it, the program prints Rust source which denotes
the entries read. The declared number of entries is 257 whatever was read, so the source only compiles for 257 entries; when
the parser does not read the text, nothing is printed. -/
theorem C112_parse_source (data : Bytes) :
    (∀ cs, parse data = .ok cs → ∃ text, parseMain data = .ok text ∧ encodeConst text = some (257, cs)) ∧
    ((∀ cs, parse data ≠ .ok cs) → ∀ text, parseMain data ≠ .ok text) := by
  refine ⟨?_, ?_⟩
  · intro cs h
    refine ⟨_, by rw [parseMain, h], ?_⟩
    have e1 : ∀ r, lex .between (lit "\n" ++ (lit "/// This is a static Huffman table built from the codes found in the official\n" ++
        (lit "/// HPACK specification (Appendix B).\n" ++ (lit "pub const ENCODE_TABLE: [(u8, u32); 257] = [ // (length, msb)\n" ++ r)))) =
        toks "pub const ENCODE_TABLE: [(u8, u32);" ++ (.num 257 :: (toks "] =" ++ .punct '[' :: lex .between r)) := by
      intro r; rfl
    have e2 : lex .between (lit "\n" ++ (lit "];\n" ++ lit "\n")) = .punct ']' :: (toks ";" ++ []) := rfl
    have hl : lex .between (showCodings 0 cs ++ (lit "\n" ++ (lit "];\n" ++ lit "\n"))) = seps pairToks cs ++ .punct ']' :: (toks ";" ++ []) := by
      by_cases hc : cs = []
      · subst hc; rfl
      · rw [lex_codings 0 cs _ hc, e2]; rfl
    have harr := array_spec pair pairToks pair_spec (fun a => ⟨'(', _, rfl, by decide⟩) cs (toks ";" ++ [])
    unfold encodeConst
    simp only [List.append_assoc]
    rw [e1, hl]
    simp only [expect_spec, Option.bind_eq_bind, Option.bind_some, number, harr, if_true]
  · intro h text hp
    unfold parseMain at hp
    cases hc : parse data with
    | ok cs => exact h cs hc
    | err e => rw [hc] at hp; cases hp
    | panic => rw [hc] at hp; cases hp
    | hang => rw [hc] at hp; cases hp

/-- C112. On a text that is not such a table the example `parse` stops with a panic and prints nothing; there is no third outcome. -/
theorem C112_parse_panics (data : Bytes) :
    (parseMain data = .panic ↔ ¬ ∃ ls rows, Spec.CodeText.IsLines data ls ∧ Spec.CodeText.LinesMean ls rows) ∧
    (parseMain data = .panic ∨ ∃ text, parseMain data = .ok text) := by
  by_cases h : ∃ ls rows, Spec.CodeText.IsLines data ls ∧ Spec.CodeText.LinesMean ls rows
  · obtain ⟨ls, rows, h1, h2⟩ := h
    have hp := (C92_accepts_exactly data rows).mpr ⟨ls, h1, h2⟩
    obtain ⟨text, ht, _⟩ := (C112_parse_source data).1 rows hp
    exact ⟨⟨fun e => (by rw [ht] at e; cases e), fun hn => absurd ⟨ls, rows, h1, h2⟩ hn⟩, .inr ⟨text, ht⟩⟩
  · have hp : parseMain data = .panic := by rw [parseMain, C92_else_panics data h]
    exact ⟨⟨fun _ => h, fun _ => hp⟩, .inl hp⟩

/-- C112. On the file in the repository the example `parse` prints source for exactly the encoding table this crate ships. -/
theorem C112_parse_example : ∃ text, parseMain ASSET = .ok text ∧ encodeConst text = some (257, ENCODE_TABLE) ∧ ENCODE_TABLE.length = 257 := by
  obtain ⟨text, h1, h2⟩ := (C112_parse_source ASSET).1 _ C11_table_is_parse
  exact ⟨text, h1, h2, by decide +kernel⟩

-- A text on which the example stops with a panic, and the shortest on which it does not.
example : parseMain [50, 53, 54, 32, 124, 49, 49, 124] = .panic ∧ (∃ text, parseMain [] = .ok text) := ⟨by decide +kernel, _, rfl⟩

-- A small table that meets the hypotheses, and what is printed for a cell.
example : showCell (some 15, none, 0) = "(Some(15), None, 0)".toList ∧ showHex2 10 = ['0', 'a'] ∧
    decodeConst "pub const DECODE_TABLE: [[(Option<u8>, Option<u16>, u8); 1]; 1] = [ // x\n [ (None, Some(0x1f), 7) ] ]; ".toList =
      some (1, 1, [[(none, some 31, 7)]]) := by decide +kernel

end Verif.Props
