import Verif.Props.HpackSession
import Verif.Props.HpackMore
import Verif.Hpack.Flags
/-! Property theorem C95: which bits of the flags matter. -/
namespace Verif.Props
open Verif Verif.Spec Verif.Hpack

theorem flag_bit0 (f : UInt8) : f &&& 0x1 = 0x1 ↔ f.toNat.testBit 0 = true := by
  revert f; exact forall_u8 (by decide +kernel)
theorem flag_bit1 (f : UInt8) : f &&& 0x2 = 0x2 ↔ f.toNat.testBit 1 = true := by
  revert f; exact forall_u8 (by decide +kernel)
theorem flag_bit2 (f : UInt8) : f &&& 0x4 = 0x4 ↔ f.toNat.testBit 2 = true := by
  revert f; exact forall_u8 (by decide +kernel)
theorem flag_bit3 (f : UInt8) : f &&& 0x8 = 0x8 ↔ f.toNat.testBit 3 = true := by
  revert f; exact forall_u8 (by decide +kernel)
theorem flag_bit4 (f : UInt8) : f &&& 0x10 = 0x10 ↔ f.toNat.testBit 4 = true := by
  revert f; exact forall_u8 (by decide +kernel)

/-- C95. For a header with an indexed name only the bits HUFFMAN_VALUE (1), WITH_INDEXING (2) and NEVER_INDEXED (3) matter, the last
only without WITH_INDEXING: flags that agree on these have the same effect and the same result in every state. -/
theorem C95_indexed_name (s : EncoderState) (i : UInt32) (v : Bytes) (f g : UInt8)
    (h1 : f.toNat.testBit 1 = g.toNat.testBit 1) (h2 : f.toNat.testBit 2 = g.toNat.testBit 2)
    (h3 : f.toNat.testBit 2 = true ∨ f.toNat.testBit 3 = g.toNat.testBit 3) :
    encode (.IndexedName i v f) s = encode (.IndexedName i v g) s := by
  show encodeIndexedName i v f s = encodeIndexedName i v g s
  unfold encodeIndexedName
  simp only [flag_bit1, flag_bit2, flag_bit3]
  rw [← h1, ← h2]
  rcases h3 with h3 | h3
  · simp only [h3, if_true]
  · rw [h3]

/-- C95. For a literal only the five documented bits matter: HUFFMAN_NAME (0), HUFFMAN_VALUE (1), WITH_INDEXING (2), NEVER_INDEXED
(3, only without WITH_INDEXING) and BEST_FORMAT (4). -/
theorem C95_literal (s : EncoderState) (n v : Bytes) (f g : UInt8) (h0 : f.toNat.testBit 0 = g.toNat.testBit 0)
    (h1 : f.toNat.testBit 1 = g.toNat.testBit 1) (h2 : f.toNat.testBit 2 = g.toNat.testBit 2)
    (h3 : f.toNat.testBit 2 = true ∨ f.toNat.testBit 3 = g.toNat.testBit 3) (h4 : f.toNat.testBit 4 = g.toNat.testBit 4) :
    encode (.Literal n v f) s = encode (.Literal n v g) s := by
  have hl : encodeLiteral n v f = encodeLiteral n v g := by
    unfold encodeLiteral
    simp only [flag_bit0, flag_bit1, flag_bit2, flag_bit3]
    rw [← h0, ← h1, ← h2]
    rcases h3 with h3 | h3
    · simp only [h3, if_true]
    · rw [h3]
  have hi : ∀ i, encodeIndexedName i v f = encodeIndexedName i v g := fun i =>
    funext fun s => C95_indexed_name s i v f g h1 h2 h3
  unfold encode
  simp only [flag_bit4, hl, hi]
  rw [h4]

/-- C95. With BEST_FORMAT and a header that is in the table as a whole, no other flag matters. -/
theorem C95_best_found (s : EncoderState) (hwf : s.table.WF) (n v : Bytes) (f g : UInt8) (i : Nat) (h : s.table.spec.addr i = some (n, v))
    (hf : f.toNat.testBit 4 = true) (hg : g.toNat.testBit 4 = true) :
    encode (.Literal n v f) s = encode (.Literal n v g) s := by
  have hfind : ∃ j, s.table.find n v = some (some (j, true)) := by
    rcases C26_find s.table hwf n v with ⟨j, h1, _⟩ | ⟨h0, _⟩ | ⟨h0, _⟩
    · exact ⟨j, h1⟩
    · exact absurd h (h0 i)
    · exact absurd h (h0 i v)
  obtain ⟨j, hj⟩ := hfind
  unfold encode
  simp only [flag_bit4, hf, hg, if_true]
  show (M.get >>= _) s = (M.get >>= _) s
  simp only [M.bind_apply, M.get, hj]

/-- Each of the documented bits matters: for some header it changes the output. -/
theorem C95_all_matter : ∀ k, k < 5 → ∃ (n v : Bytes) (f g : UInt8), (∀ j, j ≠ k → f.toNat.testBit j = g.toNat.testBit j) ∧
    encode (.Literal n v f) EncoderState.default ≠ encode (.Literal n v g) EncoderState.default := by
  intro k hk
  have hbit : ∀ j, j ≠ k → (0 : UInt8).toNat.testBit j = (UInt8.ofNat (2 ^ k)).toNat.testBit j := by
    intro j hj
    have h2 : 2 ^ k < 256 := by
      have : 2 ^ k ≤ 2 ^ 4 := Nat.pow_le_pow_right (by omega) (by omega)
      omega
    rw [UInt8.toNat_ofNat_of_lt' h2, Nat.testBit_two_pow, show (0 : UInt8).toNat = 0 from rfl, Nat.zero_testBit]
    simp [Ne.symm hj]
  refine ⟨[0x3a, 0x6d, 0x65, 0x74, 0x68, 0x6f, 0x64], [0x47, 0x45, 0x54], 0, UInt8.ofNat (2 ^ k), hbit, ?_⟩
  have : ∀ k, k < 5 → encode (.Literal [0x3a, 0x6d, 0x65, 0x74, 0x68, 0x6f, 0x64] [0x47, 0x45, 0x54] 0) EncoderState.default ≠
    encode (.Literal [0x3a, 0x6d, 0x65, 0x74, 0x68, 0x6f, 0x64] [0x47, 0x45, 0x54] (UInt8.ofNat (2 ^ k))) EncoderState.default := by
    decide +kernel
  exact this k hk

example : encode (.Literal [0x61] [0x62] 0xEC) EncoderState.default = encode (.Literal [0x61] [0x62] 0x04) EncoderState.default :=
  C95_literal _ _ _ _ _ rfl rfl rfl (.inl rfl) rfl

/-- The named flags of the encoder, by bit. -/
def namedFlags : List UInt8 :=
  [Encoder.HUFFMAN_NAME, Encoder.HUFFMAN_VALUE, Encoder.WITH_INDEXING, Encoder.NEVER_INDEXED, Encoder.BEST_FORMAT]

/-- C95. Named flags joined with `|`, in any order and any number: a bit is set exactly if its name was among them, and no other bit
is set. -/
theorem C95_named (l : List UInt8) (hl : ∀ f ∈ l, f ∈ namedFlags) (k : Nat) :
    (l.foldr (· ||| ·) 0).toNat.testBit k = true ↔ ∃ f ∈ l, namedFlags[k]? = some f := by
  induction l with
  | nil => simp
  | cons f l ih =>
    rw [List.foldr_cons, UInt8.toNat_or, Nat.testBit_or, Bool.or_eq_true, ih fun g hg => hl g (List.mem_cons_of_mem _ hg)]
    have hf : f.toNat.testBit k = true ↔ namedFlags[k]? = some f := by
      have hmem := hl f List.mem_cons_self
      by_cases hk : k < 5
      · revert hmem
        revert f
        intro f _ hmem
        have : ∀ f ∈ namedFlags, ∀ k, k < 5 → (f.toNat.testBit k = true ↔ namedFlags[k]? = some f) := by decide +kernel
        exact this f hmem k hk
      · have h32 : ∀ f ∈ namedFlags, f.toNat < 2 ^ 5 := by decide +kernel
        rw [Nat.testBit_lt_two_pow (Nat.lt_of_lt_of_le (h32 f hmem) (Nat.pow_le_pow_right (by omega) (by omega))),
          List.getElem?_eq_none (by show 5 ≤ k; omega)]
        simp
    rw [hf]
    simp

theorem flagMode_tests (f : UInt8) : ((flagMode f).flag &&& 0x4 = 0x4 ↔ f &&& 0x4 = 0x4) ∧
    ((flagMode f).flag &&& 0x8 = 0x8 ↔ f &&& 0x8 = 0x8 ∧ ¬ f &&& 0x4 = 0x4) := by
  revert f; exact forall_u8 (by decide +kernel)

/-- C95. What the receiver's test with the decoder's names finds: a header sent as a literal with the flags `f` was to be stored exactly if
WITH_INDEXING is among them, and is sensitive exactly if NEVER_INDEXED is and WITH_INDEXING is not, unless BEST_FORMAT found the whole
header in the table, when both tests are negative. -/
theorem C95_received (e e' : EncoderState) (d : DecoderState) (n v : Bytes) (f : UInt8) (hwf : e.table.WF)
    (hsync : d.table = e.table) (hfit : InputFits (.Literal n v f))
    (h : encode (.Literal n v f) { e with dst := [] } = (.ok (), e')) :
    ∃ flag k, decode { d with buf := e'.dst } =
        (.ok k, { d with buf := [], dst := d.dst ++ [(n, v, flag)], table := e'.table }) ∧
      (flag &&& Decoder.WITH_INDEXING = Decoder.WITH_INDEXING ↔
        f &&& Encoder.WITH_INDEXING = Encoder.WITH_INDEXING ∧
          ¬ (f &&& Encoder.BEST_FORMAT = Encoder.BEST_FORMAT ∧ ∃ j, e.table.spec.addr j = some (n, v))) ∧
      (flag &&& Decoder.NEVER_INDEXED = Decoder.NEVER_INDEXED ↔
        f &&& Encoder.NEVER_INDEXED = Encoder.NEVER_INDEXED ∧ f &&& Encoder.WITH_INDEXING ≠ Encoder.WITH_INDEXING ∧
          ¬ (f &&& Encoder.BEST_FORMAT = Encoder.BEST_FORMAT ∧ ∃ j, e.table.spec.addr j = some (n, v))) := by
  obtain ⟨flag, k, h1, h2, h3⟩ := C29_name_value e e' d n v f hwf hsync hfit h
  refine ⟨flag, k, h1, ?_⟩
  show (flag &&& 0x4 = 0x4 ↔ f &&& 0x4 = 0x4 ∧ ¬ (f &&& 0x10 = 0x10 ∧ _)) ∧
    (flag &&& 0x8 = 0x8 ↔ f &&& 0x8 = 0x8 ∧ ¬ f &&& 0x4 = 0x4 ∧ ¬ (f &&& 0x10 = 0x10 ∧ _))
  by_cases hb : f.toNat.testBit 4 = true ∧ ∃ j, e.table.spec.addr j = some (n, v)
  · rw [h2 hb.1 hb.2]
    simp only [flag_bit4, hb.1, hb.2, and_self, not_true_eq_false, and_false]
    decide
  · have hflag := h3 (by
      by_cases h4 : f.toNat.testBit 4 = true
      · exact Or.inr fun j hj => hb ⟨h4, j, hj⟩
      · exact Or.inl (by simpa using h4))
    rw [hflag]
    simp only [flag_bit4, hb, not_false_eq_true, and_true]
    exact flagMode_tests f

/-! The documentation's example, HUFFMAN_VALUE | WITH_INDEXING | BEST_FORMAT (/repo/hpack/src/lib.rs:48), and its test of a sensitive
header (:66). -/
example : Encoder.HUFFMAN_VALUE ||| Encoder.WITH_INDEXING ||| Encoder.BEST_FORMAT = 0x16 := by decide
example : InputFits (.Literal [0x61] [0x62] Encoder.NEVER_INDEXED) := by
  show _ ∧ _
  decide +kernel
example : encode (.Literal [0x61] [0x62] Encoder.NEVER_INDEXED) EncoderState.default =
    (.ok (), { EncoderState.default with dst := [0x10, 1, 0x61, 1, 0x62] }) := by decide +kernel

end Verif.Props
