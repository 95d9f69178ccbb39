import Verif.ErrorTexts
import Verif.Props.ErrorKinds
import Verif.Props.Huffman
/-! Property theorems C113: what the text of an error says about the input. -/
namespace Verif.Props
open Verif Verif.Spec

/-- What a caller that prints the error of a result with `{}` prints; nothing if the call did not return an error. -/
def printed {ε α : Type} (display : ε → String) : Res ε α → Option String
  | .err e => some (display e)
  | _ => none

/-- C113. Within every error type the text identifies the variant. -/
theorem C113_texts_distinct :
    (∀ a b, Hpack.EncoderError.display a = Hpack.EncoderError.display b → a = b) ∧
    (∀ a b, Hpack.DecoderError.display a = Hpack.DecoderError.display b → a = b) ∧
    (∀ a b, Protos.EncoderError.display a = Protos.EncoderError.display b → a = b) ∧
    (∀ a b, Protos.DecoderError.display a = Protos.DecoderError.display b → a = b) := by
  refine ⟨?_, ?_, ?_, ?_⟩ <;> intro a b <;> cases a <;> cases b <;> decide +kernel

example : Hpack.DecoderError.display .IntegerUnderflow ≠ Hpack.DecoderError.display .InvalidInput :=
  fun h => absurd (C113_texts_distinct.2.1 _ _ h) (by decide)

theorem printed_iff {ε α : Type} {display : ε → String} (hinj : ∀ a b, display a = display b → a = b) (r : Res ε α) (e : ε) :
    printed display r = some (display e) ↔ r = .err e := by
  constructor
  · intro h
    cases r with
    | err e' => simp only [printed, Option.some.injEq] at h; rw [hinj _ _ h]
    | _ => cases h
  · rintro rfl; rfl

/-- C113. The HPACK decoder prints one of five texts, each of them exactly for the inputs that, after some complete meaningful
representations, go on with the defect the text names. -/
theorem C113_hpack_decoder (s : Hpack.DecoderState) (hwf : s.table.WF) :
    let Stops (e : Hpack.DecoderError) : Prop := ∃ used rest ws hs t', s.buf = used ++ rest ∧
      Block lenientPads s.maxDynamicSize.toNat s.table.spec used ws hs t' ∧ RepDefect lenientPads s.maxDynamicSize.toNat t' rest e
    let shown := printed Hpack.DecoderError.display (Hpack.decode s).1
    (shown = some "Invalid input character." ↔ Stops .InvalidInput) ∧
    (shown = some "Invalid index." ↔ Stops .InvalidIndex) ∧
    (shown = some "Too many bytes." ↔ Stops .IntegerOverflow) ∧
    (shown = some "Not enough bytes." ↔ Stops .IntegerUnderflow) ∧
    (shown = some "New size exceeds hard limit." ↔ Stops .InvalidMaxDynamicSize) ∧
    (∀ text, shown = some text → text ∈ ["Invalid input character.", "Invalid index.", "Too many bytes.", "Not enough bytes.",
      "New size exceeds hard limit."]) := by
  have key : ∀ e, printed Hpack.DecoderError.display (Hpack.decode s).1 = some (Hpack.DecoderError.display e) ↔ _ := fun e =>
    (printed_iff C113_texts_distinct.2.1 _ e).trans (C101_errors_exactly s hwf e)
  refine ⟨key .InvalidInput, key .InvalidIndex, key .IntegerOverflow, key .IntegerUnderflow, key .InvalidMaxDynamicSize, ?_⟩
  intro text h
  have hnever := C101_never_prefix s hwf
  cases hr : (Hpack.decode s).1 with
  | err e =>
    rw [hr] at h hnever
    simp only [printed, Option.some.injEq] at h
    subst h
    cases e <;> first | (exact absurd rfl hnever) | decide +kernel
  | _ => rw [hr] at h; cases h

/-- C113. The HPACK encoder prints `Invalid index.` or `Too many bytes.` and nothing else. -/
theorem C113_hpack_encoder (s : Hpack.EncoderState) (hwf : s.table.WF) (input : Hpack.EncoderInput) (text : String)
    (h : printed Hpack.EncoderError.display (Hpack.encode input s).1 = some text) :
    (text = "Invalid index." ∧ (Hpack.encode input s).1 = .err .InvalidIndex) ∨
    (text = "Too many bytes." ∧ (Hpack.encode input s).1 = .err .IntegerOverflow) := by
  rcases (C102_hpack_encoder s hwf).1 input with h' | h' | h' <;> rw [h'] at h ⊢ <;>
    simp only [printed, Option.some.injEq, reduceCtorEq] at h
  · exact Or.inl ⟨h.symm, rfl⟩
  · exact Or.inr ⟨h.symm, rfl⟩

/-- C113. The Huffman decoder prints `Invalid Huffman sequence.` exactly if the input is no sequence of codes followed by an
accepted padding; the HPACK decoder never prints this text, it has another one for the same defect. The Huffman encoder prints
nothing. -/
theorem C113_huffman (src dst : Bytes) (sp : Huffman.Speed) (s : Hpack.DecoderState) :
    (printed Huffman.DecErr.display (Huffman.decode src dst sp).1 = some "Invalid Huffman sequence." ↔
      ∀ str, ∀ t ∈ lenientPads, bytesBits src ≠ codesOf str ++ t) ∧
    (printed Huffman.DecErr.display (Huffman.decode src dst sp).1 = none ∨
      printed Huffman.DecErr.display (Huffman.decode src dst sp).1 = some "Invalid Huffman sequence.") ∧
    printed Hpack.DecoderError.display (Hpack.decode s).1 ≠ some "Invalid Huffman sequence." ∧
    printed Huffman.EncErr.display (Huffman.encode src dst).1 = none := by
  obtain ⟨str, r, hb, hr, hd, ho⟩ := C13_decode_outcome src dst sp
  have hacc := fun x => C06_accept_iff_listed src dst x sp
  have hboth : (printed Huffman.DecErr.display (Huffman.decode src dst sp).1 = none ∨
      printed Huffman.DecErr.display (Huffman.decode src dst sp).1 = some "Invalid Huffman sequence.") := by
    rcases ho with ho | ho <;> rw [ho]
    · exact Or.inl rfl
    · exact Or.inr rfl
  refine ⟨⟨fun h x t ht hx => ?_, fun h => ?_⟩, hboth, ?_, by rw [C102_huffman_encoder]; rfl⟩
  · rw [(hacc x).mpr ⟨t, ht, hx⟩] at h
    cases h
  · rcases ho with ho | ho
    · have : Huffman.decode src dst sp = (.ok (), dst ++ str) := Prod.ext ho hd
      obtain ⟨t, ht, hx⟩ := (hacc str).mp this
      exact absurd hx (h str t ht)
    · rw [ho]; rfl
  · cases hr : (Hpack.decode s).1 with
    | err e => simp only [printed, ne_eq, Option.some.injEq]; cases e <;> decide +kernel
    | _ => simp [printed]

/-- C113. The protos encoder prints `Found tag with invalid number.` exactly for tags outside 1 to 2^29-1 and otherwise only
`Write operation interrupted.`, only after the writer failed; the protos decoder prints only `Invalid byte stream.`. -/
theorem C113_protos (tag : UInt32) (lit : Protos.EncoderLit) (hf : Spec.Proto.Fits lit) (σ : Type) (w : Protos.Writer σ) (s : σ)
    (chk : Bool) (d : Protos.DState) (hd : Protos.Reachable chk d) :
    let shown := printed Protos.EncoderError.display (Protos.Encoder.encode w tag lit s).1
    (shown = some "Found tag with invalid number." ↔ ¬ (1 ≤ tag.toNat ∧ tag.toNat ≤ 2 ^ 29 - 1)) ∧
    (∀ text, shown = some text → text = "Found tag with invalid number." ∨
      (text = "Write operation interrupted." ∧ ∃ s1 b, (w.writeAll s1 b).1 = false)) ∧
    (∀ text, printed Protos.DecoderError.display (Protos.decode chk d).1 = some text → text = "Invalid byte stream.") := by
  obtain ⟨h1, h2⟩ := C102_protos_encoder tag lit hf σ w s
  refine ⟨(printed_iff C113_texts_distinct.2.2.1 _ .invalidTag).trans h1, fun text h => ?_, fun text h => ?_⟩
  · rcases h2 with ⟨n, h2⟩ | h2 | ⟨h2, hw⟩
    · rw [h2] at h; cases h
    · rw [h2] at h; cases h; exact Or.inl rfl
    · rw [h2] at h; cases h; exact Or.inr ⟨rfl, hw⟩
  · cases hr : (Protos.decode chk d).1 with
    | err e =>
      rw [hr] at h
      have := C102_protos_decoder chk d hd e hr
      subst this
      cases h
      rfl
    | _ => rw [hr] at h; cases h

/-! Each of the five texts is printed for some input; a tag 0; a Huffman sequence that is none. -/
example : printed Hpack.DecoderError.display (Hpack.decode { Hpack.DecoderState.default with buf := [0xC6] }).1 = some "Invalid index." := by
  decide +kernel
example : printed Hpack.DecoderError.display (Hpack.decode { Hpack.DecoderState.default with buf := [0x82, 0x02, 0x05, 0x61] }).1 =
    some "Not enough bytes." := by decide +kernel
example : printed Hpack.DecoderError.display (Hpack.decode { Hpack.DecoderState.default with buf := [0x02, 0x81, 0xFE] }).1 =
    some "Invalid input character." := by decide +kernel
example : printed Huffman.DecErr.display (Huffman.decode [0xFE] [] .FourBits).1 = some "Invalid Huffman sequence." := by decide +kernel
example : printed Protos.EncoderError.display (Protos.Encoder.encode Protos.vecWriter 0 (.bool true) []).1 =
    some "Found tag with invalid number." := by decide +kernel

end Verif.Props
