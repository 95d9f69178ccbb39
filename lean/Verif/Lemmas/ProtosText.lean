import Verif.Spec.Utf8
import Verif.Protos.From
/-! Facts about the `String` conversion. -/
namespace Verif.Protos
open Verif Verif.Spec Verif.Protos

theorem utf8_char (c : Char) : String.utf8EncodeChar c = utf8 c.toNat := by
  have h : c.toNat < 0x110000 := by
    have := c.valid
    rcases this with h | h
    · exact Nat.lt_trans h (by decide)
    · exact h.2
  unfold String.utf8EncodeChar utf8
  show (if c.toNat ≤ 0x7f then _ else _) = _
  by_cases h1 : c.toNat < 0x80
  · rw [if_pos (by omega), if_pos h1]; rfl
  rw [if_neg (by omega), if_neg h1]
  show (if c.toNat ≤ 0x7ff then _ else _) = _
  by_cases h2 : c.toNat < 0x800
  · rw [if_pos (by omega), if_pos h2, Nat.add_comm 0xC0, Nat.add_comm 0x80]
    show [UInt8.ofNat (c.toNat / 64 % 32 + 0xc0), _] = _
    rw [Nat.mod_eq_of_lt (by omega : c.toNat / 64 < 32)]; rfl
  rw [if_neg (by omega), if_neg h2]
  show (if c.toNat ≤ 0xffff then _ else _) = _
  by_cases h3 : c.toNat < 0x10000
  · rw [if_pos (by omega), if_pos h3, Nat.add_comm 0xE0, Nat.add_comm 0x80, Nat.add_comm 0x80]
    show [UInt8.ofNat (c.toNat / 4096 % 16 + 0xe0), _, _] = _
    rw [Nat.mod_eq_of_lt (by omega : c.toNat / 4096 < 16)]; rfl
  rw [if_neg (by omega), if_neg h3, Nat.add_comm 0xF0, Nat.add_comm 0x80, Nat.add_comm 0x80, Nat.add_comm 0x80]
  show [UInt8.ofNat (c.toNat / 262144 % 8 + 0xf0), _, _, _] = _
  rw [Nat.mod_eq_of_lt (by omega : c.toNat / 262144 < 8)]; rfl

theorem utf8Text_bytes (s : String) : (utf8Text s).toByteArray = s.toByteArray := by
  rw [← String.utf8Encode_toList, List.utf8Encode, utf8Text]
  congr 2
  funext c; exact (utf8_char c).symm

theorem toStr_text (s : String) : DecoderLit.toStr (.bytes (utf8Text s)) = s := by
  have h : s.toByteArray.IsValidUTF8 := s.isValidUTF8
  simp only [DecoderLit.toStr, utf8Text_bytes, String.fromUTF8?, dif_pos h]
  rfl

theorem toStr_invalid (b : Bytes) (h : ¬ ∃ s, b = utf8Text s) : DecoderLit.toStr (.bytes b) = "" := by
  have : ¬ b.toByteArray.IsValidUTF8 := by
    rintro ⟨m, hm⟩
    refine h ⟨String.ofList m, ?_⟩
    have := utf8Text_bytes (String.ofList m)
    rw [String.toByteArray_ofList, ← hm] at this
    simpa using (congrArg ByteArray.data this).symm
  simp only [DecoderLit.toStr, String.fromUTF8?, dif_neg this]

end Verif.Protos
