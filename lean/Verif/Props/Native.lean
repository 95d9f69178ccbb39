import Verif.Hpack.Native
import Verif.Lemmas.HuffNative
import Verif.Lemmas.HpackInt
import Verif.Lemmas.HpackString
import Verif.Lemmas.HpackTable
/-! Property theorems C105: build profile and pointer width do not matter to the Huffman and HPACK crates. -/
namespace Verif.Props
open Verif Verif.Spec Verif.Hpack

/-- C105. The Huffman decoder: with overflow checks (debug builds) or without (release builds), on any target whose pointers have at least
32 bits, the result and what is appended are those of the model used everywhere else. -/
theorem C105_huffman_decode (chk : Bool) (w : Nat) (hw : 32 ≤ w) (src dst : Bytes) (speed : Huffman.Speed) :
    Huffman.decodeOn chk w src dst speed = Huffman.decode src dst speed := Huffman.decodeOn_eq chk hw src dst speed

example : Huffman.decodeOn true 32 [0x1f] [7] .FourBits = (.ok (), [7, 97]) :=
  (C105_huffman_decode true 32 (by decide) [0x1f] [7] .FourBits).trans (by decide +kernel)

/-- C105. The Huffman encoder, which has no pointer-sized numbers. -/
theorem C105_huffman_encode (chk : Bool) (src dst : Bytes) : Huffman.encodeOn chk src dst = Huffman.encode src dst :=
  Huffman.encodeOn_eq chk src dst

theorem decodeIntegerLoopOn_eq (chk : Bool) (buf : Bytes) (fuel : Nat) : ∀ (total shift value : Nat), shift + 7 = 7 * total → total ≤ 4 → 
    value < 256 + 2 ^ shift → decodeIntegerLoopOn chk buf fuel total shift value = decodeIntegerLoop buf fuel total shift value := by
  induction fuel with
  | zero => intros; rfl
  | succ fuel ih =>
    intro total shift value hs ht hv
    have h7 := fun b : UInt8 => (and127_toNat b)
    rw [decodeIntegerLoopOn, decodeIntegerLoop]
    split
    · rfl
    · cases hb : buf[total]? with
      | none => rfl
      | some byte =>
        have hm : (byte &&& 127).toNat < 128 := by rw [h7]; omega
        have hp : (byte &&& 127).toNat * 2 ^ shift ≤ 127 * 2 ^ shift := Nat.mul_le_mul_right _ (by omega)
        have hsh : 2 ^ shift ≤ 2 ^ 21 := Nat.pow_le_pow_right (by decide) (by omega)
        have hsm : shift % 32 = shift := Nat.mod_eq_of_lt (by omega)
        have hpm : (byte &&& 127).toNat * 2 ^ shift % 2 ^ 32 = (byte &&& 127).toNat * 2 ^ shift := Nat.mod_eq_of_lt (by omega)
        have hv2 : value + (byte &&& 127).toNat * 2 ^ shift < 2 ^ 32 := by omega
        have c1 : ¬ 32 ≤ shift := by omega
        have c1' : ¬ (chk = true ∧ 32 ≤ shift) := fun h => c1 h.2
        have c2 : ¬ 2 ^ 32 ≤ value + (byte &&& 127).toNat * 2 ^ shift := by omega
        have c2' : ¬ (chk = true ∧ 2 ^ 32 ≤ value + (byte &&& 127).toNat * 2 ^ shift) := fun h => c2 h.2
        simp only [hsm, hpm, if_neg c1, if_neg c1', if_neg c2, if_neg c2', Nat.mod_eq_of_lt hv2]
        by_cases h5 : total + 1 = 5
        · simp only [h5, if_true]
        · rw [ih (total + 1) (shift + 7) _ (by omega) (by omega) (by rw [Nat.pow_add]; omega)]

/-- C105. Integers of HPACK. -/
theorem C105_decode_integer (chk : Bool) (buf : Bytes) (n : Nat) : decodeIntegerOn chk buf n = decodeInteger buf n := by
  simp only [decodeIntegerOn, decodeInteger]
  split
  · rfl
  · cases buf with
    | nil => rfl
    | cons b bs =>
      simp only
      rw [decodeIntegerLoopOn_eq chk _ _ 1 0 _ rfl (by decide)]
      have := (b &&& UInt8.ofNat (2 ^ n - 1)).toNat_lt
      omega

/-- C105. Strings of HPACK. -/
theorem C105_decode_string (chk : Bool) (w : Nat) (hw : 32 ≤ w) (buf : Bytes) (speed : Huffman.Speed) :
    decodeStringOn chk w buf speed = decodeString buf speed := by
  cases buf with
  | nil => rfl
  | cons b bs =>
    simp only [decodeStringOn, decodeString, C105_decode_integer, C105_huffman_decode chk w hw]
    cases hi : decodeInteger (b :: bs) 7 with
    | ok a =>
      obtain ⟨len, total⟩ := a
      obtain ⟨_, us, rest, hbuf, _, ht, _⟩ := decodeInteger_sound (by decide) (by decide) hi
      have hle : total ≤ (b :: bs).length := by rw [ht, hbuf, List.length_append]; omega
      have c1 : ¬ (b :: bs).length < total := by omega
      have c1' : ¬ (chk = true ∧ (b :: bs).length < total) := fun h => c1 h.2
      simp only [Res.bind_ok, if_neg c1, if_neg c1', if_pos hle]
      by_cases hl : len > (b :: bs).length - total
      · simp only [if_pos hl]
      · have c2 : ¬ (b :: bs).length < total + len := by omega
        simp only [if_neg hl, if_neg c2]
        split <;> rfl
    | err e => rfl
    | panic => rfl
    | hang => rfl

example : decodeStringOn false 32 [0x81, 0x1f] .FourBits = decodeString [0x81, 0x1f] .FourBits := C105_decode_string false 32 (by decide) _ _

/-- C105. Strings of HPACK, written. -/
theorem C105_encode_string (chk : Bool) (data : Bytes) (huff : Bool) : encodeStringOn chk data huff = encodeString data huff := by
  cases huff with
  | false => rfl
  | true =>
    unfold encodeStringOn encodeString
    simp only [C105_huffman_encode]
    rfl

theorem consolidateLoopOn_eq (chk : Bool) (w : Nat) {ε : Type} (fuel : Nat) : ∀ {d d' : Hpack.Dynamic},
    Hpack.Dynamic.consolidateLoop (ε := ε) fuel d = .ok d' → Hpack.Dynamic.consolidateLoopOn chk w (ε := ε) fuel d = .ok d' := by
  induction fuel with
  | zero => intro d d' h; exact h
  | succ fuel ih =>
    intro d d' h
    rw [Hpack.Dynamic.consolidateLoop] at h
    rw [Hpack.Dynamic.consolidateLoopOn]
    by_cases hs : d.size > d.maxSize.toNat
    · rw [if_pos hs] at h ⊢
      cases hl : d.inner.getLast? with
      | none => simp only [hl] at h; exact ih h
      | some e =>
        simp only [hl] at h ⊢
        by_cases hn : e.1.length + e.2.length + 32 ≤ d.size
        · rw [if_pos hn] at h ⊢; exact ih h
        · rw [if_neg hn] at h; cases h
    · rw [if_neg hs] at h ⊢; exact h

/-- C105. The dynamic table (any table whose size field is the sum of the sizes of its entries, which holds in every
reachable state): changing the maximal size. -/
theorem C105_table_resize (chk : Bool) (w : Nat) {ε : Type} (d : Hpack.Dynamic) (h : d.Acc) (size : UInt32) :
    d.updateMaxSizeOn chk w (ε := ε) size = d.updateMaxSize (ε := ε) size := by
  have := consolidate_spec (ε := ε) { d with maxSize := size } h
  exact (consolidateLoopOn_eq chk w _ this).trans this.symm

/-- C105. The dynamic table: insertion, if the sizes of the old entries and of the new one fit into a pointer-sized number. -/
theorem C105_table_insert (chk : Bool) (w : Nat) {ε : Type} (d : Hpack.Dynamic) (h : d.Acc) (name value : Bytes)
    (hfit : d.size + (name.length + value.length + 32) < 2 ^ w) :
    d.insertOn chk w (ε := ε) name value = d.insert (ε := ε) name value := by
  have h' : Hpack.Dynamic.Acc { d with size := d.size + (name.length + value.length + 32), inner := (name, value) :: d.inner } := by
    simp only [Hpack.Dynamic.Acc] at h ⊢
    rw [h, tableSize_cons]
    simp only [entrySize]
    omega
  have := consolidate_spec (ε := ε) _ h'
  have c : ¬ (chk = true ∧ 2 ^ w ≤ d.size + (name.length + value.length + 32)) := fun h => absurd h.2 (by omega)
  rw [Hpack.Dynamic.insertOn, if_neg c, Nat.mod_eq_of_lt hfit]
  exact (consolidateLoopOn_eq chk w _ this).trans this.symm

/-! Concrete cases: an input that begins with a code of 30 bits, and a table that must evict. -/
example : Huffman.decodeOn false 32 [0xff, 0xff, 0xff, 0xfb] [] .FiveBits = Huffman.decode [0xff, 0xff, 0xff, 0xfb] [] .FiveBits := by
  decide +kernel
example : (Hpack.Dynamic.mk [([97], [98])] 34 50).Acc := by unfold Hpack.Dynamic.Acc; decide +kernel
example : (Hpack.Dynamic.mk [([97], [98])] 34 50).insertOn (ε := Unit) false 32 [99] [100] = .ok ⟨[([99], [100])], 34, 50⟩ := by decide +kernel

end Verif.Props
