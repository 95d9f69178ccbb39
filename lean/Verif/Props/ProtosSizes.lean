import Verif.Props.ProtosWire
/-! Property theorem C99: which integer format is shorter. -/
namespace Verif.Props
open Verif Verif.Protos Verif.Spec.Proto

/-- A value below twice the other takes at most one more byte. -/
theorem varint_length_double {n m : Nat} (h : n ≤ 2 * m + 1) : (varint n).length ≤ (varint m).length + 1 := by
  have hp := (varint_isCont m).pos
  have h1 := (varint_length_le m (varint m).length hp).mp (Nat.le_refl _)
  rw [varint_length_le _ _ (by omega), Nat.pow_succ]
  omega

theorem varint_length_mono {n m : Nat} (h : n ≤ m) : (varint n).length ≤ (varint m).length := by
  have hp := (varint_isCont m).pos
  have h1 := (varint_length_le m (varint m).length hp).mp (Nat.le_refl _)
  rw [varint_length_le _ _ hp]
  omega

theorem zigzag_int (x : Int) : (zigzag x : Int) = if 0 ≤ x then 2 * x else -2 * x - 1 := by
  unfold zigzag; split <;> omega

theorem len_sint32 (v : Int32) : (encodeSint32 vecWriter v []).1 = .ok (varint (zigzag v.toInt)).length := by
  have := (runs_varint ((v <<< 1) ^^^ (v >>> 31)).toUInt32.toUInt64).vec []
  rw [flatten_singletons, UInt32.toNat_toUInt64, zigzag32] at this
  exact congrArg Prod.fst this

theorem len_sint64 (v : Int64) : (encodeSint64 vecWriter v []).1 = .ok (varint (zigzag v.toInt)).length := by
  have := (runs_varint ((v <<< 1) ^^^ (v >>> 63)).toUInt64).vec []
  rw [flatten_singletons, zigzag64] at this
  exact congrArg Prod.fst this

theorem len_int32 (v : Int32) : (encodeInt32 vecWriter v []).1 = .ok (varint (twos 64 v.toInt)).length := by
  have := (runs_varint v.toInt64.toUInt64).vec []
  rw [flatten_singletons, int32_ext_toNat] at this
  exact congrArg Prod.fst this

theorem len_int64 (v : Int64) : (encodeInt64 vecWriter v []).1 = .ok (varint (twos 64 v.toInt)).length := by
  have := (runs_varint v.toUInt64).vec []
  rw [flatten_singletons, int64_toNat] at this
  exact congrArg Prod.fst this

/-- C99, 32-bit numbers: a negative number costs ten bytes as `int32` and at most five as `sint32`; for the others `int32` is
never longer than `sint32`, which adds at most one byte. -/
theorem C99_signed32 (v : Int32) : ∃ a b, (encodeInt32 vecWriter v []).1 = .ok a ∧ (encodeSint32 vecWriter v []).1 = .ok b ∧
    b ≤ 5 ∧ (v.toInt < 0 → a = 10) ∧ (0 ≤ v.toInt → a ≤ b ∧ b ≤ a + 1) := by
  refine ⟨_, _, len_int32 v, len_sint32 v, ?_, ?_, ?_⟩
  · rw [varint_length_le _ 5 (by decide)]
    have := zigzag_int v.toInt
    have := Int32.le_toInt v
    have := Int32.toInt_lt v
    split at * <;> omega
  · intro h
    have ht : twos 64 v.toInt < 2 ^ 64 := twos_lt _
    have := Int32.le_toInt v
    have ht2 : 128 ^ 9 ≤ twos 64 v.toInt := by
      unfold twos; omega
    have h1 := (varint_length_le (twos 64 v.toInt) 10 (by decide)).mpr (by omega)
    have h2 : ¬ (varint (twos 64 v.toInt)).length ≤ 9 := by
      rw [varint_length_le _ 9 (by decide)]; omega
    omega
  · intro h
    have hz := zigzag_int v.toInt
    rw [if_pos h] at hz
    have := Int32.toInt_lt v
    have ht : (twos 64 v.toInt : Int) = v.toInt := by unfold twos; omega
    exact ⟨varint_length_mono (by omega), varint_length_double (by omega)⟩

/-- C99, 64-bit numbers: a negative number costs ten bytes as `int64`; as `sint64` it costs ten only below `-2^62`, and never
more; for the others `int64` is never longer than `sint64`, which adds at most one byte. -/
theorem C99_signed64 (v : Int64) : ∃ a b, (encodeInt64 vecWriter v []).1 = .ok a ∧ (encodeSint64 vecWriter v []).1 = .ok b ∧
    b ≤ 10 ∧ (v.toInt < 0 → a = 10 ∧ (b = 10 ↔ v.toInt < -(2 ^ 62))) ∧ (0 ≤ v.toInt → a ≤ b ∧ b ≤ a + 1) := by
  have hz := zigzag_int v.toInt
  have hlo := Int64.le_toInt v
  have hhi := Int64.toInt_lt v
  have hb : (varint (zigzag v.toInt)).length ≤ 10 := by
    rw [varint_length_le _ 10 (by decide)]
    split at hz <;> omega
  refine ⟨_, _, len_int64 v, len_sint64 v, hb, ?_, ?_⟩
  · intro h
    rw [if_neg (by omega)] at hz
    constructor
    · have ht : twos 64 v.toInt < 2 ^ 64 := twos_lt _
      have ht2 : 128 ^ 9 ≤ twos 64 v.toInt := by
        unfold twos; omega
      have h1 := (varint_length_le (twos 64 v.toInt) 10 (by decide)).mpr (by omega)
      have h2 : ¬ (varint (twos 64 v.toInt)).length ≤ 9 := by
        rw [varint_length_le _ 9 (by decide)]; omega
      omega
    · have h2 := varint_length_le (zigzag v.toInt) 9 (by decide)
      constructor
      · intro hh
        have : ¬ (zigzag v.toInt < 128 ^ 9) := fun hc => by have := h2.mpr hc; omega
        omega
      · intro hh
        have : ¬ (varint (zigzag v.toInt)).length ≤ 9 := fun hc => by have := h2.mp hc; omega
        omega
  · intro h
    rw [if_pos h] at hz
    have ht : (twos 64 v.toInt : Int) = v.toInt := by unfold twos; omega
    exact ⟨varint_length_mono (by omega), varint_length_double (by omega)⟩

/-- C99, fixed-size formats: `fixed32` (4 bytes) is shorter than `uint32` exactly from `2^28` on, `fixed64` (8 bytes) is shorter
than `uint64` exactly from `2^56` on. -/
theorem C99_fixed :
    (∀ v : UInt32, ∃ a b, (encodeUint32 vecWriter v []).1 = .ok a ∧ (encodeFixed32 vecWriter v []).1 = .ok b ∧
      b = 4 ∧ a ≤ 5 ∧ (b < a ↔ 2 ^ 28 ≤ v.toNat)) ∧
    (∀ v : UInt64, ∃ a b, (encodeUint64 vecWriter v []).1 = .ok a ∧ (encodeFixed64 vecWriter v []).1 = .ok b ∧
      b = 8 ∧ a ≤ 10 ∧ (b < a ↔ 2 ^ 56 ≤ v.toNat)) := by
  constructor
  · intro v
    have h1 := (runs_varint v.toUInt64).vec []
    rw [flatten_singletons, UInt32.toNat_toUInt64] at h1
    have h4 := varint_length_le v.toNat 4 (by decide)
    have h5 := varint_length_le v.toNat 5 (by decide)
    have := v.toNat_lt
    exact ⟨_, 4, congrArg Prod.fst h1, rfl, rfl, h5.mpr (by omega), by omega⟩
  · intro v
    have h1 := (runs_varint v).vec []
    rw [flatten_singletons] at h1
    have h4 := varint_length_le v.toNat 8 (by decide)
    have h5 := varint_length_le v.toNat 10 (by decide)
    have := v.toNat_lt
    exact ⟨_, 8, congrArg Prod.fst h1, rfl, rfl, h5.mpr (by omega), by omega⟩

example : (encodeInt32 vecWriter (-1) []).1 = .ok 10 ∧ (encodeSint32 vecWriter (-1) []).1 = .ok 1 := by decide
example : (encodeInt32 vecWriter 64 []).1 = .ok 1 ∧ (encodeSint32 vecWriter 64 []).1 = .ok 2 := by decide
example : (encodeSint64 vecWriter (Int64.ofInt (-(2 ^ 62) - 1)) []).1 = .ok 10 ∧
    (encodeSint64 vecWriter (Int64.ofInt (-(2 ^ 62))) []).1 = .ok 9 := by decide
example : (encodeUint32 vecWriter (2 ^ 28) []).1 = .ok 5 ∧ (encodeUint32 vecWriter (2 ^ 28 - 1) []).1 = .ok 4 := by decide

end Verif.Props
