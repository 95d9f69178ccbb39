import Verif.Lemmas.ProtosMessage
import Verif.Spec.ProtosValues
/-! The payloads of all formats. -/
namespace Verif.Protos
open Verif.Spec Verif.Spec.Proto

theorem payload_converts (chk : Bool) (lit : EncoderLit) : ConvertsBack chk (payload lit) lit := by
  cases lit with
  | bytes v => rfl
  | bool v => exact unwrapScalar_ok (reads_bool chk) (item_bool chk v) _
  | int32 v => exact unwrapScalar_ok (reads_int32 chk) (item_int32 chk v) _
  | int64 v => exact unwrapScalar_ok (reads_int64 chk) (item_int64 chk v) _
  | uint32 v => exact unwrapScalar_ok (reads_uint32 chk) (item_uint32 chk v) _
  | uint64 v => exact unwrapScalar_ok (reads_uint64 chk) (item_uint64 chk v) _
  | sint32 v => exact unwrapScalar_ok (reads_sint32 chk) (item_sint32 chk v) _
  | sint64 v => exact unwrapScalar_ok (reads_sint64 chk) (item_sint64 chk v) _
  | fixed32 v => exact unwrapScalar_ok reads_fixed32 (item_fixed32 v) 0
  | fixed64 v => exact unwrapScalar_ok reads_fixed64 (item_fixed64 v) 0
  | sfixed32 v => exact unwrapScalar_ok reads_sfixed32 (item_sfixed32 v) 0
  | sfixed64 v => exact unwrapScalar_ok reads_sfixed64 (item_sfixed64 v) 0
  | float v => exact unwrapScalar_ok reads_float (item_fixed32 v) 0
  | double v => exact unwrapScalar_ok reads_double (item_fixed64 v) 0
  | boolVec v => exact unwrapVec_ok (reads_bool chk) (packed_flatMap (item_bool chk) v)
  | int32Vec v => exact unwrapVec_ok (reads_int32 chk) (packed_flatMap (item_int32 chk) v)
  | int64Vec v => exact unwrapVec_ok (reads_int64 chk) (packed_flatMap (item_int64 chk) v)
  | uint32Vec v => exact unwrapVec_ok (reads_uint32 chk) (packed_flatMap (item_uint32 chk) v)
  | uint64Vec v => exact unwrapVec_ok (reads_u64 chk) (packed_flatMap (item_uint64 chk) v)
  | sint32Vec v => exact unwrapVec_ok (reads_sint32 chk) (packed_flatMap (item_sint32 chk) v)
  | sint64Vec v => exact unwrapVec_ok (reads_sint64 chk) (packed_flatMap (item_sint64 chk) v)
  | fixed32Vec v => exact unwrapVec_ok reads_fixed32 (packed_flatMap item_fixed32 v)
  | fixed64Vec v => exact unwrapVec_ok reads_fixed64 (packed_flatMap item_fixed64 v)
  | sfixed32Vec v => exact unwrapVec_ok reads_sfixed32 (packed_flatMap item_sfixed32 v)
  | sfixed64Vec v => exact unwrapVec_ok reads_sfixed64 (packed_flatMap item_sfixed64 v)
  | floatVec v => exact unwrapVec_ok reads_float (packed_flatMap item_fixed32 v)
  | doubleVec v => exact unwrapVec_ok reads_double (packed_flatMap item_fixed64 v)

theorem flatMap_le {α : Type} {f : α → Bytes} (h : ∀ v, (f v).length ≤ 10) (vs : List α) : (vs.flatMap f).length ≤ 10 * vs.length := by
  induction vs with
  | nil => simp
  | cons v vs ih => have := h v; simp only [List.flatMap_cons, List.length_append, List.length_cons]; omega

theorem flatMap_nil {α : Type} {f : α → Bytes} (h : ∀ v, f v ≠ []) (vs : List α) : vs.flatMap f = [] ↔ vs = [] := by
  cases vs with
  | nil => simp
  | cons v vs => simp [h v]

theorem varint_le10 {n : Nat} (h : n < 2 ^ 64) : (varint n).length ≤ 10 :=
  (varint_length_le n 10 (by decide)).mpr (Nat.lt_trans h (by decide))

theorem bool_lt (v : Bool) : v.toNat < 2 ^ 64 := by cases v <;> decide
theorem u32_lt (v : UInt32) : v.toNat < 2 ^ 64 := Nat.lt_trans v.toNat_lt (by decide)

theorem payload_fits (lit : EncoderLit) (h : Fits lit) : (payload lit).length < 2 ^ 64 := by
  have hv : ∀ {n}, n < 2 ^ 64 → (varint n).length < 2 ^ 64 := fun h => Nat.lt_of_le_of_lt (varint_le10 h) (by decide)
  have hl : ∀ k n, k ≤ 10 → (le k n).length < 2 ^ 64 := fun k n h => by rw [le_length]; omega
  have hf : ∀ {α : Type} {f : α → Bytes} (_ : ∀ v, (f v).length ≤ 10) (vs : List α), 10 * vs.length < 2 ^ 64 →
      (vs.flatMap f).length < 2 ^ 64 := fun hf vs h => Nat.lt_of_le_of_lt (flatMap_le hf vs) h
  have l10 : ∀ k n, k ≤ 10 → (le k n).length ≤ 10 := fun k n h => by rw [le_length]; omega
  cases lit with
  | bytes v => exact h
  | bool v => exact hv (bool_lt v)
  | int32 v => exact hv (twos_lt _)
  | int64 v => exact hv (twos_lt _)
  | uint32 v => exact hv (u32_lt v)
  | uint64 v => exact hv v.toNat_lt
  | sint32 v => exact hv (zigzag32_lt v)
  | sint64 v => exact hv (zigzag64_lt v)
  | fixed32 v => exact hl _ _ (by decide)
  | fixed64 v => exact hl _ _ (by decide)
  | sfixed32 v => exact hl _ _ (by decide)
  | sfixed64 v => exact hl _ _ (by decide)
  | float v => exact hl _ _ (by decide)
  | double v => exact hl _ _ (by decide)
  | boolVec v => exact hf (fun v => varint_le10 (bool_lt v)) v h
  | int32Vec v => exact hf (fun v => varint_le10 (twos_lt _)) v h
  | int64Vec v => exact hf (fun v => varint_le10 (twos_lt _)) v h
  | uint32Vec v => exact hf (fun v => varint_le10 (u32_lt v)) v h
  | uint64Vec v => exact hf (fun v => varint_le10 v.toNat_lt) v h
  | sint32Vec v => exact hf (fun v => varint_le10 (zigzag32_lt v)) v h
  | sint64Vec v => exact hf (fun v => varint_le10 (zigzag64_lt v)) v h
  | fixed32Vec v => exact hf (fun v => l10 _ _ (by decide)) v h
  | fixed64Vec v => exact hf (fun v => l10 _ _ (by decide)) v h
  | sfixed32Vec v => exact hf (fun v => l10 _ _ (by decide)) v h
  | sfixed64Vec v => exact hf (fun v => l10 _ _ (by decide)) v h
  | floatVec v => exact hf (fun v => l10 _ _ (by decide)) v h
  | doubleVec v => exact hf (fun v => l10 _ _ (by decide)) v h

theorem payload_empty (lit : EncoderLit) : payload lit = [] ↔ EmptyValue lit := by
  have hv : ∀ n, varint n ≠ [] := fun n => (varint_isCont n).ne_nil
  have hl : ∀ k n, le (k + 1) n ≠ [] := fun k n => by simp [le]
  cases lit
  all_goals first
    | exact Iff.rfl
    | exact iff_of_false (hv _) id
    | exact iff_of_false (hl _ _) id
    | exact flatMap_nil (fun _ => hv _) _
    | exact flatMap_nil (fun _ => hl _ _) _

theorem goodField {fs : List (UInt32 × EncoderLit)} (h : ∀ f ∈ fs, GoodField f) :
    ∀ f ∈ fs, ValidTag f.1 ∧ (payload f.2).length < 2 ^ 64 := by
  intro f hf
  obtain ⟨h1, h2, h3⟩ := h f hf
  exact ⟨⟨h1, by omega⟩, payload_fits _ h3⟩

end Verif.Protos
