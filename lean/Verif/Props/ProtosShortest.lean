import Verif.Props.ProtosPeer
import Verif.Props.ProtosSizes
/-! Property theorem C139: how many bytes a protobuf message takes, and that nobody can write it in fewer. -/
namespace Verif.Props
open Verif Verif.Spec Verif.Spec.Proto Verif.Protos

/-- The number of groups of seven bits of a number; one for 0. -/
def groups7 (n : Nat) : Nat := n.log2 / 7 + 1

/-- The size of a list whose elements have these sizes, with its length in front. -/
def withLength (n : Nat) : Nat := groups7 n + n

/-- The number of bytes of a value, without the key. -/
def valueSize : EncoderLit → Nat
  | .bytes b => withLength b.length
  | .bool _ => 1
  | .int32 v => if v.toInt < 0 then 10 else groups7 v.toInt.toNat
  | .int64 v => if v.toInt < 0 then 10 else groups7 v.toInt.toNat
  | .uint32 v => groups7 v.toNat
  | .uint64 v => groups7 v.toNat
  | .sint32 v => groups7 (zigzag v.toInt)
  | .sint64 v => groups7 (zigzag v.toInt)
  | .fixed32 _ | .sfixed32 _ | .float _ => 4
  | .fixed64 _ | .sfixed64 _ | .double _ => 8
  | .boolVec vs => withLength vs.length
  | .int32Vec vs => withLength (vs.map fun v => if v.toInt < 0 then 10 else groups7 v.toInt.toNat).sum
  | .int64Vec vs => withLength (vs.map fun v => if v.toInt < 0 then 10 else groups7 v.toInt.toNat).sum
  | .uint32Vec vs => withLength (vs.map fun v => groups7 v.toNat).sum
  | .uint64Vec vs => withLength (vs.map fun v => groups7 v.toNat).sum
  | .sint32Vec vs => withLength (vs.map fun v => groups7 (zigzag v.toInt)).sum
  | .sint64Vec vs => withLength (vs.map fun v => groups7 (zigzag v.toInt)).sum
  | .fixed32Vec vs => withLength (4 * vs.length)
  | .sfixed32Vec vs => withLength (4 * vs.length)
  | .floatVec vs => withLength (4 * vs.length)
  | .fixed64Vec vs => withLength (8 * vs.length)
  | .sfixed64Vec vs => withLength (8 * vs.length)
  | .doubleVec vs => withLength (8 * vs.length)

theorem log2_lt_iff (n k : Nat) (hk : 1 ≤ k) : n.log2 < k ↔ n < 2 ^ k := by
  by_cases h : n = 0
  · subst h; simp [Nat.log2_zero, Nat.two_pow_pos]; omega
  · exact Nat.log2_lt h

theorem groups7_le (n k : Nat) (hk : 1 ≤ k) : groups7 n ≤ k ↔ n < 128 ^ k := by
  have : (128 : Nat) ^ k = 2 ^ (7 * k) := by rw [Nat.pow_mul]
  rw [this, ← log2_lt_iff n (7 * k) (by omega), groups7]
  omega

theorem varint_groups (n : Nat) : (varint n).length = groups7 n := by
  have hp := (varint_isCont n).pos
  apply Nat.le_antisymm
  · exact (varint_length_le n _ (by unfold groups7; omega)).mpr ((groups7_le n _ (by unfold groups7; omega)).mp (Nat.le_refl _))
  · exact (groups7_le n _ hp).mpr ((varint_length_le n _ hp).mp (Nat.le_refl _))

theorem flatMap_sum {α : Type} {f : α → Bytes} {g : α → Nat} (h : ∀ v, (f v).length = g v) (vs : List α) :
    (vs.flatMap f).length = (vs.map g).sum := by
  induction vs with
  | nil => rfl
  | cons v vs ih => simp only [List.flatMap_cons, List.length_append, List.map_cons, List.sum_cons, h v, ih]

theorem flatMap_const {α : Type} {f : α → Bytes} {k : Nat} (h : ∀ v, (f v).length = k) (vs : List α) :
    (vs.flatMap f).length = k * vs.length := by
  induction vs with
  | nil => rfl
  | cons v vs ih => simp only [List.flatMap_cons, List.length_append, List.length_cons, h v, ih, Nat.mul_succ]; omega

/-- Two's complement with 64 bits. -/
theorem twos64_size (x : Int) (h1 : -(2 ^ 63) ≤ x) (h2 : x < 2 ^ 63) :
    (varint (twos 64 x)).length = if x < 0 then 10 else groups7 x.toNat := by
  rw [varint_groups]
  by_cases hx : x < 0
  · rw [if_pos hx]
    have ht : twos 64 x = (x + 2 ^ 64).toNat := by unfold twos; omega
    have a : groups7 (twos 64 x) ≤ 10 := (groups7_le _ 10 (by decide)).mpr (by rw [ht]; omega)
    have b : ¬ groups7 (twos 64 x) ≤ 9 := fun h => by
      have := (groups7_le _ 9 (by decide)).mp h
      rw [ht] at this; omega
    omega
  · rw [if_neg hx]
    have ht : twos 64 x = x.toNat := by unfold twos; omega
    rw [ht]

theorem i32_size (v : Int32) : (varint (twos 64 v.toInt)).length = if v.toInt < 0 then 10 else groups7 v.toInt.toNat :=
  twos64_size _ (by have := v.le_toInt; omega) (by have := v.toInt_lt; omega)

theorem i64_size (v : Int64) : (varint (twos 64 v.toInt)).length = if v.toInt < 0 then 10 else groups7 v.toInt.toNat :=
  twos64_size _ v.le_toInt v.toInt_lt

theorem bool_size (v : Bool) : (varint v.toNat).length = 1 := by cases v <;> decide +kernel

theorem payload_size (lit : EncoderLit) :
    (if wireType lit = .lengthDelimited then varint (payload lit).length else []).length + (payload lit).length = valueSize lit := by
  cases lit <;>
    simp only [wireType, payload, valueSize, withLength, reduceCtorEq, if_true, if_false, List.length_nil, Nat.zero_add, varint_groups,
      le_length, flatMap_sum (fun v : Int32 => i32_size v), flatMap_sum (fun v : Int64 => i64_size v),
      flatMap_sum (fun v : UInt32 => varint_groups v.toNat), flatMap_sum (fun v : UInt64 => varint_groups v.toNat),
      flatMap_sum (fun v : Int32 => varint_groups (zigzag v.toInt)), flatMap_sum (fun v : Int64 => varint_groups (zigzag v.toInt)),
      flatMap_const (fun v : UInt32 => le_length 4 v.toNat), flatMap_const (fun v : UInt64 => le_length 8 v.toNat),
      flatMap_const (fun v : Int32 => le_length 4 (twos 32 v.toInt)), flatMap_const (fun v : Int64 => le_length 8 (twos 64 v.toInt)),
      flatMap_const bool_size, Nat.one_mul]
  · exact (varint_groups _).symm.trans (bool_size _)
  · rw [← varint_groups, i32_size]
  · rw [← varint_groups, i64_size]

/-- The key: adding the wire type does not change the number of groups. -/
theorem key_size (tag : Nat) (t : Typ) (ht : t ≠ .unknown) (h1 : 1 ≤ tag) : groups7 (8 * tag + typNum t) = groups7 (8 * tag) := by
  have hn : typNum t < 8 := by cases t <;> first | decide | exact absurd rfl ht
  have h : (8 * tag + typNum t).log2 = (8 * tag).log2 := by
    apply (Nat.log2_eq_iff (by omega)).mpr
    have hs := Nat.log2_self_le (n := 8 * tag) (by omega)
    have hl := Nat.lt_log2_self (n := 8 * tag)
    refine ⟨by omega, ?_⟩
    have h3 : 2 ≤ (8 * tag).log2 := by
      have : ¬ (8 * tag).log2 < 2 := fun h => by have := (log2_lt_iff _ 2 (by decide)).mp h; omega
      omega
    obtain ⟨j, hj⟩ : ∃ j, (8 * tag).log2 + 1 = j + 3 := ⟨(8 * tag).log2 - 2, by omega⟩
    rw [hj, Nat.pow_add] at hl ⊢
    have : (2 : Nat) ^ 3 = 8 := by decide
    omega
  unfold groups7; rw [h]

theorem fieldBytes_size (f : UInt32 × EncoderLit) (h : 1 ≤ f.1.toNat) :
    (fieldBytes f.1.toNat f.2).length = groups7 (8 * f.1.toNat) + valueSize f.2 := by
  rw [fieldBytes, record, List.length_append, List.length_append, varint_groups, key_size _ _ (by cases f.2 <;> simp [wireType]) h, ← payload_size]
  omega

/-- C139. The exact number of bytes of a list of fields, which is what `encode` returns in total: for every field the groups of seven bits of
the key and the size of the value. -/
theorem C139_size (fs : List (UInt32 × EncoderLit)) (h : ∀ f ∈ fs, GoodField f) (dst : Bytes) :
    ∃ m, encodeAll vecWriter fs dst = (.ok m.length, dst ++ m) ∧ m.length = (fs.map fun f => groups7 (8 * f.1.toNat) + valueSize f.2).sum := by
  refine ⟨_, C56_append_all fs h dst, ?_⟩
  induction fs with
  | nil => rfl
  | cons f fs ih =>
    have := ih (fun f hf => h f (List.mem_cons_of_mem _ hf))
    simp only [List.flatMap_cons, List.length_append, List.map_cons, List.sum_cons, fieldBytes_size f (h f (List.mem_cons_self ..)).1] at this ⊢
    omega

/-- C139. The key of a field takes one byte up to tag 15, two up to 2047, three up to 262143, four up to 33554431 and five from there on. -/
theorem C139_key_size (tag k : Nat) (hk : 1 ≤ k) : groups7 (8 * tag) ≤ k ↔ tag < 16 * 128 ^ (k - 1) := by
  obtain ⟨j, rfl⟩ : ∃ j, k = j + 1 := ⟨k - 1, by omega⟩
  rw [groups7_le _ _ hk, Nat.pow_succ, Nat.add_sub_cancel]
  omega

/-! ### Nobody writes less -/

/-- The number of negative numbers in a value of format `int32`. -/
def negativeInt32s : EncoderLit → Nat
  | .int32 v => if v.toInt < 0 then 1 else 0
  | .int32Vec vs => vs.countP fun v => v.toInt < 0
  | _ => 0

theorem anyVarint_min {bs : Octets} {n v : Nat} (h : AnyVarint bs n) (hv : v ≤ n) : (varint v).length ≤ bs.length := by
  have := Hpack.contVal_lt bs
  rw [h.2.2.1] at this
  rw [varint_length_le _ _ h.1.pos]
  omega

theorem packed_min {α : Type} {W : Octets → α → Prop} {g : α → Octets} (h : ∀ b v, W b v → (g v).length ≤ b.length) :
    ∀ (vs : List α) (p : Octets), PackedWire W vs p → (vs.flatMap g).length ≤ p.length
  | [], p, hp => by simp
  | v :: vs, p, ⟨b, c, hb, hw, hr⟩ => by
    have h1 := packed_min h vs c hr
    have h2 := h b v hw
    rw [hb, List.flatMap_cons, List.length_append, List.length_append]; omega

theorem int32_min {b : Octets} {v : Int32} (h : Int32As b v) :
    (varint (twos 64 v.toInt)).length ≤ b.length + 5 * (if v.toInt < 0 then 1 else 0) ∧ (varint (twos 64 v.toInt)).length ≤ 2 * b.length ∧ 1 ≤ b.length := by
  obtain ⟨n, hn, hv⟩ := h
  have h1 := v.le_toInt
  have h2 := v.toInt_lt
  have hp := hn.1.pos
  by_cases hx : v.toInt < 0
  · have h5 : (varint (2 ^ 31)).length ≤ b.length := anyVarint_min hn (by
      have : twos 32 v.toInt = (v.toInt + 2 ^ 32).toNat := by unfold twos; omega
      rw [this] at hv
      have := Nat.mod_le n (2 ^ 32)
      omega)
    have h6 : (varint (2 ^ 31)).length = 5 := by decide +kernel
    rw [i32_size, if_pos hx, if_pos hx]; omega
  · have h5 : (varint (twos 64 v.toInt)).length ≤ b.length := anyVarint_min hn (by
      have e : twos 64 v.toInt = twos 32 v.toInt := by unfold twos; omega
      have := Nat.mod_le n (2 ^ 32)
      rw [e, ← hv]; omega)
    rw [if_neg hx]; omega

theorem int32_packed_min : ∀ (vs : List Int32) (p : Octets), PackedWire Int32As vs p →
    (vs.flatMap fun v => varint (twos 64 v.toInt)).length ≤ p.length + 5 * vs.countP (fun v => v.toInt < 0) ∧
      (vs.flatMap fun v => varint (twos 64 v.toInt)).length ≤ 2 * p.length
  | [], p, hp => by simp
  | v :: vs, p, ⟨b, c, hb, hw, hr⟩ => by
    obtain ⟨h1, h2⟩ := int32_packed_min vs c hr
    obtain ⟨h3, h4, _⟩ := int32_min hw
    rw [hb, List.flatMap_cons, List.length_append, List.length_append, List.countP_cons]
    by_cases hx : v.toInt < 0 <;> simp only [hx, if_true, if_false, decide_true, decide_false, Bool.false_eq_true] at h3 ⊢ <;> omega

theorem payload_min (lit : EncoderLit) (p : Octets) (h : Stands p lit) :
    (payload lit).length ≤ p.length + 5 * negativeInt32s lit ∧ (payload lit).length ≤ 2 * p.length + (if negativeInt32s lit = 0 then p.length else 0) := by
  have key : (payload lit).length ≤ p.length → (payload lit).length ≤ p.length + 5 * negativeInt32s lit ∧
      (payload lit).length ≤ 2 * p.length + (if negativeInt32s lit = 0 then p.length else 0) := fun h => ⟨by omega, by omega⟩
  have hv : ∀ {n v : Nat}, AnyVarint p n → v ≤ n → (varint v).length ≤ p.length := fun h h2 => anyVarint_min h h2
  have bl : ∀ (b : Octets) (v : Bool), BoolAs b v → (varint v.toNat).length ≤ b.length := fun b v ⟨n, hn, hb⟩ =>
    anyVarint_min hn (by cases v <;> simp at hb ⊢; omega)
  have u3 : ∀ (b : Octets) (v : UInt32), Uint32As b v → (varint v.toNat).length ≤ b.length := fun b v ⟨n, hn, hb⟩ =>
    anyVarint_min hn (by have := Nat.mod_le n (2 ^ 32); omega)
  cases lit with
  | int32 v => obtain ⟨h1, h2, _⟩ := int32_min h; exact ⟨h1, by show (varint _).length ≤ _; omega⟩
  | int32Vec vs => obtain ⟨h1, h2⟩ := int32_packed_min vs p h; exact ⟨h1, by show (List.flatMap _ _).length ≤ _; omega⟩
  | bytes b => exact key (by rw [show p = b from h]; exact Nat.le_refl _)
  | bool v => exact key (bl p v h)
  | int64 v => exact key (hv h (Nat.le_refl _))
  | uint32 v => exact key (u3 p v h)
  | uint64 v => exact key (hv h (Nat.le_refl _))
  | sint32 v => exact key (hv h (Nat.le_refl _))
  | sint64 v => exact key (hv h (Nat.le_refl _))
  | fixed32 v => exact key (Nat.le_of_eq (congrArg List.length (Eq.symm h)))
  | fixed64 v => exact key (Nat.le_of_eq (congrArg List.length (Eq.symm h)))
  | sfixed32 v => exact key (Nat.le_of_eq (congrArg List.length (Eq.symm h)))
  | sfixed64 v => exact key (Nat.le_of_eq (congrArg List.length (Eq.symm h)))
  | float v => exact key (Nat.le_of_eq (congrArg List.length (Eq.symm h)))
  | double v => exact key (Nat.le_of_eq (congrArg List.length (Eq.symm h)))
  | boolVec vs => exact key (packed_min bl vs p h)
  | int64Vec vs => exact key (packed_min (g := fun v : Int64 => varint (twos 64 v.toInt)) (fun b v h => anyVarint_min h (Nat.le_refl _)) vs p h)
  | uint32Vec vs => exact key (packed_min u3 vs p h)
  | uint64Vec vs => exact key (packed_min (g := fun v : UInt64 => varint v.toNat) (fun b v h => anyVarint_min h (Nat.le_refl _)) vs p h)
  | sint32Vec vs => exact key (packed_min (g := fun v : Int32 => varint (zigzag v.toInt)) (fun b v h => anyVarint_min h (Nat.le_refl _)) vs p h)
  | sint64Vec vs => exact key (packed_min (g := fun v : Int64 => varint (zigzag v.toInt)) (fun b v h => anyVarint_min h (Nat.le_refl _)) vs p h)
  | fixed32Vec vs => exact key (packed_min (g := fun v : UInt32 => le 4 v.toNat) (fun b v h => Nat.le_of_eq (congrArg List.length (Eq.symm h))) vs p h)
  | fixed64Vec vs => exact key (packed_min (g := fun v : UInt64 => le 8 v.toNat) (fun b v h => Nat.le_of_eq (congrArg List.length (Eq.symm h))) vs p h)
  | sfixed32Vec vs => exact key (packed_min (g := fun v : Int32 => le 4 (twos 32 v.toInt)) (fun b v h => Nat.le_of_eq (congrArg List.length (Eq.symm h))) vs p h)
  | sfixed64Vec vs => exact key (packed_min (g := fun v : Int64 => le 8 (twos 64 v.toInt)) (fun b v h => Nat.le_of_eq (congrArg List.length (Eq.symm h))) vs p h)
  | floatVec vs => exact key (packed_min (g := fun v : UInt32 => le 4 v.toNat) (fun b v h => Nat.le_of_eq (congrArg List.length (Eq.symm h))) vs p h)
  | doubleVec vs => exact key (packed_min (g := fun v : UInt64 => le 8 v.toNat) (fun b v h => Nat.le_of_eq (congrArg List.length (Eq.symm h))) vs p h)

theorem field_min (f : UInt32 × EncoderLit) (p bs : Octets) (h : PeerField f p bs) :
    (fieldBytes f.1.toNat f.2).length ≤ bs.length + 6 * negativeInt32s f.2 := by
  obtain ⟨_, _, hs, key, len, hk, hl1, hl2, rfl⟩ := h
  obtain ⟨h1, h2⟩ := payload_min f.2 p hs
  have h3 := anyVarint_min hk (Nat.le_refl _)
  rw [fieldBytes, record]
  simp only [List.length_append]
  by_cases ht : wireType f.2 = .lengthDelimited
  · rw [if_pos ht]
    by_cases hn : negativeInt32s f.2 = 0
    · rw [hn] at h1 ⊢
      have h4 := anyVarint_min (hl1 ht) (v := (payload f.2).length) (by omega)
      omega
    · rw [if_neg hn] at h2
      have h4 := anyVarint_min (hl1 ht) (Nat.le_refl _)
      have h5 := varint_length_double (n := (payload f.2).length) (m := p.length) (by omega)
      omega
  · rw [if_neg ht, List.length_nil]; omega

/-- C139. No implementation can write a list of fields within the wire format in fewer bytes, but for negative numbers in format `int32`: these
the encoder extends to ten bytes, as the format prescribes, while a peer may write five. -/
theorem C139_shortest (fs : List (UInt32 × EncoderLit)) (h : ∀ f ∈ fs, GoodField f) (ps : List Octets) (other : Bytes)
    (hp : PeerMessage fs ps other) :
    ∃ m, encodeAll vecWriter fs [] = (.ok m.length, m) ∧ m.length ≤ other.length + 6 * (fs.map fun f => negativeInt32s f.2).sum := by
  refine ⟨_, C56_append_all fs h [], ?_⟩
  clear h
  induction hp with
  | nil => simp
  | cons hf hr ih =>
    have := field_min _ _ _ hf
    simp only [List.flatMap_cons, List.length_append, List.map_cons, List.sum_cons]
    omega

/-- C139. The exception is real: a peer may write -1 in format `int32` in six bytes, here it takes eleven; both are read as -1. -/
theorem C139_negative_int32 : PeerMessage [(1, .int32 (-1))] [[0xFF, 0xFF, 0xFF, 0xFF, 0x0F]] [0x08, 0xFF, 0xFF, 0xFF, 0xFF, 0x0F] ∧
    (encodeAll vecWriter [(1, .int32 (-1))] []).1 = .ok 11 := by
  refine ⟨PeerMessage.cons (c := []) (b := [0x08, 0xFF, 0xFF, 0xFF, 0xFF, 0x0F]) ⟨by decide, by decide, ⟨0xFFFFFFFF, ?_, by decide +kernel⟩, [0x08], [], ?_, (fun h => by cases h), fun _ => rfl, rfl⟩ .nil, by decide +kernel⟩
  · refine ⟨?_, by decide, by decide +kernel, by decide⟩
    simp [IsCont]
  · refine ⟨?_, by decide, by decide +kernel, by decide +kernel⟩
    simp [IsCont]

/-- C139. Room: a field takes at most five bytes of key, ten bytes of length, and ten bytes per number
or the bytes of the payload. -/
theorem C139_room (tag : Nat) (h1 : tag < 2 ^ 29) (lit : EncoderLit) (h : Fits lit) :
    groups7 (8 * tag) ≤ 5 ∧ (wireType lit ≠ .lengthDelimited → valueSize lit ≤ 10) ∧
      (wireType lit = .lengthDelimited → valueSize lit ≤ 10 + (payload lit).length) := by
  refine ⟨(groups7_le _ _ (by decide)).mpr (by omega), fun hw => ?_, fun hw => ?_⟩
  · rw [← payload_size, if_neg hw, List.length_nil, Nat.zero_add]
    cases lit <;> simp only [wireType, ne_eq, not_true, reduceCtorEq] at hw <;> simp only [payload, le_length, Nat.reduceLeDiff]
    · exact varint_le10 (bool_lt _)
    · exact varint_le10 (twos_lt _)
    · exact varint_le10 (twos_lt _)
    · exact varint_le10 (u32_lt _)
    · exact varint_le10 (UInt64.toNat_lt _)
    · exact varint_le10 (zigzag32_lt _)
    · exact varint_le10 (zigzag64_lt _)
  · rw [← payload_size, if_pos hw]
    have := varint_le10 (payload_fits lit h)
    omega

/-- Concrete sizes: key 2 and ten bytes; key 1, length 1, two numbers of 1 and 2 bytes. -/
example : groups7 (8 * 16) + valueSize (.int64 (-5)) = 12 ∧ groups7 (8 * 15) + valueSize (.uint32Vec [127, 128]) = 5 := by decide +kernel
example : (encodeAll vecWriter [(16, .int64 (-5)), (15, .uint32Vec [127, 128])] []).1 = .ok 17 := by decide +kernel
/-- A peer that writes longer varints than necessary meets the hypotheses of `C139_shortest`. -/
example : PeerMessage [(1, .uint64 5)] [[0x85, 0x00]] [0x88, 0x00, 0x85, 0x00] ∧ ∀ f ∈ [((1, .uint64 5) : UInt32 × EncoderLit)], GoodField f := by
  refine ⟨PeerMessage.cons (c := []) (b := [0x88, 0x00, 0x85, 0x00]) ⟨by decide, by decide, ?_, [0x88, 0x00], [], ?_, (fun h => by cases h), fun _ => rfl, rfl⟩ .nil, ?_⟩
  · refine ⟨?_, by decide, by decide +kernel, by decide +kernel⟩
    simp [IsCont]
  · refine ⟨?_, by decide, by decide +kernel, by decide +kernel⟩
    simp [IsCont]
  · intro f hf; cases List.mem_singleton.mp hf; exact ⟨by decide, by decide, trivial⟩

end Verif.Props
