import Verif.Props.Protos
/-! Properties of the packed decoders and of the conversions of `DecoderLit` on arbitrary bytes. -/
namespace Verif.Props
open Verif Verif.Spec Verif.Spec.Proto Verif.Protos

/-- A packed decoder for elements of the shape `W`: a payload that is a sequence of elements, at least one, is consumed and all
its elements are appended; any other payload fails and appends nothing. -/
def AllOrNothing {α : Type} (mayPanic : Bool) (W : Octets → α → Prop) (dec : Bytes → M (List α) DecoderError Nat) : Prop :=
  ∀ buf dst, (∃ vs, PackedWire W vs buf ∧ buf ≠ [] ∧ dec buf dst = (.ok buf.length, dst ++ vs)) ∨
    ((buf = [] ∨ ¬ ∃ vs, PackedWire W vs buf) ∧
      (dec buf dst = (.err .inputUnderflow, dst) ∨ (mayPanic = true ∧ dec buf dst = (.panic, dst))))

theorem allOrNothing {α : Type} {dec : Bytes → Res DecoderError (α × Nat)} {W} {p : Bool} (hr : Reads p dec W) :
    AllOrNothing p W (decodeVec dec) := by
  intro buf dst
  have key : ∀ {o : Res DecoderError Nat × List α}, decodeVec dec buf dst = o → (∀ n, o.1 ≠ .ok n) →
      (buf = [] ∨ ¬ ∃ vs, PackedWire W vs buf) := by
    intro o h ho
    by_cases hb : buf = []
    · exact Or.inl hb
    · right
      rintro ⟨vs, hvs⟩
      rw [decodeVec_ok hr hvs hb] at h
      exact ho _ (by rw [← h])
  rcases decodeVec_cases hr buf dst with ⟨vs, h1, h2, h3⟩ | h | ⟨hp, h⟩
  · exact Or.inl ⟨vs, h1, h2, h3⟩
  · exact Or.inr ⟨key h (by simp), Or.inl h⟩
  · exact Or.inr ⟨key h (by simp), Or.inr ⟨hp, h⟩⟩

/-- C60. All 13 packed decoders are all or nothing. The panic is possible only for varint formats with overflow checks. -/
theorem C60_all_or_nothing (chk : Bool) :
    AllOrNothing chk (VarintItem chk fun n => decide (n ≠ 0)) (decodeBoolVec chk) ∧
    AllOrNothing chk (VarintItem chk fun n => Int32.ofInt n) (decodeInt32Vec chk) ∧
    AllOrNothing chk (VarintItem chk fun n => Int64.ofInt n) (decodeInt64Vec chk) ∧
    AllOrNothing chk (VarintItem chk UInt32.ofNat) (decodeUint32Vec chk) ∧
    AllOrNothing chk (VarintItem chk UInt64.ofNat) (decodeUint64Vec chk) ∧
    AllOrNothing chk (VarintItem chk fun n => Int32.ofInt (unzigzag n)) (decodeSint32Vec chk) ∧
    AllOrNothing chk (VarintItem chk fun n => Int64.ofInt (unzigzag n)) (decodeSint64Vec chk) ∧
    AllOrNothing false (FixedItem 4 UInt32.ofNat) decodeFixed32Vec ∧
    AllOrNothing false (FixedItem 8 UInt64.ofNat) decodeFixed64Vec ∧
    AllOrNothing false (FixedItem 4 fun n => Int32.ofInt n) decodeSfixed32Vec ∧
    AllOrNothing false (FixedItem 8 fun n => Int64.ofInt n) decodeSfixed64Vec ∧
    AllOrNothing false (FixedItem 4 UInt32.ofNat) decodeFloatVec ∧
    AllOrNothing false (FixedItem 8 UInt64.ofNat) decodeDoubleVec :=
  ⟨allOrNothing (reads_bool chk), allOrNothing (reads_int32 chk), allOrNothing (reads_int64 chk), allOrNothing (reads_uint32 chk),
    allOrNothing (reads_u64 chk), allOrNothing (reads_sint32 chk), allOrNothing (reads_sint64 chk), allOrNothing reads_fixed32,
    allOrNothing reads_fixed64, allOrNothing reads_sfixed32, allOrNothing reads_sfixed64, allOrNothing reads_float,
    allOrNothing reads_double⟩

example : decodeInt32Vec true [1, 0xAC, 2] [5] = (.ok 3, [5, 1, 300]) ∧ decodeInt32Vec true [1, 0xAC] [5] = (.err .inputUnderflow, [5]) := by
  decide

/-- C60, which payloads are sequences of fixed-size elements: those whose length is a multiple of the size. -/
theorem C60_fixed_truncation {α : Type} (k : Nat) (f : Nat → α) (buf : Bytes) :
    (∃ vs, PackedWire (FixedItem (k + 1) f) vs buf) ↔ (k + 1) ∣ buf.length := by
  constructor
  · rintro ⟨vs, h⟩
    induction vs generalizing buf with
    | nil => obtain rfl : buf = [] := h; simp
    | cons v vs ih =>
      obtain ⟨b, c, rfl, ⟨h1, _⟩, h2⟩ := h
      rw [List.length_append, h1]
      exact Nat.dvd_add (Nat.dvd_refl _) (ih c h2)
  · rintro ⟨n, h⟩
    induction n generalizing buf with
    | zero => exact ⟨[], show buf = [] by simpa using h⟩
    | succ n ih =>
      rw [Nat.mul_succ] at h
      have hl : (buf.take (k + 1)).length = k + 1 := by simp; omega
      obtain ⟨vs, hvs⟩ := ih (buf.drop (k + 1)) (by rw [List.length_drop]; omega)
      exact ⟨f (leVal (buf.take (k + 1))) :: vs, _, _, (List.take_append_drop (k + 1) buf).symm, ⟨hl, rfl⟩, hvs⟩

/-- C60, which payloads are sequences of varints (without overflow checks): those that do not end inside one. -/
theorem C60_varint_truncation {α : Type} (f : Nat → α) (buf : Bytes) :
    (∃ vs, PackedWire (VarintItem false f) vs buf) ↔ ∀ c, buf.getLast? = some c → c.toNat < 128 := by
  have lastCont : ∀ {cs : Bytes}, IsCont cs → ∃ c, cs.getLast? = some c ∧ c.toNat < 128 := by
    intro cs h
    induction cs with
    | nil => exact h.elim
    | cons c cs ih =>
      cases cs with
      | nil => exact ⟨c, rfl, h⟩
      | cons d ds =>
        obtain ⟨e, h1, h2⟩ := ih h.2
        exact ⟨e, by rw [List.getLast?_cons_cons]; exact h1, h2⟩
  constructor
  · rintro ⟨vs, h⟩
    induction vs generalizing buf with
    | nil => obtain rfl : buf = [] := h; simp
    | cons v vs ih =>
      obtain ⟨b, c, rfl, ⟨n, h1, _⟩, h2⟩ := h
      obtain ⟨l, hl1, hl2⟩ := lastCont h1.1
      intro x hx
      rw [List.getLast?_append] at hx
      cases hc : c.getLast? with
      | none =>
        rw [hc, hl1] at hx
        simp only [Option.none_or, Option.some.injEq] at hx
        exact hx ▸ hl2
      | some y =>
        rw [hc] at hx
        simp only [Option.some_or, Option.some.injEq] at hx
        exact ih c h2 x (by rw [hc, hx])
  · intro h
    suffices H : ∀ n (buf : Bytes), buf.length ≤ n → (∀ c, buf.getLast? = some c → c.toNat < 128) →
        ∃ vs, PackedWire (VarintItem false f) vs buf from H _ buf (Nat.le_refl _) h
    intro n
    induction n with
    | zero => intro buf hl _; exact ⟨[], show buf = [] by simpa using hl⟩
    | succ n ih =>
      intro buf hl h
      rcases hb : buf with _ | ⟨b, bs⟩
      · exact ⟨[], rfl⟩
      · rw [← hb]
        rcases cont_dichotomy buf with ⟨cs, r, rfl, hc⟩ | hall
        · have h0 := pos_of_ne hc.ne_nil
          rw [List.length_append] at hl
          obtain ⟨vs, hvs⟩ := ih r (by omega) (fun c hcl => h c (by rw [List.getLast?_append, hcl]; rfl))
          exact ⟨_ :: vs, cs, r, rfl, ⟨_, varintWire_of false hc (by simp), rfl⟩, hvs⟩
        · exfalso
          have hne : buf ≠ [] := by rw [hb]; simp
          have h1 := h (buf.getLast hne) (List.getLast?_eq_some_getLast hne)
          have h2 := hall _ (List.getLast_mem hne)
          omega

/-- What a conversion to a vector does with arbitrary bytes: the elements, or nothing. -/
def ConvVec {α : Type} (mayPanic : Bool) (W : Octets → α → Prop) (conv : Bytes → Res DecoderError (List α)) : Prop :=
  ∀ buf, (∃ vs, PackedWire W vs buf ∧ conv buf = .ok vs) ∨
    ((¬ ∃ vs, PackedWire W vs buf) ∧ (conv buf = .ok [] ∨ (mayPanic = true ∧ conv buf = .panic)))

theorem convVec {α : Type} {dec : Bytes → Res DecoderError (α × Nat)} {W} {p : Bool} (hr : Reads p dec W) :
    ConvVec p W fun b => unwrapVec (decodeVec dec b) := by
  intro buf
  by_cases h : ∃ vs, PackedWire W vs buf
  · obtain ⟨vs, hvs⟩ := h
    exact Or.inl ⟨vs, hvs, unwrapVec_ok hr hvs⟩
  · right
    refine ⟨h, ?_⟩
    rcases decodeVec_cases hr buf [] with ⟨vs, h1, _⟩ | h1 | ⟨hp, h1⟩
    · exact absurd ⟨vs, h1⟩ h
    · left; show unwrapVec _ = _; rw [unwrapVec, h1]
    · right; refine ⟨hp, ?_⟩; show unwrapVec _ = _; rw [unwrapVec, h1]

/-- C60, conversions: a payload that is not a sequence of elements converts to the empty vector. -/
theorem C60_conversions (chk : Bool) :
    ConvVec chk (VarintItem chk fun n => decide (n ≠ 0)) (fun b => DecoderLit.toBoolVec chk (.boolVec b)) ∧
    ConvVec chk (VarintItem chk fun n => Int32.ofInt n) (fun b => DecoderLit.toI32Vec chk (.int32Vec b)) ∧
    ConvVec chk (VarintItem chk fun n => Int64.ofInt n) (fun b => DecoderLit.toI64Vec chk (.int64Vec b)) ∧
    ConvVec chk (VarintItem chk UInt32.ofNat) (fun b => DecoderLit.toU32Vec chk (.uint32Vec b)) ∧
    ConvVec chk (VarintItem chk UInt64.ofNat) (fun b => DecoderLit.toU64Vec chk (.uint64Vec b)) ∧
    ConvVec chk (VarintItem chk fun n => Int32.ofInt (unzigzag n)) (fun b => DecoderLit.toI32Vec chk (.sint32Vec b)) ∧
    ConvVec chk (VarintItem chk fun n => Int64.ofInt (unzigzag n)) (fun b => DecoderLit.toI64Vec chk (.sint64Vec b)) ∧
    ConvVec false (FixedItem 4 UInt32.ofNat) (fun b => DecoderLit.toU32Vec chk (.fixed32Vec b)) ∧
    ConvVec false (FixedItem 8 UInt64.ofNat) (fun b => DecoderLit.toU64Vec chk (.fixed64Vec b)) ∧
    ConvVec false (FixedItem 4 fun n => Int32.ofInt n) (fun b => DecoderLit.toI32Vec chk (.sfixed32Vec b)) ∧
    ConvVec false (FixedItem 8 fun n => Int64.ofInt n) (fun b => DecoderLit.toI64Vec chk (.sfixed64Vec b)) ∧
    ConvVec false (FixedItem 4 UInt32.ofNat) (fun b => DecoderLit.toF32Vec (.floatVec b)) ∧
    ConvVec false (FixedItem 8 UInt64.ofNat) (fun b => DecoderLit.toF64Vec (.doubleVec b)) :=
  ⟨convVec (reads_bool chk), convVec (reads_int32 chk), convVec (reads_int64 chk), convVec (reads_uint32 chk),
    convVec (reads_u64 chk), convVec (reads_sint32 chk), convVec (reads_sint64 chk), convVec reads_fixed32,
    convVec reads_fixed64, convVec reads_sfixed32, convVec reads_sfixed64, convVec reads_float, convVec reads_double⟩

example : DecoderLit.toI32Vec true (.int32Vec [1, 0xAC]) = .ok [] := by decide

/-- What a conversion to a scalar does with arbitrary bytes: the first element, or the default value. -/
def ConvScalar {α : Type} (mayPanic : Bool) (W : Octets → α → Prop) (default : α) (conv : Bytes → Res DecoderError α) : Prop :=
  ∀ buf, (∃ bs rest v, buf = bs ++ rest ∧ W bs v ∧ conv buf = .ok v) ∨
    ((¬ ∃ bs rest v, buf = bs ++ rest ∧ W bs v) ∧ (conv buf = .ok default ∨ (mayPanic = true ∧ conv buf = .panic)))

theorem convScalar {α : Type} {dec : Bytes → Res DecoderError (α × Nat)} {W} {p : Bool} (hr : Reads p dec W) (d : α) :
    ConvScalar p W d fun b => unwrapScalar d (dec b) := by
  intro buf
  have noW : ∀ {o}, dec buf = o → (∀ x, o ≠ .ok x) → ¬ ∃ bs rest v, buf = bs ++ rest ∧ W bs v := by
    rintro o h ho ⟨bs, rest, v, rfl, hw⟩
    rw [(hr.ok hw).2] at h
    exact ho _ h.symm
  rcases hr.cases buf with ⟨bs, r, v, rfl, h⟩ | h | ⟨hp, h⟩
  · refine Or.inl ⟨bs, r, v, rfl, h, ?_⟩
    show unwrapScalar d (dec (bs ++ r)) = _
    rw [(hr.ok h).2]; rfl
  · exact Or.inr ⟨noW h (by simp), Or.inl (by show unwrapScalar d (dec buf) = _; rw [h]; rfl)⟩
  · exact Or.inr ⟨noW h (by simp), Or.inr ⟨hp, by show unwrapScalar d (dec buf) = _; rw [h]; rfl⟩⟩

/-- C66. Scalar conversions of arbitrary bytes: the first element that the bytes start with (`int32` and `uint32` keep the low
32 bits of the number, `sint32` undoes ZigZag and keeps the low 32 bits, `bool` is true for every number but 0), and the default value if they do not start with one. -/
theorem C66_scalar_conversions (chk : Bool) :
    ConvScalar chk (VarintItem chk fun n => decide (n ≠ 0)) false (fun b => DecoderLit.toBool chk (.bool b)) ∧
    ConvScalar chk (VarintItem chk fun n => Int32.ofInt n) 0 (fun b => DecoderLit.toI32 chk (.int32 b)) ∧
    ConvScalar chk (VarintItem chk fun n => Int64.ofInt n) 0 (fun b => DecoderLit.toI64 chk (.int64 b)) ∧
    ConvScalar chk (VarintItem chk UInt32.ofNat) 0 (fun b => DecoderLit.toU32 chk (.uint32 b)) ∧
    ConvScalar chk (VarintItem chk UInt64.ofNat) 0 (fun b => DecoderLit.toU64 chk (.uint64 b)) ∧
    ConvScalar chk (VarintItem chk fun n => Int32.ofInt (unzigzag n)) 0 (fun b => DecoderLit.toI32 chk (.sint32 b)) ∧
    ConvScalar chk (VarintItem chk fun n => Int64.ofInt (unzigzag n)) 0 (fun b => DecoderLit.toI64 chk (.sint64 b)) ∧
    ConvScalar false (FixedItem 4 UInt32.ofNat) 0 (fun b => DecoderLit.toU32 chk (.fixed32 b)) ∧
    ConvScalar false (FixedItem 8 UInt64.ofNat) 0 (fun b => DecoderLit.toU64 chk (.fixed64 b)) ∧
    ConvScalar false (FixedItem 4 fun n => Int32.ofInt n) 0 (fun b => DecoderLit.toI32 chk (.sfixed32 b)) ∧
    ConvScalar false (FixedItem 8 fun n => Int64.ofInt n) 0 (fun b => DecoderLit.toI64 chk (.sfixed64 b)) ∧
    ConvScalar false (FixedItem 4 UInt32.ofNat) 0 (fun b => DecoderLit.toF32 (.float b)) ∧
    ConvScalar false (FixedItem 8 UInt64.ofNat) 0 (fun b => DecoderLit.toF64 (.double b)) :=
  ⟨convScalar (reads_bool chk) _, convScalar (reads_int32 chk) _, convScalar (reads_int64 chk) _, convScalar (reads_uint32 chk) _,
    convScalar (reads_uint64 chk) _, convScalar (reads_sint32 chk) _, convScalar (reads_sint64 chk) _,
    convScalar reads_fixed32 (0 : UInt32), convScalar reads_fixed64 (0 : UInt64), convScalar reads_sfixed32 (0 : Int32),
    convScalar reads_sfixed64 (0 : Int64), convScalar reads_float (0 : UInt32), convScalar reads_double (0 : UInt64)⟩

example : DecoderLit.toI32 true (.int32 [0x80]) = .ok 0 ∧ DecoderLit.toI32 true (.int32 [0x81, 0x80, 0x80, 0x80, 0x10]) = .ok 1 ∧
    DecoderLit.toBool true (.bool [5, 9]) = .ok true := by decide

end Verif.Props
