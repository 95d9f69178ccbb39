import Verif.Lemmas.ProtosMessage
/-! Properties of the protobuf primitives: varints, ZigZag, scalar and packed formats, keys. -/
namespace Verif.Props
open Verif Verif.Spec Verif.Spec.Proto Verif.Protos

/-! ### Varints -/

/-- C42. A varint written after any bytes and followed by any bytes is read back, with its size. -/
theorem C42_varint_roundtrip (chk : Bool) (v : UInt64) (dst suffix : Bytes) :
    ∃ bs, encodeVarint vecWriter v dst = (.ok bs.length, dst ++ bs) ∧ decodeVarint chk (bs ++ suffix) = .ok (v, bs.length) := by
  refine ⟨varint v.toNat, ?_, ?_⟩
  · have := (runs_varint v).vec dst
    rw [flatten_singletons] at this
    exact this
  · rw [decodeVarint_ok (varint_wire chk v.toNat_lt), UInt64.ofNat_toNat]

example : encodeVarint vecWriter 300 [7] = (.ok 2, [7, 0xAC, 0x02]) ∧ decodeVarint true [0xAC, 0x02, 9] = .ok (300, 2) := by
  decide

theorem isCont_lt {cs : Bytes} (h : IsCont cs) : contVal cs < 128 ^ cs.length ∧ 1 ≤ cs.length := by
  induction cs with
  | nil => exact h.elim
  | cons c cs ih =>
    cases cs with
    | nil => simp only [contVal, List.length_singleton]; omega
    | cons d ds =>
      have := (ih h.2).1
      rw [contVal, List.length_cons, Nat.pow_succ]
      simp only [List.length_cons] at this ⊢
      omega

/-- C43. The bytes `encode_varint` writes are 1 to 10 and form a varint of the value; the result is their number, and every
other varint with this value has at least as many. -/
theorem C43_varint_size (v : UInt64) (dst : Bytes) :
    ∃ bs, encodeVarint vecWriter v dst = (.ok bs.length, dst ++ bs) ∧ 1 ≤ bs.length ∧ bs.length ≤ 10 ∧
      IsCont bs ∧ contVal bs = v.toNat ∧ ∀ cs, IsCont cs → contVal cs = v.toNat → bs.length ≤ cs.length := by
  refine ⟨varint v.toNat, ?_, ?_, ?_, varint_isCont _, varint_contVal _, ?_⟩
  · have := (runs_varint v).vec dst
    rw [flatten_singletons] at this
    exact this
  · exact pos_of_ne (varint_isCont _).ne_nil
  · exact (varint_length_le _ 10 (by decide)).mpr (Nat.lt_trans v.toNat_lt (by decide))
  · intro cs h1 h2
    have := isCont_lt h1
    exact (varint_length_le _ _ this.2).mpr (by rw [← h2]; exact this.1)

example : encodeVarint vecWriter 0xFFFFFFFFFFFFFFFF [] = (.ok 10, [255, 255, 255, 255, 255, 255, 255, 255, 255, 1]) := by decide
example : IsCont [0x81, 0x00] ∧ contVal [0x81, 0x00] = 1 := by simp [IsCont, contVal]

/-- C44, success. If `decode_varint` succeeds with at most ten bytes, these bytes end at the first one below 128 and the value
is their base-128 value modulo 2^64. -/
theorem C44_varint_sound (chk : Bool) (buf : Bytes) (v : UInt64) (n : Nat) (h : decodeVarint chk buf = .ok (v, n)) (hn : n ≤ 10) :
    ∃ cs rest, buf = cs ++ rest ∧ cs.length = n ∧ IsCont cs ∧ v.toNat = contVal cs % 2 ^ 64 := by
  rcases decodeVarint_cases chk buf with ⟨cs, r, v', h1, h2, h3⟩ | ⟨_, _, h3⟩ | ⟨_, _, _, h3⟩
  · rw [h] at h3
    simp only [Res.ok.injEq, Prod.mk.injEq] at h3
    refine ⟨cs, r, h1, h3.2.symm, h2.1, ?_⟩
    rw [h3.1, UInt64.toNat_ofNat_of_lt' (VarintWire.lt h2)]
    exact h2.2.1 (by omega)
  · rw [h] at h3; cases h3
  · rw [h] at h3; cases h3

/-- C44, success is guaranteed: whenever the input starts with a varint of at most ten bytes. -/
theorem C44_varint_complete (chk : Bool) (cs rest : Bytes) (h : IsCont cs) (hl : cs.length ≤ 10) :
    decodeVarint chk (cs ++ rest) = .ok (UInt64.ofNat (contVal cs % 2 ^ 64), cs.length) :=
  decodeVarint_ok ⟨h, fun _ => rfl, fun h2 => by omega⟩ rest

/-- C44, underflow. Input of at most ten bytes without a final byte yields `InputUnderflow`, and nothing else does; without
overflow checks this holds for every length. -/
theorem C44_varint_underflow (chk : Bool) (buf : Bytes) (hl : chk = true → buf.length ≤ 10) :
    decodeVarint chk buf = .err .inputUnderflow ↔ ∀ c ∈ buf, 128 ≤ c.toNat := by
  constructor
  · intro h
    rcases decodeVarint_cases chk buf with ⟨cs, r, v', h1, h2, h3⟩ | ⟨h1, _, h3⟩ | ⟨_, _, _, h3⟩
    · rw [h] at h3; cases h3
    · exact h1
    · rw [h] at h3; cases h3
  · intro h
    exact loop_underflow chk buf 0 0 h (by simpa using hl)

example : decodeVarint true [0x80, 0x80, 0x01, 0xFF] = .ok (16384, 3) := by decide
example : decodeVarint true [0x80, 0x80] = .err .inputUnderflow := by decide

/-- C45. The expectation that over-long varints are rejected is wrong: a varint of more than ten bytes is never reported as an error. -/
theorem C45_overlong_not_rejected (chk : Bool) (cs rest : Bytes) (h : IsCont cs) (hl : 10 < cs.length) (e : DecoderError) :
    decodeVarint chk (cs ++ rest) ≠ .err e := by
  rcases decodeVarint_cases chk (cs ++ rest) with ⟨_, _, _, _, _, h3⟩ | ⟨h1, h2, h3⟩ | ⟨_, _, _, h3⟩
  · rw [h3]; simp
  · exfalso
    have : ∀ c ∈ cs, 128 ≤ c.toNat := fun c hc => h1 c (by simp [hc])
    clear h1 hl h2 h3
    induction cs with
    | nil => exact h.elim
    | cons c cs ih =>
      cases cs with
      | nil => have h4 : c.toNat < 128 := h; have := this c (by simp); omega
      | cons d ds => exact ih h.2 (fun c hc => this c (by simp [hc]))
  · rw [h3]; simp

/-- C45. What happens instead: with overflow checks the call panics; without them it succeeds with the value `maskedVal`, in
which the shift amounts were taken modulo 64. -/
theorem C45_overlong (cs rest : Bytes) (h : IsCont cs) (hl : 10 < cs.length) :
    decodeVarint true (cs ++ rest) = .panic ∧
    decodeVarint false (cs ++ rest) = .ok (UInt64.ofNat (maskedVal 0 cs), cs.length) := by
  constructor
  · rcases decodeVarint_cases true (cs ++ rest) with ⟨cs', r', v', h1, h2, h3⟩ | ⟨h1, _, h3⟩ | ⟨_, _, _, h3⟩
    · exfalso
      have e : cs = cs' := by
        have hl' : cs'.length ≤ 10 := Decidable.byContradiction fun h10 => by have := (h2.2.2 (by omega)).1; cases this
        have a := decodeVarint_ok (varintWire_of false h (by simp)) rest
        have b := decodeVarint_ok (varintWire_of false h2.1 (by simp)) r'
        rw [h1, b] at a
        simp only [Res.ok.injEq, Prod.mk.injEq] at a
        omega
      subst e
      have := (h2.2.2 hl).1
      cases this
    · exact absurd h3 (C45_overlong_not_rejected true cs rest h hl _)
    · exact h3
  · exact decodeVarint_ok (varintWire_of false h (by simp)) rest

/-- C45, the value is wrong: these eleven bytes say 2^70 and are read as 64. -/
theorem C45_overlong_garbage :
    let cs : Bytes := [128, 128, 128, 128, 128, 128, 128, 128, 128, 128, 1]
    IsCont cs ∧ contVal cs = 2 ^ 70 ∧ decodeVarint false cs = .ok (64, 11) ∧ decodeVarint true cs = .panic := by
  refine ⟨by simp [IsCont], by decide, by decide, by decide⟩

/-! ### ZigZag -/

/-- C46, writing: `v ≥ 0` is written as the varint `2 v`, `v < 0` as the varint `-2 v - 1`. -/
theorem C46_zigzag_written (dst : Bytes) :
    (∀ v : Int32, ∃ n : Nat, (n : Int) = (if 0 ≤ v.toInt then 2 * v.toInt else -2 * v.toInt - 1) ∧
      encodeSint32 vecWriter v dst = (.ok (varint n).length, dst ++ varint n)) ∧
    (∀ v : Int64, ∃ n : Nat, (n : Int) = (if 0 ≤ v.toInt then 2 * v.toInt else -2 * v.toInt - 1) ∧
      encodeSint64 vecWriter v dst = (.ok (varint n).length, dst ++ varint n)) := by
  have hz : ∀ x : Int, (zigzag x : Int) = if 0 ≤ x then 2 * x else -2 * x - 1 := by
    intro x; unfold zigzag; split <;> omega
  constructor
  · intro v
    refine ⟨zigzag v.toInt, hz _, ?_⟩
    have := (runs_varint ((v <<< 1) ^^^ (v >>> 31)).toUInt32.toUInt64).vec dst
    rw [flatten_singletons, UInt32.toNat_toUInt64, zigzag32] at this
    exact this
  · intro v
    refine ⟨zigzag v.toInt, hz _, ?_⟩
    have := (runs_varint ((v <<< 1) ^^^ (v >>> 63)).toUInt64).vec dst
    rw [flatten_singletons, zigzag64] at this
    exact this

/-- C46, reading: what was written is read back, whatever follows. -/
theorem C46_zigzag_roundtrip (chk : Bool) (suffix : Bytes) :
    (∀ v : Int32, ∃ bs, encodeSint32 vecWriter v [] = (.ok bs.length, bs) ∧ decodeSint32 chk (bs ++ suffix) = .ok (v, bs.length)) ∧
    (∀ v : Int64, ∃ bs, encodeSint64 vecWriter v [] = (.ok bs.length, bs) ∧ decodeSint64 chk (bs ++ suffix) = .ok (v, bs.length)) := by
  constructor
  · intro v
    refine ⟨varint (zigzag v.toInt), ?_, ((reads_sint32 chk).ok (item_sint32 chk v)).2 suffix⟩
    have := (runs_varint ((v <<< 1) ^^^ (v >>> 31)).toUInt32.toUInt64).vec []
    rw [flatten_singletons, UInt32.toNat_toUInt64, zigzag32] at this
    exact this
  · intro v
    refine ⟨varint (zigzag v.toInt), ?_, ((reads_sint64 chk).ok (item_sint64 chk v)).2 suffix⟩
    have := (runs_varint ((v <<< 1) ^^^ (v >>> 63)).toUInt64).vec []
    rw [flatten_singletons, zigzag64] at this
    exact this

example : encodeSint32 vecWriter (-3) [] = (.ok 1, [5]) ∧ decodeSint32 true [5] = .ok (-3, 1) := by decide
example : encodeSint64 vecWriter (-9223372036854775808) [] = (.ok 10, [255, 255, 255, 255, 255, 255, 255, 255, 255, 1]) := by decide

/-! ### Keys -/

/-- C49, valid tags. A key is written and read back. -/
theorem C49_key_roundtrip (chk : Bool) (tag : UInt32) (typ : Typ) (h1 : 1 ≤ tag.toNat) (h2 : tag.toNat ≤ 2 ^ 29 - 1)
    (ht : typ ≠ .unknown) (dst suffix : Bytes) :
    ∃ bs, encodeKey vecWriter tag typ dst = (.ok bs.length, dst ++ bs) ∧
      decodeKey chk (bs ++ suffix) = .ok ((tag, typ), bs.length) := by
  have hv : ValidTag tag := ⟨h1, by omega⟩
  refine ⟨varint (8 * tag.toNat + typNum typ), ?_, decodeKey_ok ⟨h1, by omega, ht, varint_wire chk ?_⟩ suffix⟩
  · have := (runs_key hv ht).vec dst
    rw [flatten_singletons] at this
    exact this
  · have := typNum_lt ht; omega

/-- C49, other tags: the key and every field are refused, and the writer is not touched. -/
theorem C49_invalid_tag {σ : Type} (w : Writer σ) (s : σ) (tag : UInt32) (h : tag.toNat = 0 ∨ 2 ^ 29 ≤ tag.toNat) :
    (∀ typ, encodeKey w tag typ s = (.err .invalidTag, s)) ∧ ∀ lit, Encoder.encode w tag lit s = (.err .invalidTag, s) := by
  have hv : ¬ ValidTag tag := by unfold ValidTag; omega
  exact ⟨fun typ => encodeKey_invalid w s hv typ, fun lit => encode_invalid w s hv lit⟩

example : encodeKey vecWriter 536870911 .lengthDelimited [] = (.ok 5, [250, 255, 255, 255, 15]) ∧
    decodeKey true [250, 255, 255, 255, 15, 1] = .ok ((536870911, .lengthDelimited), 5) := by decide
example : Encoder.encode vecWriter 536870912 (.bool true) [1] = (.err .invalidTag, [1]) := by decide

/-- C50. A key is accepted exactly if its number is below 2^32, its tag is not 0 and its wire type is 0, 1, 2 or 5; any other
number is rejected with `InvalidInput`. -/
theorem C50_key_accepted (chk : Bool) (cs rest : Bytes) (n : Nat) (h : VarintWire chk cs n) :
    ((n < 2 ^ 32 ∧ n / 8 ≠ 0 ∧ (n % 8 = 0 ∨ n % 8 = 1 ∨ n % 8 = 2 ∨ n % 8 = 5)) ∧
      ∃ tag typ, 1 ≤ tag.toNat ∧ tag.toNat ≤ 2 ^ 29 - 1 ∧ typ ≠ .unknown ∧ tag.toNat = n / 8 ∧ typNum typ = n % 8 ∧
        decodeKey chk (cs ++ rest) = .ok ((tag, typ), cs.length)) ∨
    (¬ (n < 2 ^ 32 ∧ n / 8 ≠ 0 ∧ (n % 8 = 0 ∨ n % 8 = 1 ∨ n % 8 = 2 ∨ n % 8 = 5)) ∧
      decodeKey chk (cs ++ rest) = .err .invalidInput) := by
  by_cases hb : BadKey n
  · right
    refine ⟨?_, decodeKey_bad h hb rest⟩
    unfold BadKey at hb; omega
  · left
    rcases decodeKey_of_varint (VarintWire.lt h) (decodeVarint_ok h rest) with ⟨hb', _⟩ | ⟨tag, typ, h1, h2, h3, h4, h5⟩
    · exact absurd hb' hb
    · have := typNum_lt h3
      refine ⟨by unfold BadKey at hb; omega, tag, typ, h1, by omega, h3, by omega, by omega, h5⟩

/-- C50 for all byte strings: whatever is accepted has a tag from 1 to 2^29-1 and a known wire type. -/
theorem C50_key_sound (chk : Bool) (buf : Bytes) (tag : UInt32) (typ : Typ) (n : Nat) (h : decodeKey chk buf = .ok ((tag, typ), n)) :
    1 ≤ tag.toNat ∧ tag.toNat ≤ 2 ^ 29 - 1 ∧ typ ≠ .unknown ∧
      ∃ cs rest, buf = cs ++ rest ∧ cs.length = n ∧ VarintWire chk cs (8 * tag.toNat + typNum typ) := by
  rcases decodeKey_cases chk buf with ⟨cs, r, v, t, h1, h2, h3⟩ | ⟨_, _, _, _, _, _, h3⟩ | ⟨_, _, h3⟩ | ⟨_, _, _, h3⟩
  · rw [h] at h3
    simp only [Res.ok.injEq, Prod.mk.injEq] at h3
    obtain ⟨⟨rfl, rfl⟩, rfl⟩ := h3
    have h2' := h2
    obtain ⟨a, b, c, d⟩ := h2'
    exact ⟨a, by omega, c, cs, r, h1, rfl, d⟩
  all_goals rw [h] at h3; cases h3

example : decodeKey true [7] = .err .invalidInput ∧ decodeKey true [0x0B] = .err .invalidInput ∧
    decodeKey true [0x80, 0x80, 0x80, 0x80, 0x10] = .err .invalidInput ∧ decodeKey true [0x0D] = .ok ((1, .bit32), 1) := by decide

/-! ### Scalars -/

/-- What `enc` appends to any vector is converted back into `v`. -/
def RoundTrip {α : Type} (enc : M Bytes EncoderError Nat) (conv : Bytes → Res DecoderError α) (v : α) : Prop :=
  ∃ bs, (∀ dst, enc dst = (.ok bs.length, dst ++ bs)) ∧ conv bs = .ok v

theorem roundTrip_of {α : Type} {m : ∀ σ : Type, Writer σ → M σ EncoderError Nat} {plan : List Bytes} {bs : Bytes} {n : Nat}
    {conv : Bytes → Res DecoderError α} {v : α} (h : Runs m plan n) (hp : plan.flatten = bs) (hn : n = bs.length)
    (hc : conv bs = .ok v) : RoundTrip (m Bytes vecWriter) conv v := by
  refine ⟨bs, fun dst => ?_, hc⟩
  have := h.vec dst
  rw [hp, hn] at this
  exact this

theorem roundTrip_varint {α : Type} {u : UInt64} {n : Nat} {conv : Bytes → Res DecoderError α} {v : α} (hu : u.toNat = n)
    (hc : conv (varint n) = .ok v) : RoundTrip (encodeVarint vecWriter u) conv v := by
  subst hu
  exact roundTrip_of (runs_varint u) (flatten_singletons _) rfl hc

/-- C47. Every scalar of the 13 formats is converted back by the matching `DecoderLit`. -/
theorem C47_scalar_roundtrip (chk : Bool) :
    (∀ v, RoundTrip (encodeBool vecWriter v) (fun b => DecoderLit.toBool chk (.bool b)) v) ∧
    (∀ v, RoundTrip (encodeInt32 vecWriter v) (fun b => DecoderLit.toI32 chk (.int32 b)) v) ∧
    (∀ v, RoundTrip (encodeInt64 vecWriter v) (fun b => DecoderLit.toI64 chk (.int64 b)) v) ∧
    (∀ v, RoundTrip (encodeUint32 vecWriter v) (fun b => DecoderLit.toU32 chk (.uint32 b)) v) ∧
    (∀ v, RoundTrip (encodeUint64 vecWriter v) (fun b => DecoderLit.toU64 chk (.uint64 b)) v) ∧
    (∀ v, RoundTrip (encodeSint32 vecWriter v) (fun b => DecoderLit.toI32 chk (.sint32 b)) v) ∧
    (∀ v, RoundTrip (encodeSint64 vecWriter v) (fun b => DecoderLit.toI64 chk (.sint64 b)) v) ∧
    (∀ v, RoundTrip (encodeFixed32 vecWriter v) (fun b => DecoderLit.toU32 chk (.fixed32 b)) v) ∧
    (∀ v, RoundTrip (encodeFixed64 vecWriter v) (fun b => DecoderLit.toU64 chk (.fixed64 b)) v) ∧
    (∀ v, RoundTrip (encodeSfixed32 vecWriter v) (fun b => DecoderLit.toI32 chk (.sfixed32 b)) v) ∧
    (∀ v, RoundTrip (encodeSfixed64 vecWriter v) (fun b => DecoderLit.toI64 chk (.sfixed64 b)) v) ∧
    (∀ v, RoundTrip (encodeFloat vecWriter v) (fun b => DecoderLit.toF32 (.float b)) v) ∧
    (∀ v, RoundTrip (encodeDouble vecWriter v) (fun b => DecoderLit.toF64 (.double b)) v) := by
  refine ⟨fun v => ?_, fun v => ?_, fun v => ?_, fun v => ?_, fun v => ?_, fun v => ?_, fun v => ?_, fun v => ?_, fun v => ?_,
    fun v => ?_, fun v => ?_, fun v => ?_, fun v => ?_⟩
  · exact roundTrip_varint (n := v.toNat) (by cases v <;> rfl) (unwrapScalar_ok (reads_bool chk) (item_bool chk v) _)
  · exact roundTrip_varint (int32_ext_toNat v) (unwrapScalar_ok (reads_int32 chk) (item_int32 chk v) _)
  · exact roundTrip_varint (int64_toNat v) (unwrapScalar_ok (reads_int64 chk) (item_int64 chk v) _)
  · exact roundTrip_varint (UInt32.toNat_toUInt64 v) (unwrapScalar_ok (reads_uint32 chk) (item_uint32 chk v) _)
  · exact roundTrip_varint rfl (unwrapScalar_ok (reads_uint64 chk) (item_uint64 chk v) _)
  · exact roundTrip_varint (by rw [UInt32.toNat_toUInt64, zigzag32]) (unwrapScalar_ok (reads_sint32 chk) (item_sint32 chk v) _)
  · exact roundTrip_varint (zigzag64 v) (unwrapScalar_ok (reads_sint64 chk) (item_sint64 chk v) _)
  · exact roundTrip_of (runs_write (leBytes32 v) 4) (by simp [le32]) (le_length _ _).symm (unwrapScalar_ok reads_fixed32 (item_fixed32 v) 0)
  · exact roundTrip_of (runs_write (leBytes64 v) 8) (by simp [le64]) (le_length _ _).symm (unwrapScalar_ok reads_fixed64 (item_fixed64 v) 0)
  · exact roundTrip_of (runs_write (leBytes32 v.toUInt32) 4) (by simp [le32, int32_toNat]) (le_length _ _).symm
      (unwrapScalar_ok reads_sfixed32 (item_sfixed32 v) 0)
  · exact roundTrip_of (runs_write (leBytes64 v.toUInt64) 8) (by simp [le64, int64_toNat]) (le_length _ _).symm
      (unwrapScalar_ok reads_sfixed64 (item_sfixed64 v) 0)
  · exact roundTrip_of (runs_write (leBytes32 v) 4) (by simp [le32]) (le_length _ _).symm (unwrapScalar_ok reads_float (item_fixed32 v) 0)
  · exact roundTrip_of (runs_write (leBytes64 v) 8) (by simp [le64]) (le_length _ _).symm (unwrapScalar_ok reads_double (item_fixed64 v) 0)

example : encodeInt32 vecWriter (-2) [] = (.ok 10, [254, 255, 255, 255, 255, 255, 255, 255, 255, 1]) ∧
    DecoderLit.toI32 true (.int32 [254, 255, 255, 255, 255, 255, 255, 255, 255, 1]) = .ok (-2) := by decide
example : encodeSfixed32 vecWriter (-2) [] = (.ok 4, [254, 255, 255, 255]) ∧
    DecoderLit.toI32 true (.sfixed32 [254, 255, 255, 255]) = .ok (-2) := by decide

/-- C61. A negative `int32` takes ten bytes, the same as its value as `int64`, and is read back from them as either. -/
theorem C61_negative_int32 (chk : Bool) (v : Int32) (h : v.toInt < 0) (dst : Bytes) :
    ∃ bs, bs.length = 10 ∧ encodeInt32 vecWriter v dst = (.ok 10, dst ++ bs) ∧
      encodeInt64 vecWriter v.toInt64 dst = (.ok 10, dst ++ bs) ∧
      DecoderLit.toI32 chk (.int32 bs) = .ok v ∧ DecoderLit.toI64 chk (.int64 bs) = .ok v.toInt64 ∧ v.toInt64.toInt = v.toInt := by
  have hi : v.toInt64.toInt = v.toInt := Int32.toInt_toInt64 v
  have hl : (varint (twos 64 v.toInt)).length = 10 := by
    have ht : twos 64 v.toInt < 2 ^ 64 := twos_lt _
    have ht2 : 128 ^ 9 ≤ twos 64 v.toInt := by
      have := Int32.le_toInt v
      unfold twos
      omega
    have h1 := (varint_length_le (twos 64 v.toInt) 10 (by decide)).mpr (by omega)
    have h2 : ¬ (varint (twos 64 v.toInt)).length ≤ 9 := by
      rw [varint_length_le _ 9 (by decide)]; omega
    omega
  refine ⟨varint (twos 64 v.toInt), hl, ?_, ?_, unwrapScalar_ok (reads_int32 chk) (item_int32 chk v) _, ?_, hi⟩
  · have := (runs_varint v.toInt64.toUInt64).vec dst
    rw [flatten_singletons, int32_ext_toNat, hl] at this
    exact this
  · have := (runs_varint v.toInt64.toUInt64).vec dst
    rw [flatten_singletons, int32_ext_toNat, hl] at this
    exact this
  · have := unwrapScalar_ok (reads_int64 chk) (item_int64 chk v.toInt64) 0
    rw [hi] at this
    exact this

example : (-1 : Int32).toInt < 0 := by decide

end Verif.Props
