import Verif.Spec.ProtosPeer
import Verif.Props.ProtosStream
/-! Property theorem C132: interoperation with any peer that follows the protobuf wire format. -/
namespace Verif.Props
open Verif Verif.Spec Verif.Spec.Proto Verif.Protos

theorem anyVarint_wire {bs : Octets} {n : Nat} (chk : Bool) (h : AnyVarint bs n) : VarintWire chk bs n :=
  ⟨h.1, fun _ => by rw [h.2.2.1, Nat.mod_eq_of_lt h.2.2.2], fun h10 => absurd h.2.1 (by omega)⟩

theorem anyVarint_varint {n : Nat} (h : n < 2 ^ 64) : AnyVarint (varint n) n :=
  ⟨varint_isCont n, varint_le10 h, varint_contVal n, h⟩

theorem PackedWire.mono {α : Type} {W W' : Octets → α → Prop} (hW : ∀ {b v}, W b v → W' b v) : ∀ {vs : List α} {bs : Octets},
    PackedWire W vs bs → PackedWire W' vs bs
  | [], _, h => h
  | _ :: _, _, ⟨b, c, h1, h2, h3⟩ => ⟨b, c, h1, hW h2, PackedWire.mono hW h3⟩

theorem boolAs_item {chk : Bool} {bs : Octets} {v : Bool} (h : BoolAs bs v) : VarintItem chk (fun n => decide (n ≠ 0)) bs v := by
  obtain ⟨n, h1, h2⟩ := h
  refine ⟨n, anyVarint_wire chk h1, ?_⟩
  cases v <;> simp_all

theorem int32As_item {chk : Bool} {bs : Octets} {v : Int32} (h : Int32As bs v) : VarintItem chk (fun n => Int32.ofInt n) bs v := by
  obtain ⟨n, h1, h2⟩ := h
  refine ⟨n, anyVarint_wire chk h1, ?_⟩
  apply Int32.toBitVec.inj
  show _ = BitVec.ofInt 32 _
  have : BitVec.ofInt 32 (n : Int) = BitVec.ofInt 32 ((n % 2 ^ 32 : Nat) : Int) := by
    rw [BitVec.ofInt_natCast, BitVec.ofInt_natCast]
    apply BitVec.eq_of_toNat_eq
    simp
  rw [this, h2, ofInt_twos (by decide)]; exact (BitVec.ofInt_toInt ..).symm

theorem int64As_item {chk : Bool} {bs : Octets} {v : Int64} (h : Int64As bs v) : VarintItem chk (fun n => Int64.ofInt n) bs v := by
  refine ⟨_, anyVarint_wire chk h, ?_⟩
  apply Int64.toBitVec.inj
  show _ = BitVec.ofInt 64 _
  rw [ofInt_twos (by decide)]; exact (BitVec.ofInt_toInt ..).symm

theorem uint32As_item {chk : Bool} {bs : Octets} {v : UInt32} (h : Uint32As bs v) : VarintItem chk UInt32.ofNat bs v := by
  obtain ⟨n, h1, h2⟩ := h
  refine ⟨n, anyVarint_wire chk h1, ?_⟩
  apply UInt32.toNat_inj.mp
  rw [← h2]; simp

theorem uint64As_item {chk : Bool} {bs : Octets} {v : UInt64} (h : Uint64As bs v) : VarintItem chk UInt64.ofNat bs v :=
  ⟨_, anyVarint_wire chk h, by simp⟩
theorem sint32As_item {chk : Bool} {bs : Octets} {v : Int32} (h : Sint32As bs v) : VarintItem chk (fun n => Int32.ofInt (unzigzag n)) bs v :=
  ⟨_, anyVarint_wire chk h, by simp only [unzigzag_zigzag, Int32.ofInt_toInt]⟩
theorem sint64As_item {chk : Bool} {bs : Octets} {v : Int64} (h : Sint64As bs v) : VarintItem chk (fun n => Int64.ofInt (unzigzag n)) bs v :=
  ⟨_, anyVarint_wire chk h, by simp only [unzigzag_zigzag, Int64.ofInt_toInt]⟩
theorem fixed32As_item {bs : Octets} {v : UInt32} (h : Fixed32As bs v) : FixedItem 4 UInt32.ofNat bs v := by
  cases h; exact item_fixed32 v
theorem fixed64As_item {bs : Octets} {v : UInt64} (h : Fixed64As bs v) : FixedItem 8 UInt64.ofNat bs v := by
  cases h; exact item_fixed64 v
theorem sfixed32As_item {bs : Octets} {v : Int32} (h : Sfixed32As bs v) : FixedItem 4 (fun n => Int32.ofInt n) bs v := by
  cases h; exact item_sfixed32 v
theorem sfixed64As_item {bs : Octets} {v : Int64} (h : Sfixed64As bs v) : FixedItem 8 (fun n => Int64.ofInt n) bs v := by
  cases h; exact item_sfixed64 v

theorem stands_converts (chk : Bool) {p : Octets} {lit : EncoderLit} (h : Stands p lit) : ConvertsBack chk p lit := by
  cases lit with
  | bytes v => exact h
  | bool v => exact unwrapScalar_ok (reads_bool chk) (boolAs_item h) _
  | int32 v => exact unwrapScalar_ok (reads_int32 chk) (int32As_item h) _
  | int64 v => exact unwrapScalar_ok (reads_int64 chk) (int64As_item h) _
  | uint32 v => exact unwrapScalar_ok (reads_uint32 chk) (uint32As_item h) _
  | uint64 v => exact unwrapScalar_ok (reads_uint64 chk) (uint64As_item h) _
  | sint32 v => exact unwrapScalar_ok (reads_sint32 chk) (sint32As_item h) _
  | sint64 v => exact unwrapScalar_ok (reads_sint64 chk) (sint64As_item h) _
  | fixed32 v => exact unwrapScalar_ok reads_fixed32 (fixed32As_item h) 0
  | fixed64 v => exact unwrapScalar_ok reads_fixed64 (fixed64As_item h) 0
  | sfixed32 v => exact unwrapScalar_ok reads_sfixed32 (sfixed32As_item h) 0
  | sfixed64 v => exact unwrapScalar_ok reads_sfixed64 (sfixed64As_item h) 0
  | float v => exact unwrapScalar_ok reads_float (fixed32As_item h) 0
  | double v => exact unwrapScalar_ok reads_double (fixed64As_item h) 0
  | boolVec v => exact unwrapVec_ok (reads_bool chk) (PackedWire.mono boolAs_item h)
  | int32Vec v => exact unwrapVec_ok (reads_int32 chk) (PackedWire.mono int32As_item h)
  | int64Vec v => exact unwrapVec_ok (reads_int64 chk) (PackedWire.mono int64As_item h)
  | uint32Vec v => exact unwrapVec_ok (reads_uint32 chk) (PackedWire.mono uint32As_item h)
  | uint64Vec v => exact unwrapVec_ok (reads_u64 chk) (PackedWire.mono uint64As_item h)
  | sint32Vec v => exact unwrapVec_ok (reads_sint32 chk) (PackedWire.mono sint32As_item h)
  | sint64Vec v => exact unwrapVec_ok (reads_sint64 chk) (PackedWire.mono sint64As_item h)
  | fixed32Vec v => exact unwrapVec_ok reads_fixed32 (PackedWire.mono fixed32As_item h)
  | fixed64Vec v => exact unwrapVec_ok reads_fixed64 (PackedWire.mono fixed64As_item h)
  | sfixed32Vec v => exact unwrapVec_ok reads_sfixed32 (PackedWire.mono sfixed32As_item h)
  | sfixed64Vec v => exact unwrapVec_ok reads_sfixed64 (PackedWire.mono sfixed64As_item h)
  | floatVec v => exact unwrapVec_ok reads_float (PackedWire.mono fixed32As_item h)
  | doubleVec v => exact unwrapVec_ok reads_double (PackedWire.mono fixed64As_item h)

theorem payload_stands (lit : EncoderLit) : Stands (payload lit) lit := by
  have i32 : ∀ v : Int32, Int32As (varint (twos 64 v.toInt)) v := fun v => ⟨_, anyVarint_varint (twos_lt _), by unfold twos; omega⟩
  have u32 : ∀ v : UInt32, Uint32As (varint v.toNat) v := fun v => ⟨_, anyVarint_varint (u32_lt v), Nat.mod_eq_of_lt v.toNat_lt⟩
  have b : ∀ v : Bool, BoolAs (varint v.toNat) v := fun v => ⟨_, anyVarint_varint (bool_lt v), by cases v <;> simp⟩
  cases lit with
  | bytes v => rfl
  | bool v => exact b v
  | int32 v => exact i32 v
  | int64 v => exact anyVarint_varint (twos_lt _)
  | uint32 v => exact u32 v
  | uint64 v => exact anyVarint_varint v.toNat_lt
  | sint32 v => exact anyVarint_varint (zigzag32_lt v)
  | sint64 v => exact anyVarint_varint (zigzag64_lt v)
  | fixed32 v => rfl
  | fixed64 v => rfl
  | sfixed32 v => rfl
  | sfixed64 v => rfl
  | float v => rfl
  | double v => rfl
  | boolVec v => exact packed_flatMap b v
  | int32Vec v => exact packed_flatMap i32 v
  | int64Vec v => exact packed_flatMap (W := Int64As) (fun v => anyVarint_varint (twos_lt _)) v
  | uint32Vec v => exact packed_flatMap u32 v
  | uint64Vec v => exact packed_flatMap (W := Uint64As) (fun v => anyVarint_varint v.toNat_lt) v
  | sint32Vec v => exact packed_flatMap (W := Sint32As) (fun v => anyVarint_varint (zigzag32_lt v)) v
  | sint64Vec v => exact packed_flatMap (W := Sint64As) (fun v => anyVarint_varint (zigzag64_lt v)) v
  | fixed32Vec v => exact packed_flatMap (W := Fixed32As) (fun v => rfl) v
  | fixed64Vec v => exact packed_flatMap (W := Fixed64As) (fun v => rfl) v
  | sfixed32Vec v => exact packed_flatMap (W := Sfixed32As) (fun v => rfl) v
  | sfixed64Vec v => exact packed_flatMap (W := Sfixed64As) (fun v => rfl) v
  | floatVec v => exact packed_flatMap (W := Fixed32As) (fun v => rfl) v
  | doubleVec v => exact packed_flatMap (W := Fixed64As) (fun v => rfl) v

theorem stands_body (chk : Bool) {p len : Octets} {lit : EncoderLit} (h : Stands p lit)
    (h1 : wireType lit = .lengthDelimited → AnyVarint len p.length) (h2 : wireType lit ≠ .lengthDelimited → len = []) :
    BodyWire chk (wireType lit) (len ++ p) p := by
  by_cases hw : wireType lit = .lengthDelimited
  · rw [hw]; exact ⟨len, rfl, anyVarint_wire chk (h1 hw)⟩
  · rw [h2 hw, List.nil_append]
    cases lit <;> first | exact absurd rfl hw | skip
    · obtain ⟨n, hn, _⟩ := h; exact ⟨rfl, hn.1⟩
    all_goals first
      | exact ⟨rfl, h.1⟩
      | (obtain ⟨n, hn, _⟩ := h; exact ⟨rfl, hn.1⟩)
      | (cases h; exact ⟨rfl, le_length _ _⟩)

theorem peerField_record (chk : Bool) {f : UInt32 × EncoderLit} {p bs : Octets} (h : PeerField f p bs) :
    RecordWire chk (f.1, wireType f.2, p) bs := by
  obtain ⟨h1, h2, h3, key, len, h4, h5, h6, rfl⟩ := h
  refine ⟨key, len ++ p, by simp, ⟨h1, h2, ?_, anyVarint_wire chk h4⟩, stands_body chk h3 h5 h6⟩
  exact wireType_known f.2

theorem peerMessage_wire (chk : Bool) {fs : List (UInt32 × EncoderLit)} {ps : List Octets} {m : Octets} (h : PeerMessage fs ps m) :
    ps.length = fs.length ∧ MessageWire chk ((fs.zip ps).map fun x => (x.1.1, wireType x.1.2, x.2)) m ∧
      ∀ x ∈ fs.zip ps, ConvertsBack chk x.2 x.1.2 := by
  induction h with
  | nil => exact ⟨rfl, rfl, by simp⟩
  | cons h _ ih =>
    obtain ⟨i1, i2, i3⟩ := ih
    refine ⟨by simp [i1], ⟨_, _, rfl, peerField_record chk h, i2⟩, ?_⟩
    intro x hx
    simp only [List.zip_cons_cons, List.mem_cons] at hx
    rcases hx with rfl | hx
    · exact stands_converts chk h.2.2.1
    · exact i3 x hx

/-- C132. Whatever bytes another implementation writes for a list of fields within the format (keys, lengths and values as varints that need
not be the shortest, 32-bit numbers extended or not), in whatever chunks they arrive: the decoder reads exactly these fields, in order, with
nothing left, and every payload converts to the value that was meant. In both build profiles. -/
theorem C132_receive (chk : Bool) (fs : List (UInt32 × EncoderLit)) (ps : List Octets) (m : Bytes) (h : PeerMessage fs ps m) (dst : List Rec)
    (cs : List Bytes) (hc : cs.flatten = m) (hne : cs ≠ []) :
    ps.length = fs.length ∧
      pump chk cs (DState.fresh [] dst) = (.ok (), DState.fresh [] (dst ++ (fs.zip ps).map fun x => (x.1.1, wireType x.1.2, x.2))) ∧
      ∀ x ∈ fs.zip ps, ConvertsBack chk x.2 x.1.2 :=
  let ⟨h1, h2, h3⟩ := peerMessage_wire chk h
  ⟨h1, pump_message h2 dst cs hc hne, h3⟩

/-- C132. What the encoder writes is within the format. -/
theorem C132_send (fs : List (UInt32 × EncoderLit)) (h : ∀ f ∈ fs, GoodField f) :
    ∃ m, encodeAll vecWriter fs [] = (.ok m.length, m) ∧ PeerMessage fs (fs.map fun f => payload f.2) m := by
  refine ⟨fs.flatMap fun f => fieldBytes f.1.toNat f.2, ?_, ?_⟩
  · have := C56_append_all fs h []
    simpa using this
  · induction fs with
    | nil => exact .nil
    | cons f fs ih =>
      simp only [List.map_cons, List.flatMap_cons]
      refine .cons ?_ (ih fun g hg => h g (by simp [hg]))
      obtain ⟨h1, h2, h3⟩ := h f (by simp)
      have ht := typNum_lt (wireType_known f.2)
      refine ⟨h1, by omega, payload_stands f.2, varint (8 * f.1.toNat + typNum (wireType f.2)),
        if wireType f.2 = .lengthDelimited then varint (payload f.2).length else [], anyVarint_varint (by omega), ?_, ?_, rfl⟩
      · intro hw; rw [if_pos hw]; exact anyVarint_varint (payload_fits f.2 h3)
      · intro hw; rw [if_neg hw]

/-- Bytes the encoder never writes: a key that is not the shortest and -1 with 32 bits only; a packed field whose length and first element are
not the shortest. -/
def foreignFields : List (UInt32 × EncoderLit) := [(1, .int32 (-1)), (2, .uint32Vec [1, 300])]
def foreignPayloads : List Octets := [[0xff, 0xff, 0xff, 0xff, 0x0f], [0x81, 0x00, 0xac, 0x02]]
def foreignBytes : Bytes := [0x88, 0x00, 0xff, 0xff, 0xff, 0xff, 0x0f, 0x12, 0x84, 0x00, 0x81, 0x00, 0xac, 0x02]

/-- They meet the hypothesis of `C132_receive`. -/
example : PeerMessage foreignFields foreignPayloads foreignBytes := by
  refine .cons (b := [0x88, 0x00, 0xff, 0xff, 0xff, 0xff, 0x0f]) ⟨by decide, by decide, ⟨2 ^ 32 - 1, ⟨?_, by decide, by decide, by decide⟩, by decide⟩,
    [0x88, 0x00], [], ⟨?_, by decide, by decide, by decide⟩, nofun, fun _ => rfl, rfl⟩
    (.cons (b := [0x12, 0x84, 0x00, 0x81, 0x00, 0xac, 0x02]) ⟨by decide, by decide, ⟨[0x81, 0x00], [0xac, 0x02], rfl,
        ⟨1, ⟨?_, by decide, by decide, by decide⟩, by decide⟩, [0xac, 0x02], [], rfl, ⟨300, ⟨?_, by decide, by decide, by decide⟩, by decide⟩, rfl⟩,
      [0x12], [0x84, 0x00], ⟨?_, by decide, by decide, by decide⟩, fun _ => ⟨?_, by decide, by decide, by decide⟩, fun h => absurd rfl h, rfl⟩ .nil) <;>
    (simp only [IsCont]; decide)

example : pump true [[0x88], [0x00, 0xff, 0xff], [0xff, 0xff, 0x0f, 0x12, 0x84, 0x00, 0x81], [0x00, 0xac, 0x02]] (DState.fresh [] []) =
    (.ok (), DState.fresh [] [(1, .varint, [0xff, 0xff, 0xff, 0xff, 0x0f]), (2, .lengthDelimited, [0x81, 0x00, 0xac, 0x02])]) := by decide
example : DecoderLit.toI32 true (.int32 [0xff, 0xff, 0xff, 0xff, 0x0f]) = .ok (-1) ∧
    DecoderLit.toU32Vec true (.uint32Vec [0x81, 0x00, 0xac, 0x02]) = .ok [1, 300] := by decide

example : ∀ f ∈ foreignFields, GoodField f := by
  intro f hf
  simp only [foreignFields, List.mem_cons, List.not_mem_nil, or_false] at hf
  rcases hf with rfl | rfl
  · exact ⟨by decide, by decide, trivial⟩
  · exact ⟨by decide, by decide, by show _ < _; decide⟩

end Verif.Props
