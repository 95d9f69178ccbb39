import Verif.Props.Protos
import Verif.Props.ProtosPacked
/-! Property theorem C127: repeated fields in several chunks, packed or not. -/
namespace Verif.Props
open Verif Verif.Spec Verif.Spec.Proto Verif.Protos

/-- One field of a repeated field with elements of type `α`: a single element or several packed ones. -/
inductive Chunk (α : Type) where
  | one (v : α)
  | packed (vs : List α)

/-- The elements of a chunk. -/
def Chunk.elems {α : Type} : Chunk α → List α
  | .one v => [v]
  | .packed vs => vs

/-- The value to write for a chunk, in a format with the given scalar and packed variant. -/
def Chunk.lit {α : Type} (scalar : α → EncoderLit) (vec : List α → EncoderLit) : Chunk α → EncoderLit
  | .one v => scalar v
  | .packed vs => vec vs

/-- A message in which the repeated field `tag` is written in any chunks, in between any other fields: reading the message, joining the
payloads of the fields with this tag and converting the result once gives all elements in order. -/
def JoinsChunks {α : Type} (chk : Bool) (scalar : α → EncoderLit) (vec : List α → EncoderLit) (conv : Bytes → Res DecoderError (List α)) : Prop :=
  ∀ (fs : List (UInt32 × EncoderLit)) (tag : UInt32) (chunks : List (Chunk α)), (∀ f ∈ fs, GoodField f) →
    (fs.filter fun f => f.1 == tag).map (·.2) = chunks.map (Chunk.lit scalar vec) →
    ∃ m recs, encodeAll vecWriter fs [] = (.ok m.length, m) ∧ drain chk (DState.fresh m []) = (.ok (), DState.fresh [] recs) ∧
      conv ((recs.filter fun r => r.1 == tag).flatMap fun r => r.2.2) = .ok (chunks.flatMap Chunk.elems)

theorem joinsChunks {α : Type} {chk : Bool} {scalar : α → EncoderLit} {vec : List α → EncoderLit} {conv : Bytes → Res DecoderError (List α)}
    (item : α → Bytes) (hs : ∀ v, payload (scalar v) = item v) (hv : ∀ vs, payload (vec vs) = vs.flatMap item)
    (hc : ∀ vs, conv (payload (vec vs)) = .ok vs) : JoinsChunks chk scalar vec conv := by
  intro fs tag chunks h he
  obtain ⟨m, h1, h2, _⟩ := C52_until_zero chk fs h []
  refine ⟨m, _, h1, h2, ?_⟩
  have key : ((([] ++ fs.map fun f => (f.1, wireType f.2, payload f.2)) : List Rec).filter fun r => r.1 == tag).flatMap (fun r => r.2.2) =
      payload (vec (chunks.flatMap Chunk.elems)) := by
    have e1 : ((([] ++ fs.map fun f => (f.1, wireType f.2, payload f.2)) : List Rec).filter fun r => r.1 == tag).flatMap (fun r => r.2.2) =
        ((fs.filter fun f => f.1 == tag).map (·.2)).flatMap payload := by
      rw [List.nil_append, List.filter_map, List.flatMap_map, List.flatMap_map]
      rfl
    rw [e1, he, List.flatMap_map, hv, List.flatMap_assoc]
    congr 1
    funext c
    cases c with
    | one v => simp [Chunk.lit, Chunk.elems, hs]
    | packed vs => exact hv vs
  rw [key, hc]

/-- C127. Repeated fields may be written in any chunks, packed or one by one, with any other fields in between. -/
theorem C127_chunks (chk : Bool) :
    JoinsChunks chk .bool .boolVec (fun b => DecoderLit.toBoolVec chk (.boolVec b)) ∧
    JoinsChunks chk .int32 .int32Vec (fun b => DecoderLit.toI32Vec chk (.int32Vec b)) ∧
    JoinsChunks chk .int64 .int64Vec (fun b => DecoderLit.toI64Vec chk (.int64Vec b)) ∧
    JoinsChunks chk .uint32 .uint32Vec (fun b => DecoderLit.toU32Vec chk (.uint32Vec b)) ∧
    JoinsChunks chk .uint64 .uint64Vec (fun b => DecoderLit.toU64Vec chk (.uint64Vec b)) ∧
    JoinsChunks chk .sint32 .sint32Vec (fun b => DecoderLit.toI32Vec chk (.sint32Vec b)) ∧
    JoinsChunks chk .sint64 .sint64Vec (fun b => DecoderLit.toI64Vec chk (.sint64Vec b)) ∧
    JoinsChunks chk .fixed32 .fixed32Vec (fun b => DecoderLit.toU32Vec chk (.fixed32Vec b)) ∧
    JoinsChunks chk .fixed64 .fixed64Vec (fun b => DecoderLit.toU64Vec chk (.fixed64Vec b)) ∧
    JoinsChunks chk .sfixed32 .sfixed32Vec (fun b => DecoderLit.toI32Vec chk (.sfixed32Vec b)) ∧
    JoinsChunks chk .sfixed64 .sfixed64Vec (fun b => DecoderLit.toI64Vec chk (.sfixed64Vec b)) ∧
    JoinsChunks chk .float .floatVec (fun b => DecoderLit.toF32Vec (.floatVec b)) ∧
    JoinsChunks chk .double .doubleVec (fun b => DecoderLit.toF64Vec (.doubleVec b)) :=
  ⟨joinsChunks _ (fun _ => rfl) (fun _ => rfl) fun vs => payload_converts chk (.boolVec vs),
   joinsChunks _ (fun _ => rfl) (fun _ => rfl) fun vs => payload_converts chk (.int32Vec vs),
   joinsChunks _ (fun _ => rfl) (fun _ => rfl) fun vs => payload_converts chk (.int64Vec vs),
   joinsChunks _ (fun _ => rfl) (fun _ => rfl) fun vs => payload_converts chk (.uint32Vec vs),
   joinsChunks _ (fun _ => rfl) (fun _ => rfl) fun vs => payload_converts chk (.uint64Vec vs),
   joinsChunks _ (fun _ => rfl) (fun _ => rfl) fun vs => payload_converts chk (.sint32Vec vs),
   joinsChunks _ (fun _ => rfl) (fun _ => rfl) fun vs => payload_converts chk (.sint64Vec vs),
   joinsChunks _ (fun _ => rfl) (fun _ => rfl) fun vs => payload_converts chk (.fixed32Vec vs),
   joinsChunks _ (fun _ => rfl) (fun _ => rfl) fun vs => payload_converts chk (.fixed64Vec vs),
   joinsChunks _ (fun _ => rfl) (fun _ => rfl) fun vs => payload_converts chk (.sfixed32Vec vs),
   joinsChunks _ (fun _ => rfl) (fun _ => rfl) fun vs => payload_converts chk (.sfixed64Vec vs),
   joinsChunks _ (fun _ => rfl) (fun _ => rfl) fun vs => payload_converts chk (.floatVec vs),
   joinsChunks _ (fun _ => rfl) (fun _ => rfl) fun vs => payload_converts chk (.doubleVec vs)⟩

theorem packedWire_append {α : Type} {W : Octets → α → Prop} : ∀ {vs ws : List α} {p q : Bytes}, PackedWire W vs p → PackedWire W ws q →
    PackedWire W (vs ++ ws) (p ++ q) := by
  intro vs
  induction vs with
  | nil => intro ws p q hp hq; obtain rfl : p = [] := hp; exact hq
  | cons v vs ih =>
    intro ws p q hp hq
    obtain ⟨b, c, rfl, hb, hc⟩ := hp
    exact ⟨b, c ++ q, List.append_assoc _ _ _, hb, ih hc hq⟩

/-- Payloads of any origin: if each of two payloads converts to a vector (a payload that is not empty, but converts to the empty vector, is a
malformed one, see C60), the joined payload converts to the joined vector. -/
def JoinsPayloads {α : Type} (conv : Bytes → Res DecoderError (List α)) : Prop :=
  ∀ p q vs ws, conv p = .ok vs → conv q = .ok ws → (vs = [] → p = []) → (ws = [] → q = []) → conv (p ++ q) = .ok (vs ++ ws)

theorem joinsPayloads {α : Type} {dec : Bytes → Res DecoderError (α × Nat)} {W} {m : Bool} (hr : Reads m dec W) :
    JoinsPayloads fun b => unwrapVec (decodeVec dec b) := by
  intro p q vs ws hp hq hvs hws
  have key : ∀ {p : Bytes} {vs : List α}, unwrapVec (decodeVec dec p) = .ok vs → (vs = [] → p = []) → PackedWire W vs p := by
    intro p vs hp hvs
    rcases convVec hr p with ⟨vs', h1, h2⟩ | ⟨_, h2 | ⟨_, h2⟩⟩
    · rw [show unwrapVec (decodeVec dec p) = .ok vs' from h2] at hp
      obtain rfl : vs' = vs := by simpa using hp
      exact h1
    · rw [show unwrapVec (decodeVec dec p) = .ok [] from h2] at hp
      obtain rfl : [] = vs := by simpa using hp
      rw [hvs rfl]; exact rfl
    · rw [show unwrapVec (decodeVec dec p) = .panic from h2] at hp
      simp at hp
  exact unwrapVec_ok hr (packedWire_append (key hp hvs) (key hq hws))

/-- C127. The same for payloads of any origin, for instance with varints that are not the shortest ones. -/
theorem C127_payloads (chk : Bool) :
    JoinsPayloads (fun b => DecoderLit.toBoolVec chk (.boolVec b)) ∧
    JoinsPayloads (fun b => DecoderLit.toI32Vec chk (.int32Vec b)) ∧
    JoinsPayloads (fun b => DecoderLit.toI64Vec chk (.int64Vec b)) ∧
    JoinsPayloads (fun b => DecoderLit.toU32Vec chk (.uint32Vec b)) ∧
    JoinsPayloads (fun b => DecoderLit.toU64Vec chk (.uint64Vec b)) ∧
    JoinsPayloads (fun b => DecoderLit.toI32Vec chk (.sint32Vec b)) ∧
    JoinsPayloads (fun b => DecoderLit.toI64Vec chk (.sint64Vec b)) ∧
    JoinsPayloads (fun b => DecoderLit.toU32Vec chk (.fixed32Vec b)) ∧
    JoinsPayloads (fun b => DecoderLit.toU64Vec chk (.fixed64Vec b)) ∧
    JoinsPayloads (fun b => DecoderLit.toI32Vec chk (.sfixed32Vec b)) ∧
    JoinsPayloads (fun b => DecoderLit.toI64Vec chk (.sfixed64Vec b)) ∧
    JoinsPayloads (fun b => DecoderLit.toF32Vec (.floatVec b)) ∧
    JoinsPayloads (fun b => DecoderLit.toF64Vec (.doubleVec b)) :=
  ⟨joinsPayloads (reads_bool chk), joinsPayloads (reads_int32 chk), joinsPayloads (reads_int64 chk), joinsPayloads (reads_uint32 chk),
    joinsPayloads (reads_u64 chk), joinsPayloads (reads_sint32 chk), joinsPayloads (reads_sint64 chk), joinsPayloads reads_fixed32,
    joinsPayloads reads_fixed64, joinsPayloads reads_sfixed32, joinsPayloads reads_sfixed64, joinsPayloads reads_float, joinsPayloads reads_double⟩

/-- C127: the condition is needed. Two malformed payloads, each of which converts to nothing, can join to an element nobody sent. -/
theorem C127_malformed_join (chk : Bool) :
    DecoderLit.toI32Vec chk (.int32Vec [0x81]) = .ok [] ∧ DecoderLit.toI32Vec chk (.int32Vec [0x01, 0x81]) = .ok [] ∧
      DecoderLit.toI32Vec chk (.int32Vec ([0x81] ++ [0x01, 0x81] ++ [0x01])) = .ok [129, 129] := by
  cases chk <;> decide

/-! Field 3 as one packed field with two elements, a single element, and a packed field with one element, with field 1 in between. -/
example :
    let fs : List (UInt32 × EncoderLit) := [(3, .int32Vec [1, 300]), (1, .bool true), (3, .int32 (-1)), (3, .int32Vec [7])]
    (∀ f ∈ fs, GoodField f) ∧
      (fs.filter fun f => f.1 == 3).map (·.2) = [Chunk.packed [1, 300], .one (-1), .packed [7]].map (Chunk.lit .int32 .int32Vec) ∧
      [Chunk.packed [(1 : Int32), 300], .one (-1), .packed [7]].flatMap Chunk.elems = [1, 300, -1, 7] := by
  refine ⟨?_, rfl, rfl⟩
  intro f hf
  simp only [List.mem_cons, List.not_mem_nil, or_false] at hf
  rcases hf with rfl | rfl | rfl | rfl <;> exact ⟨by decide, by decide, by simp [Fits]⟩

end Verif.Props
