import Verif.Props.Protos
import Verif.Props.ProtosWire
/-! Property theorem C74: reading a message of unknown schema and writing it again. -/
namespace Verif.Props
open Verif Verif.Spec Verif.Spec.Proto Verif.Protos

/-- What a user without a schema does with a field it has read: put the payload into the `DecoderLit` of the widest unsigned format of
the wire type, convert it, and choose the `EncoderLit` of the same format. -/
def rewriteLit (chk : Bool) (r : Rec) : Res DecoderError EncoderLit :=
  match r.2.1 with
  | .varint => do
    let v ← DecoderLit.toU64 chk (.uint64 r.2.2)
    pure (.uint64 v)
  | .bit64 => do
    let v ← DecoderLit.toU64 chk (.fixed64 r.2.2)
    pure (.fixed64 v)
  | .bit32 => do
    let v ← DecoderLit.toU32 chk (.fixed32 r.2.2)
    pure (.fixed32 v)
  | _ => pure (.bytes (DecoderLit.toBytes (.bytes r.2.2)))

/-- The same for all fields of a message: what is to be encoded. -/
def rewriteAll (chk : Bool) : List Rec → Res DecoderError (List (UInt32 × EncoderLit))
  | [] => .ok []
  | r :: rs => do
    let lit ← rewriteLit chk r
    let fs ← rewriteAll chk rs
    pure ((r.1, lit) :: fs)

/-- The field with its value written as short as possible: a varint payload loses its superfluous groups (and bits above the
sixty-fourth), everything else is as it is. -/
def normal (r : Rec) : Rec :=
  if r.2.1 = .varint then (r.1, .varint, varint (contVal r.2.2 % 2 ^ 64)) else r

theorem le_leVal (p : Bytes) : le p.length (leVal p) = p := by
  induction p with
  | nil => rfl
  | cons c cs ih =>
    have h := c.toNat_lt
    rw [List.length_cons, le, leVal, show (c.toNat + 256 * leVal cs) % 256 = c.toNat by omega,
      show (c.toNat + 256 * leVal cs) / 256 = leVal cs by omega, ih]
    simp

theorem leVal_lt (p : Bytes) : leVal p < 256 ^ p.length := by
  induction p with
  | nil => simp [leVal]
  | cons c cs ih =>
    have h := c.toNat_lt
    rw [List.length_cons, leVal, Nat.pow_succ]
    omega

/-- No varint with the same value is shorter. -/
theorem varint_shortest {chk : Bool} {bs : Bytes} {v : Nat} (h : VarintWire chk bs v) : (varint v).length ≤ bs.length := by
  have hp := h.1.pos
  rw [varint_length_le _ _ hp]
  by_cases hl : bs.length ≤ 10
  · have := h.2.1 hl
    have h2 := Hpack.contVal_lt bs
    have h3 := Nat.mod_le (contVal bs) (2 ^ 64)
    omega
  · have h1 := VarintWire.lt h
    have h2 : (128 : Nat) ^ 10 ≤ 128 ^ bs.length := Nat.pow_le_pow_right (by decide) (by omega)
    have h3 : (2 : Nat) ^ 64 ≤ 128 ^ 10 := by decide
    omega

theorem cont_shortest {p : Bytes} (h : IsCont p) : (varint (contVal p % 2 ^ 64)).length ≤ p.length := by
  have hp := h.pos
  rw [varint_length_le _ _ hp]
  have h2 := Hpack.contVal_lt p
  have h3 := Nat.mod_le (contVal p) (2 ^ 64)
  omega

/-- One field. -/
theorem rewrite_record {chk : Bool} {r : Rec} {b : Bytes} (h : RecordWire chk r b) (hv : r.2.1 = .varint → r.2.2.length ≤ 10)
    (hl : b.length < 2 ^ 64) :
    ∃ lit, rewriteLit chk r = .ok lit ∧ GoodField (r.1, lit) ∧ (r.1, wireType lit, payload lit) = normal r ∧
      (fieldBytes r.1.toNat lit).length ≤ b.length := by
  obtain ⟨tag, typ, p⟩ := r
  obtain ⟨k, c, rfl, ⟨h1, h2, h3, hk⟩, hb⟩ := h
  have hks := varint_shortest hk
  simp only [List.length_append] at hl
  simp only at hv h1 h2 h3 hk hb hks
  cases typ with
  | unknown => exact absurd rfl h3
  | varint =>
    obtain ⟨rfl, hc⟩ := hb
    have hw := varintWire_of chk hc (fun _ => hv rfl)
    have hval := hw.2.1 (hv rfl)
    refine ⟨.uint64 (UInt64.ofNat (contVal c % 2 ^ 64)), ?_, ⟨h1, by simp only; omega, trivial⟩, ?_, ?_⟩
    · have : DecoderLit.toU64 chk (.uint64 c) = .ok (UInt64.ofNat (contVal c % 2 ^ 64)) := by
        show unwrapScalar 0 (decodeUint64 chk c) = _
        exact unwrapScalar_ok (reads_uint64 chk) ⟨_, hw, by rw [← hval]⟩ 0
      simp only [rewriteLit, this]; rfl
    · have hm : contVal c % 2 ^ 64 < 2 ^ 64 := Nat.mod_lt _ (by decide)
      simp only [normal, wireType, payload, UInt64.toNat_ofNat', if_true, Nat.mod_mod]
    · have hm : (UInt64.ofNat (contVal c % 2 ^ 64)).toNat = contVal c % 2 ^ 64 := by
        rw [UInt64.toNat_ofNat', Nat.mod_mod]
      have := cont_shortest hc
      simp only [fieldBytes, record, wireType, payload, reduceCtorEq, if_false, List.append_nil, List.length_append, hm]
      omega
  | bit32 =>
    obtain ⟨rfl, hc⟩ := hb
    have hlt := leVal_lt c
    rw [hc] at hlt
    have hm : (UInt32.ofNat (leVal c)).toNat = leVal c := by
      rw [UInt32.toNat_ofNat']; exact Nat.mod_eq_of_lt hlt
    have hle : le 4 (leVal c) = c := by have := le_leVal c; rwa [hc] at this
    refine ⟨.fixed32 (UInt32.ofNat (leVal c)), ?_, ⟨h1, by simp only; omega, trivial⟩, ?_, ?_⟩
    · have : DecoderLit.toU32 chk (.fixed32 c) = .ok (UInt32.ofNat (leVal c)) := by
        show unwrapScalar 0 (decodeFixed32 c) = _
        exact unwrapScalar_ok reads_fixed32 ⟨hc, rfl⟩ 0
      simp only [rewriteLit, this]; rfl
    · simp only [normal, wireType, payload, hm, hle, reduceCtorEq, if_false]
    · simp only [fieldBytes, record, wireType, payload, hm, hle, reduceCtorEq, if_false, List.append_nil, List.length_append]
      omega
  | bit64 =>
    obtain ⟨rfl, hc⟩ := hb
    have hlt := leVal_lt c
    rw [hc] at hlt
    have hm : (UInt64.ofNat (leVal c)).toNat = leVal c := by
      rw [UInt64.toNat_ofNat']; exact Nat.mod_eq_of_lt hlt
    have hle : le 8 (leVal c) = c := by have := le_leVal c; rwa [hc] at this
    refine ⟨.fixed64 (UInt64.ofNat (leVal c)), ?_, ⟨h1, by simp only; omega, trivial⟩, ?_, ?_⟩
    · have : DecoderLit.toU64 chk (.fixed64 c) = .ok (UInt64.ofNat (leVal c)) := by
        show unwrapScalar 0 (decodeFixed64 c) = _
        exact unwrapScalar_ok reads_fixed64 ⟨hc, rfl⟩ 0
      simp only [rewriteLit, this]; rfl
    · simp only [normal, wireType, payload, hm, hle, reduceCtorEq, if_false]
    · simp only [fieldBytes, record, wireType, payload, hm, hle, reduceCtorEq, if_false, List.append_nil, List.length_append]
      omega
  | lengthDelimited =>
    obtain ⟨l, rfl, hw⟩ := hb
    have hls := varint_shortest hw
    simp only [List.length_append] at hl
    refine ⟨.bytes p, rfl, ⟨h1, by simp only; omega, ?_⟩, ?_, ?_⟩
    · show p.length < 2 ^ 64; omega
    · simp only [normal, wireType, payload, reduceCtorEq, if_false]
    · simp only [fieldBytes, record, wireType, payload, if_true, List.length_append]
      omega

theorem rewrite_message {chk : Bool} (recs : List Rec) : ∀ {bs : Bytes}, MessageWire chk recs bs →
    (∀ r ∈ recs, r.2.1 = .varint → r.2.2.length ≤ 10) → bs.length < 2 ^ 64 →
    ∃ fs, rewriteAll chk recs = .ok fs ∧ (∀ f ∈ fs, GoodField f) ∧ (fs.map fun f => (f.1, wireType f.2, payload f.2)) = recs.map normal ∧
      (fs.flatMap fun f => fieldBytes f.1.toNat f.2).length ≤ bs.length := by
  induction recs with
  | nil => intro bs _ _ _; exact ⟨[], rfl, by simp, rfl, by simp⟩
  | cons r rs ih =>
    intro bs h hv hl
    obtain ⟨b, c, rfl, h1, h2⟩ := h
    rw [List.length_append] at hl
    obtain ⟨lit, a1, a2, a3, a4⟩ := rewrite_record h1 (hv r (by simp)) (by omega)
    obtain ⟨fs, b1, b2, b3, b4⟩ := ih h2 (fun r hr => hv r (by simp [hr])) (by omega)
    refine ⟨(r.1, lit) :: fs, ?_, ?_, ?_, ?_⟩
    · simp only [rewriteAll, a1, b1]; rfl
    · intro f hf
      rcases List.mem_cons.mp hf with rfl | hf
      · exact a2
      · exact b2 f hf
    · rw [List.map_cons, List.map_cons, b3, ← a3]
    · simp only [List.flatMap_cons, List.length_append]
      omega

/-- C74. A message read without its schema and written again: the conversions and all calls succeed, the new message is not longer, and
is read as the same fields: same tags, same wire types, same fixed-size and length-delimited payloads, and varints with the same 64-bit
value, now as short as possible. (Varints of more than ten bytes, see C45, are left out.) -/
theorem C74_rewrite (chk : Bool) (bs : Bytes) (recs : List Rec) (hl : bs.length < 2 ^ 64)
    (h : drain chk (DState.fresh bs []) = (.ok (), DState.fresh [] recs)) (hv : ∀ r ∈ recs, r.2.1 = .varint → r.2.2.length ≤ 10) :
    ∃ fs out, rewriteAll chk recs = .ok fs ∧ encodeAll vecWriter fs [] = (.ok out.length, out) ∧ out.length ≤ bs.length ∧
      drain chk (DState.fresh out []) = (.ok (), DState.fresh [] (recs.map normal)) := by
  obtain ⟨fs, h1, h2, h3, h4⟩ := rewrite_message recs ((C64_exactly_the_format chk bs recs []).mp h) hv hl
  obtain ⟨m, e1, e2, _⟩ := C52_until_zero chk fs h2 []
  have e3 := C56_append_all fs h2 []
  simp only [List.nil_append] at e3 e2
  have hm : m = fs.flatMap fun f => fieldBytes f.1.toNat f.2 := (Prod.mk.inj (e1.symm.trans e3)).2
  rw [h3] at e2
  exact ⟨fs, m, h1, e1, by rw [hm]; exact h4, e2⟩

theorem normal_payload (f : UInt32 × EncoderLit) : normal (f.1, wireType f.2, payload f.2) = (f.1, wireType f.2, payload f.2) ∧
    (wireType f.2 = .varint → (payload f.2).length ≤ 10) := by
  have key : ∀ n, n < 2 ^ 64 → normal (f.1, .varint, varint n) = (f.1, .varint, varint n) ∧ (varint n).length ≤ 10 := by
    intro n hn
    exact ⟨by simp only [normal, if_true, varint_contVal, Nat.mod_eq_of_lt hn], varint_le10 hn⟩
  obtain ⟨tag, lit⟩ := f
  cases lit <;> first
    | exact ⟨rfl, fun h => nomatch h⟩
    | skip
  · rename_i v; exact ⟨(key _ (bool_lt v)).1, fun _ => (key _ (bool_lt v)).2⟩
  · rename_i v; exact ⟨(key _ (twos_lt _)).1, fun _ => (key _ (twos_lt _)).2⟩
  · rename_i v; exact ⟨(key _ (twos_lt _)).1, fun _ => (key _ (twos_lt _)).2⟩
  · rename_i v; exact ⟨(key _ (u32_lt v)).1, fun _ => (key _ (u32_lt v)).2⟩
  · rename_i v; exact ⟨(key _ v.toNat_lt).1, fun _ => (key _ v.toNat_lt).2⟩
  · rename_i v; exact ⟨(key _ (zigzag32_lt v)).1, fun _ => (key _ (zigzag32_lt v)).2⟩
  · rename_i v; exact ⟨(key _ (zigzag64_lt v)).1, fun _ => (key _ (zigzag64_lt v)).2⟩

theorem record_det {fs gs : List (UInt32 × EncoderLit)}
    (h : (fs.map fun f => (f.1, wireType f.2, payload f.2)) = gs.map fun f => (f.1, wireType f.2, payload f.2)) :
    (fs.flatMap fun f => fieldBytes f.1.toNat f.2) = gs.flatMap fun f => fieldBytes f.1.toNat f.2 := by
  have : ∀ fs : List (UInt32 × EncoderLit), (fs.flatMap fun f => fieldBytes f.1.toNat f.2) =
      (fs.map fun f => (f.1, wireType f.2, payload f.2)).flatMap fun r => record r.1.toNat r.2.1 r.2.2 := by
    intro fs; rw [List.flatMap_map]; rfl
  rw [this, this, h]

/-- C74. A message that was written by this encoder, in whatever formats, comes out of the rewriting byte for byte the same. In particular
rewriting a second time changes nothing. -/
theorem C74_own_messages (chk : Bool) (gs : List (UInt32 × EncoderLit)) (h : ∀ f ∈ gs, GoodField f) (bs : Bytes) (hl : bs.length < 2 ^ 64)
    (he : encodeAll vecWriter gs [] = (.ok bs.length, bs)) :
    ∃ recs fs, drain chk (DState.fresh bs []) = (.ok (), DState.fresh [] recs) ∧ rewriteAll chk recs = .ok fs ∧
      encodeAll vecWriter fs [] = (.ok bs.length, bs) := by
  obtain ⟨m, e1, e2, _⟩ := C52_until_zero chk gs h []
  have hm : m = bs := (Prod.mk.inj (e1.symm.trans he)).2
  subst hm
  simp only [List.nil_append] at e2
  have hv : ∀ r ∈ (gs.map fun f => (f.1, wireType f.2, payload f.2)), r.2.1 = .varint → r.2.2.length ≤ 10 := by
    intro r hr
    obtain ⟨f, _, rfl⟩ := List.mem_map.mp hr
    exact (normal_payload f).2
  obtain ⟨fs, h1, h2, h3, h4⟩ := rewrite_message _ ((C64_exactly_the_format chk m _ []).mp e2) hv hl
  refine ⟨_, fs, e2, h1, ?_⟩
  have h5 : (fs.map fun f => (f.1, wireType f.2, payload f.2)) = gs.map fun f => (f.1, wireType f.2, payload f.2) := by
    rw [h3, List.map_map]
    exact List.map_congr_left fun f _ => (normal_payload f).1
  have e3 := C56_append_all fs h2 []
  have e4 := C56_append_all gs h []
  simp only [List.nil_append] at e3 e4
  rw [e3, record_det h5, ← e4, he]

/-! A message with an overlong key, an overlong varint, an overlong length and a fixed number. -/
example : drain true (DState.fresh [0x88, 0x00, 0x81, 0x80, 0x00, 0x12, 0x81, 0x00, 0x61, 0x1D, 1, 2, 3, 4]) =
    (.ok (), DState.fresh [] [(1, .varint, [0x81, 0x80, 0x00]), (2, .lengthDelimited, [0x61]), (3, .bit32, [1, 2, 3, 4])]) := by decide
example : rewriteAll true [(1, .varint, [0x81, 0x80, 0x00]), (2, .lengthDelimited, [0x61]), (3, .bit32, [1, 2, 3, 4])] =
    .ok [(1, .uint64 1), (2, .bytes [0x61]), (3, .fixed32 0x04030201)] := by decide
example : encodeAll vecWriter [(1, .uint64 1), (2, .bytes [0x61]), (3, .fixed32 0x04030201)] [] =
    (.ok 10, [8, 1, 0x12, 1, 0x61, 0x1D, 1, 2, 3, 4]) := by decide

end Verif.Props
