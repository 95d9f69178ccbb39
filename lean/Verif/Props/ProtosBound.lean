import Verif.Props.ProtosPacked
/-! Property theorem C122: what decoding a protobuf stream delivers is bounded by the bytes that arrived; also the accounting of C54 along
any schedule of calls. -/
namespace Verif.Props
open Verif Verif.Spec Verif.Spec.Proto Verif.Protos

theorem message_append {chk : Bool} {r1 r2 : List Rec} {a b : Bytes} (h1 : MessageWire chk r1 a) (h2 : MessageWire chk r2 b) :
    MessageWire chk (r1 ++ r2) (a ++ b) := by
  induction r1 generalizing a with
  | nil => obtain rfl : a = [] := h1; exact h2
  | cons r rs ih =>
    obtain ⟨x, y, rfl, hx, hy⟩ := h1
    exact ⟨x, y ++ b, by simp, hx, ih hy⟩

/-- C54 along any schedule: whatever has been appended and however often `decode` was called, also if a call failed, the bytes that arrived
up to then are exactly those of the delivered fields, followed by the header of an unfinished one and the bytes in the buffer. -/
theorem C54_any_schedule (chk : Bool) (acts : List Action) (dst : List Rec) :
    ∃ (pre post : List Action) (m : Bytes) (recs : List Rec) (hb : Bytes), acts = pre ++ post ∧ ((schedule chk acts (DState.fresh [] dst)).1 = .ok () → post = []) ∧
      arrivals pre = m ++ hb ++ (schedule chk acts (DState.fresh [] dst)).2.buf ∧ MessageWire chk recs m ∧
      (schedule chk acts (DState.fresh [] dst)).2.dst = dst ++ recs ∧
      HeaderWire chk (schedule chk acts (DState.fresh [] dst)).2.key (schedule chk acts (DState.fresh [] dst)).2.ldLen hb := by
  suffices H : ∀ (acts : List Action) (s : DState) (a m : Bytes) (recs : List Rec) (hb : Bytes), a = m ++ hb ++ s.buf → MessageWire chk recs m →
      s.dst = dst ++ recs → HeaderWire chk s.key s.ldLen hb →
      ∃ pre post m recs hb, acts = pre ++ post ∧ ((schedule chk acts s).1 = .ok () → post = []) ∧
        a ++ arrivals pre = m ++ hb ++ (schedule chk acts s).2.buf ∧ MessageWire chk recs m ∧ (schedule chk acts s).2.dst = dst ++ recs ∧
        HeaderWire chk (schedule chk acts s).2.key (schedule chk acts s).2.ldLen hb by
    exact H acts (DState.fresh [] dst) [] [] [] [] rfl rfl (by simp [DState.fresh]) (.inl ⟨rfl, rfl, rfl⟩)
  intro acts
  induction acts with
  | nil => intro s a m recs hb h1 h2 h3 h4; exact ⟨[], [], m, recs, hb, rfl, fun _ => rfl, (List.append_nil a).trans h1, h2, h3, h4⟩
  | cons act acts ih =>
    intro s a m recs hb h1 h2 h3 h4
    cases act with
    | append x =>
      obtain ⟨pre, post, m', recs', hb', g1, g2, g3, g4, g5, g6⟩ := ih (s.app x) (a ++ x) m recs hb (by simp [h1, DState.app]) h2 h3 h4
      have he : schedule chk (.append x :: acts) s = schedule chk acts (s.app x) := rfl
      rw [he]
      exact ⟨.append x :: pre, post, m', recs', hb', by rw [g1]; rfl, g2, by simpa [arrivals] using g3, g4, g5, g6⟩
    | decode =>
      obtain ⟨removed, m1, recs1, hb1, d1, d2, d3, d4, d5⟩ := C54_accounting chk s hb h4
      have k1 : a = (m ++ m1) ++ hb1 ++ (Protos.decode chk s).2.buf := by
        rw [h1, d1, List.append_assoc m, ← List.append_assoc hb, d3]
        simp
      have k2 := message_append h2 d4
      have k3 : (Protos.decode chk s).2.dst = dst ++ (recs ++ recs1) := by rw [d2, h3, List.append_assoc]
      have he : schedule chk (.decode :: acts) s = (Protos.decode chk >>= fun _ => schedule chk acts) s := rfl
      rcases hd : Protos.decode chk s with ⟨n | e | _ | _, t⟩ <;> rw [hd] at k1 k3 d5
      · rw [M.bind_of_ok hd] at he
        rw [he]
        obtain ⟨pre, post, m', recs', hb', g1, g2, g3, g4, g5, g6⟩ := ih t a _ _ hb1 k1 k2 k3 d5
        exact ⟨.decode :: pre, post, m', recs', hb', by rw [g1]; rfl, g2, g3, g4, g5, g6⟩
      all_goals
        rw [M.bind_apply, hd] at he
        rw [he]
        exact ⟨[.decode], acts, _, _, hb1, rfl, (by intro h; cases h), by simpa [arrivals] using k1, k2, k3, d5⟩

theorem arrivals_append (a b : List Action) : arrivals (a ++ b) = arrivals a ++ arrivals b := by
  induction a with
  | nil => rfl
  | cons x a ih => cases x <;> simp [arrivals, ih]

theorem record_bound {chk : Bool} {r : Rec} {b : Bytes} (h : RecordWire chk r b) : 2 ≤ b.length ∧ r.2.2.length + 1 ≤ b.length := by
  obtain ⟨k, c, rfl, ⟨_, _, _, hk⟩, hb⟩ := h
  have h1 := pos_of_ne hk.1.ne_nil
  rw [List.length_append]
  obtain ⟨tag, typ, p⟩ := r
  cases typ with
  | unknown => exact hb.elim
  | varint => obtain ⟨rfl, hc⟩ := hb; have := pos_of_ne hc.ne_nil; simp only at this ⊢; omega
  | bit64 => obtain ⟨rfl, hc⟩ := hb; simp only at hc ⊢; omega
  | lengthDelimited => obtain ⟨l, rfl, hl⟩ := hb; have := pos_of_ne hl.1.ne_nil; simp only [List.length_append]; omega
  | bit32 => obtain ⟨rfl, hc⟩ := hb; simp only at hc ⊢; omega

theorem message_bound {chk : Bool} {recs : List Rec} {m : Bytes} (h : MessageWire chk recs m) :
    2 * recs.length ≤ m.length ∧ (recs.map fun r => r.2.2.length).sum + recs.length ≤ m.length := by
  induction recs generalizing m with
  | nil => simp
  | cons r rs ih =>
    obtain ⟨a, b, rfl, ha, hb⟩ := h
    have h1 := record_bound ha
    have h2 := ih hb
    simp only [List.length_cons, List.map_cons, List.sum_cons, List.length_append]
    omega

/-- C122. However the bytes arrive and however `decode` is called, also if calls fail: at most one field is delivered for two bytes that
arrived, and the payloads of the delivered fields together are shorter than the bytes that arrived by at least one byte for each field. -/
theorem C122_fields (chk : Bool) (acts : List Action) (dst : List Rec) :
    ∃ recs : List Rec, (schedule chk acts (DState.fresh [] dst)).2.dst = dst ++ recs ∧ 2 * recs.length ≤ (arrivals acts).length ∧
      (recs.map fun r => r.2.2.length).sum + recs.length + (schedule chk acts (DState.fresh [] dst)).2.buf.length ≤ (arrivals acts).length := by
  obtain ⟨pre, post, m, recs, hb, h1, _, h3, h4, h5, _⟩ := C54_any_schedule chk acts dst
  have h6 := message_bound h4
  have h7 := congrArg List.length h3
  have h8 : (arrivals pre).length ≤ (arrivals acts).length := by rw [h1, arrivals_append, List.length_append]; omega
  simp only [List.length_append] at h7
  exact ⟨recs, h5, by omega, by omega⟩

/-- A conversion to a vector gives at most one element for `k` bytes of the payload. -/
def AtMostPer (k : Nat) {α : Type} (conv : Bytes → Res DecoderError (List α)) : Prop := ∀ buf vs, conv buf = .ok vs → k * vs.length ≤ buf.length

theorem packed_bound {α : Type} {W : Octets → α → Prop} {k : Nat} (hw : ∀ b v, W b v → k ≤ b.length) :
    ∀ (vs : List α) (buf : Bytes), PackedWire W vs buf → k * vs.length ≤ buf.length := by
  intro vs
  induction vs with
  | nil => intro buf _; simp
  | cons v vs ih =>
    rintro buf ⟨b, c, rfl, h1, h2⟩
    have := hw b v h1
    have := ih c h2
    rw [List.length_cons, List.length_append, Nat.mul_add]
    omega

theorem convVec_bound {α : Type} {p : Bool} {W : Octets → α → Prop} {conv : Bytes → Res DecoderError (List α)} {k : Nat} (h : ConvVec p W conv)
    (hw : ∀ b v, W b v → k ≤ b.length) : AtMostPer k conv := by
  intro buf vs e
  rcases h buf with ⟨vs', h1, h2⟩ | ⟨_, h2 | ⟨_, h2⟩⟩
  · rw [e] at h2; injection h2 with h2; subst h2; exact packed_bound hw _ _ h1
  · rw [e] at h2; injection h2 with h2; subst h2; simp
  · rw [e] at h2; cases h2

theorem varintItem_pos {α : Type} {chk : Bool} {f : Nat → α} (b : Octets) (v : α) (h : VarintItem chk f b v) : 1 ≤ b.length := by
  obtain ⟨n, h, _⟩ := h
  exact pos_of_ne h.1.ne_nil

/-- C122. A packed payload has at most one element for each byte, or for each four or eight bytes in the fixed-size formats. So whatever
arrives, all numbers in all vectors that can be made of the fields are no more than the bytes that arrived. -/
theorem C122_elements (chk : Bool) :
    AtMostPer 1 (fun b => DecoderLit.toBoolVec chk (.boolVec b)) ∧ AtMostPer 1 (fun b => DecoderLit.toI32Vec chk (.int32Vec b)) ∧
    AtMostPer 1 (fun b => DecoderLit.toI64Vec chk (.int64Vec b)) ∧ AtMostPer 1 (fun b => DecoderLit.toU32Vec chk (.uint32Vec b)) ∧
    AtMostPer 1 (fun b => DecoderLit.toU64Vec chk (.uint64Vec b)) ∧ AtMostPer 1 (fun b => DecoderLit.toI32Vec chk (.sint32Vec b)) ∧
    AtMostPer 1 (fun b => DecoderLit.toI64Vec chk (.sint64Vec b)) ∧ AtMostPer 4 (fun b => DecoderLit.toU32Vec chk (.fixed32Vec b)) ∧
    AtMostPer 8 (fun b => DecoderLit.toU64Vec chk (.fixed64Vec b)) ∧ AtMostPer 4 (fun b => DecoderLit.toI32Vec chk (.sfixed32Vec b)) ∧
    AtMostPer 8 (fun b => DecoderLit.toI64Vec chk (.sfixed64Vec b)) ∧ AtMostPer 4 (fun b => DecoderLit.toF32Vec (.floatVec b)) ∧
    AtMostPer 8 (fun b => DecoderLit.toF64Vec (.doubleVec b)) := by
  obtain ⟨h1, h2, h3, h4, h5, h6, h7, h8, h9, h10, h11, h12, h13⟩ := C60_conversions chk
  refine ⟨convVec_bound h1 varintItem_pos, convVec_bound h2 varintItem_pos, convVec_bound h3 varintItem_pos, convVec_bound h4 varintItem_pos,
    convVec_bound h5 varintItem_pos, convVec_bound h6 varintItem_pos, convVec_bound h7 varintItem_pos, convVec_bound h8 ?_, convVec_bound h9 ?_,
    convVec_bound h10 ?_, convVec_bound h11 ?_, convVec_bound h12 ?_, convVec_bound h13 ?_⟩ <;> exact fun b v h => Nat.le_of_eq h.1.symm

/-! The bounds are met: a field for two bytes, a payload one byte shorter than the message, an element of 8 bytes in memory for one byte. And
a schedule in which a call fails. -/
example : schedule true [.append [8, 1, 8], .decode, .append [2, 18, 0], .decode, .append [7, 1], .decode, .append [9]] (DState.fresh []) =
    (.err .invalidInput, DState.fresh [7, 1] [(1, .varint, [1]), (1, .varint, [2]), (2, .lengthDelimited, [])]) := by decide
example : decode true (DState.fresh [9, 1, 2, 3, 4, 5, 6, 7, 8]) = (.ok 9, DState.fresh [] [(1, .bit64, [1, 2, 3, 4, 5, 6, 7, 8])]) := by decide
example : DecoderLit.toU64Vec true (.uint64Vec [1, 2, 3]) = .ok [1, 2, 3] := by decide

end Verif.Props
