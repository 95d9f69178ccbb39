import Verif.Props.ProtosStream
/-! Property theorem C121: the bytes of a protobuf message are unambiguous. -/
namespace Verif.Props
open Verif Verif.Protos Verif.Spec.Proto

/-- The two values are of the same `EncoderLit` variant: a schema that fixes the format of each field makes this so. -/
def SameFormat (a b : EncoderLit) : Prop := a.ctorIdx = b.ctorIdx

/-- A payload read in one format has one value. -/
theorem converts_unique {chk : Bool} {p : Bytes} {a b : EncoderLit} (hf : SameFormat a b) (ha : ConvertsBack chk p a) (hb : ConvertsBack chk p b) :
    a = b := by
  cases a <;> cases b <;> first | (exact absurd hf (Nat.ne_of_beq_eq_false rfl)) | skip
  all_goals simp only [ConvertsBack] at ha hb; rw [ha] at hb
  all_goals first | rw [hb] | (injection hb with hb; rw [hb])

/-- C121. Two lists of fields with the same bytes: as many fields, with the same tags, wire types and payloads, one by one; and where the two
are written in the same format, the values are the same. -/
theorem C121_unambiguous (fs gs : List (UInt32 × EncoderLit)) (hf : ∀ f ∈ fs, GoodField f) (hg : ∀ g ∈ gs, GoodField g) (m : Bytes)
    (ef : encodeAll vecWriter fs [] = (.ok m.length, m)) (eg : encodeAll vecWriter gs [] = (.ok m.length, m)) :
    fs.length = gs.length ∧ ∀ (i : Nat) (f g : UInt32 × EncoderLit), fs[i]? = some f → gs[i]? = some g →
      f.1 = g.1 ∧ wireType f.2 = wireType g.2 ∧ payload f.2 = payload g.2 ∧ (SameFormat f.2 g.2 → f.2 = g.2) := by
  obtain ⟨m1, a1, a2, _⟩ := C52_until_zero true fs hf []
  obtain ⟨m2, b1, b2, _⟩ := C52_until_zero true gs hg []
  obtain rfl : m1 = m := (Prod.mk.inj (a1.symm.trans ef)).2
  obtain rfl : m2 = m1 := (Prod.mk.inj (b1.symm.trans eg)).2
  have h := C64_unambiguous true m2 _ _ ((C64_exactly_the_format true m2 _ []).mp a2) ((C64_exactly_the_format true m2 _ []).mp b2)
  refine ⟨by simpa using congrArg List.length h, fun i f g e1 e2 => ?_⟩
  have h1 := congrArg (fun l => l[i]?) h
  simp only [List.getElem?_map, e1, e2, Option.map_some, Option.some.injEq, Prod.mk.injEq] at h1
  refine ⟨h1.1, h1.2.1, h1.2.2, fun hs => converts_unique (chk := true) hs (payload_converts true f.2) ?_⟩
  rw [h1.2.2]
  exact payload_converts true g.2

/-- C121. With a schema that gives every tag one format, a message has only one list of fields. -/
theorem C121_with_schema (schema : UInt32 → Nat) (fs gs : List (UInt32 × EncoderLit)) (hf : ∀ f ∈ fs, GoodField f) (hg : ∀ g ∈ gs, GoodField g)
    (sf : ∀ f ∈ fs, f.2.ctorIdx = schema f.1) (sg : ∀ g ∈ gs, g.2.ctorIdx = schema g.1) (m : Bytes)
    (ef : encodeAll vecWriter fs [] = (.ok m.length, m)) (eg : encodeAll vecWriter gs [] = (.ok m.length, m)) : fs = gs := by
  obtain ⟨hl, h⟩ := C121_unambiguous fs gs hf hg m ef eg
  refine List.ext_getElem hl fun i h1 h2 => ?_
  obtain ⟨a, _, _, b⟩ := h i fs[i] gs[i] (by simp) (by simp)
  refine Prod.ext a (b ?_)
  show _ = _
  rw [sf _ (List.getElem_mem h1), sg _ (List.getElem_mem h2), a]

/-- C121. If the bytes of one list of fields are the beginning of the bytes of another one, its fields are the beginning of the other's, and
the rest of the bytes are the bytes of the rest of the fields. -/
theorem C121_prefix (fs gs : List (UInt32 × EncoderLit)) (hf : ∀ f ∈ fs, GoodField f) (hg : ∀ g ∈ gs, GoodField g) (m y : Bytes)
    (ef : encodeAll vecWriter fs [] = (.ok m.length, m)) (eg : encodeAll vecWriter gs [] = (.ok (m ++ y).length, m ++ y)) :
    fs.length ≤ gs.length ∧ encodeAll vecWriter (gs.take fs.length) [] = (.ok m.length, m) ∧
      encodeAll vecWriter (gs.drop fs.length) [] = (.ok y.length, y) ∧
      ∀ (i : Nat) (f g : UInt32 × EncoderLit), fs[i]? = some f → gs[i]? = some g →
        f.1 = g.1 ∧ wireType f.2 = wireType g.2 ∧ payload f.2 = payload g.2 ∧ (SameFormat f.2 g.2 → f.2 = g.2) := by
  obtain ⟨m1, a1, a2, _⟩ := C52_until_zero true fs hf []
  obtain ⟨m2, b1, b2, _⟩ := C52_until_zero true gs hg []
  obtain rfl : m1 = m := (Prod.mk.inj (a1.symm.trans ef)).2
  obtain rfl : m2 = m1 ++ y := (Prod.mk.inj (b1.symm.trans eg)).2
  obtain ⟨t, h1, h2⟩ := pump_two ((C64_exactly_the_format true _ _ []).mp b2) []
  rw [a2] at h1
  simp only [Prod.mk.injEq, true_and] at h1
  subst h1
  have h0 : HeaderWire true (DState.app (DState.fresh [] ([] ++ fs.map fun f => (f.1, wireType f.2, payload f.2))) y).key
      (DState.app (DState.fresh [] ([] ++ fs.map fun f => (f.1, wireType f.2, payload f.2))) y).ldLen [] := .inl ⟨rfl, rfl, rfl⟩
  obtain ⟨used, m, recs, hb', g1, g2, g3, g4, g5, _⟩ := drain_spec h0
  rw [h2] at g1 g2 g5
  have g2 : (gs.map fun f => (f.1, wireType f.2, payload f.2)) = (fs.map fun f => (f.1, wireType f.2, payload f.2)) ++ recs := by
    simpa [DState.app, DState.fresh] using g2
  have hl : fs.length ≤ gs.length := by have := congrArg List.length g2; simp at this; omega
  have ht : ((gs.take fs.length).map fun f => (f.1, wireType f.2, payload f.2)) = fs.map fun f => (f.1, wireType f.2, payload f.2) := by
    rw [List.map_take, g2, List.take_left' (by simp)]
  have hb : ∀ l : List (UInt32 × EncoderLit), bytesOf l =
      (l.map fun f => (f.1, wireType f.2, payload f.2)).flatMap fun r => record r.1.toNat r.2.1 r.2.2 := by
    intro l; rw [bytesOf, List.flatMap_map]; rfl
  have e1 := C56_append_all (gs.take fs.length) (fun f h => hg f (List.mem_of_mem_take h)) []
  have e2 := C56_append_all (gs.drop fs.length) (fun f h => hg f (List.mem_of_mem_drop h)) []
  have e3 := C56_append_all fs hf []
  have e4 := C56_append_all gs hg []
  simp only [List.nil_append] at e1 e2 e3 e4
  have q1 : bytesOf fs = m1 := ((Prod.mk.inj (e3.symm.trans ef)).2 : _)
  have q2 : bytesOf gs = m1 ++ y := ((Prod.mk.inj (e4.symm.trans eg)).2 : _)
  have q3 : bytesOf (gs.take fs.length) = m1 := by rw [hb, ht, ← hb, q1]
  have q4 : bytesOf (gs.drop fs.length) = y := by
    have : bytesOf gs = bytesOf (gs.take fs.length) ++ bytesOf (gs.drop fs.length) := by
      rw [bytesOf, bytesOf, bytesOf, ← List.flatMap_append, List.take_append_drop]
    rw [q2, q3] at this
    exact (List.append_cancel_left this).symm
  have r1 : encodeAll vecWriter (gs.take fs.length) [] = (.ok m1.length, m1) := by
    rw [e1]; rw [show ((gs.take fs.length).flatMap fun f => fieldBytes f.1.toNat f.2) = m1 from q3]
  refine ⟨hl, r1, by rw [e2]; rw [show ((gs.drop fs.length).flatMap fun f => fieldBytes f.1.toNat f.2) = y from q4], fun i f g h3 h4 => ?_⟩
  have hi : i < fs.length := (List.getElem?_eq_some_iff.mp h3).1
  exact (C121_unambiguous fs (gs.take fs.length) hf (fun g h => hg g (List.mem_of_mem_take h)) m1 ef r1).2 i f g h3
    (by rw [List.getElem?_take_of_lt hi]; exact h4)

/-! The format has to be known: the same bytes in three formats. And two messages of which one begins with the other. -/
example : encodeAll vecWriter [(1, .bool true)] [] = (.ok 2, [8, 1]) ∧ encodeAll vecWriter [(1, .uint64 1)] [] = (.ok 2, [8, 1]) ∧
    encodeAll vecWriter [(1, .sint32 (-1))] [] = (.ok 2, [8, 1]) := by decide
example : SameFormat (.uint64 1) (.uint64 2) ∧ ¬ SameFormat (.uint64 1) (.bool true) :=
  ⟨rfl, Nat.ne_of_beq_eq_false rfl⟩
example : GoodField (1, .uint64 1) ∧ GoodField (2, .bytes [0x61]) ∧ encodeAll vecWriter [(1, .uint64 1)] [] = (.ok 2, [8, 1]) ∧
    encodeAll vecWriter [(1, .uint64 1), (2, .bytes [0x61])] [] = (.ok 5, [8, 1] ++ [0x12, 1, 0x61]) := by
  refine ⟨⟨by decide, by decide, trivial⟩, ⟨by decide, by decide, (by decide : (1 : Nat) < 2 ^ 64)⟩, by decide, by decide⟩

end Verif.Props
