import Verif.Props.Protos
import Verif.Props.ProtosNested
import Verif.Spec.ProtosMerge
/-! Property theorems C135: reading messages by tag; order of fields, merging and overriding by concatenation. -/
namespace Verif.Props
open Verif Verif.Spec Verif.Protos Verif.Spec.Proto

theorem ofTag_append (tag : UInt32) (a b : List Rec) : ofTag tag (a ++ b) = ofTag tag a ++ ofTag tag b := by
  simp [ofTag, List.filter_append]

theorem lastOf_append (tag : UInt32) (a b : List Rec) : lastOf tag (a ++ b) = (lastOf tag b).or (lastOf tag a) := by
  unfold lastOf; rw [ofTag_append, List.getLast?_append]

theorem ofTag_fields (tag : UInt32) (fs : List (UInt32 × EncoderLit)) :
    ofTag tag (fs.map fun f => (f.1, wireType f.2, payload f.2)) = (fs.filter fun f => f.1 = tag).map fun f => (wireType f.2, payload f.2) := by
  unfold ofTag
  rw [List.filter_map, List.map_map]; rfl

theorem perm_of_tags {fs gs : List (UInt32 × EncoderLit)} (h : ∀ tag : UInt32, (fs.filter fun f => f.1 = tag) = gs.filter fun f => f.1 = tag) :
    fs.Perm gs := by
  rw [List.perm_iff_count]
  intro x
  have hx := congrArg (List.count x) (h x.1)
  rwa [List.count_filter (by simp), List.count_filter (by simp)] at hx

/-- C135. The order of fields with different tags does not matter: if two lists have, for each tag, the same fields in the same order, the
messages have the same length, and for each tag the same values are read in the same order. -/
theorem C135_order (chk : Bool) (fs gs : List (UInt32 × EncoderLit)) (hf : ∀ f ∈ fs, GoodField f)
    (h : ∀ tag : UInt32, (fs.filter fun f => f.1 = tag) = gs.filter fun f => f.1 = tag) :
    ∃ m m' r r', encodeAll vecWriter fs [] = (.ok m.length, m) ∧ encodeAll vecWriter gs [] = (.ok m'.length, m') ∧
      drain chk (DState.fresh m []) = (.ok (), DState.fresh [] r) ∧ drain chk (DState.fresh m' []) = (.ok (), DState.fresh [] r') ∧
      m.length = m'.length ∧ ∀ tag, ofTag tag r = ofTag tag r' := by
  have hp := perm_of_tags h
  have hg : ∀ g ∈ gs, GoodField g := fun g hm => hf g (hp.mem_iff.mpr hm)
  obtain ⟨m, e1, d1, _⟩ := C52_until_zero chk fs hf []
  obtain ⟨m', e2, d2, _⟩ := C52_until_zero chk gs hg []
  refine ⟨m, m', _, _, e1, e2, d1, d2, ?_, fun tag => ?_⟩
  · have x1 := C56_append_all fs hf []
    have x2 := C56_append_all gs hg []
    dsimp only at x1 x2
    rw [e1] at x1; rw [e2] at x2
    injection x1 with _ y1; injection x2 with _ y2
    rw [y1, y2, List.nil_append, List.nil_append]
    exact (hp.flatMap_right _).length_eq
  · rw [List.nil_append, List.nil_append, ofTag_fields, ofTag_fields, h tag]

example : (∀ tag : UInt32, ([(1, .uint64 5), (2, .bool true), (1, .uint64 6)].filter fun f => f.1 = tag) =
      ([(2, .bool true), (1, .uint64 5), (1, .uint64 6)] : List (UInt32 × EncoderLit)).filter fun f => f.1 = tag) ∧
    ((encodeAll vecWriter [(1, .uint64 5), (2, .bool true), (1, .uint64 6)] []).2 = [8, 5, 16, 1, 8, 6]) ∧
    ((encodeAll vecWriter [(2, .bool true), (1, .uint64 5), (1, .uint64 6)] []).2 = [16, 1, 8, 5, 8, 6]) := by
  refine ⟨fun tag => ?_, by decide +kernel, by decide +kernel⟩
  by_cases h1 : (1 : UInt32) = tag
  · subst h1; decide
  · by_cases h2 : (2 : UInt32) = tag
    · subst h2; decide
    · simp [h1, h2]

/-- C135. Concatenating two byte strings that are read completely merges them: for each tag the values of the second follow those of the
first, so of a field that is not repeated the second one's value counts if it has one, and otherwise the first one's. -/
theorem C135_merge (chk : Bool) (a b : Bytes) (ra rb : List Rec)
    (ha : drain chk (DState.fresh a []) = (.ok (), DState.fresh [] ra)) (hb : drain chk (DState.fresh b []) = (.ok (), DState.fresh [] rb)) :
    ∃ r, drain chk (DState.fresh (a ++ b) []) = (.ok (), DState.fresh [] r) ∧
      ∀ tag, ofTag tag r = ofTag tag ra ++ ofTag tag rb ∧ lastOf tag r = (lastOf tag rb).or (lastOf tag ra) := by
  have := C78_concat chk [(a, ra), (b, rb)] (by
    intro m hm
    simp only [List.mem_cons, List.not_mem_nil, or_false] at hm
    rcases hm with rfl | rfl
    · exact ha
    · exact hb) []
  simp only [List.flatMap_cons, List.flatMap_nil, List.append_nil, List.nil_append] at this
  exact ⟨_, this, fun tag => ⟨ofTag_append tag ra rb, lastOf_append tag ra rb⟩⟩

example : drain true (DState.fresh ([8, 5, 16, 1] ++ [8, 6]) []) =
    (.ok (), DState.fresh [] [(1, .varint, [5]), (2, .varint, [1]), (1, .varint, [6])]) ∧
    lastOf 1 [(1, .varint, [5]), (2, .varint, [1]), (1, .varint, [6])] = some (.varint, [6]) ∧
    lastOf 2 [(1, .varint, [5]), (2, .varint, [1]), (1, .varint, [6])] = some (.varint, [1]) ∧
    lastOf 3 [(1, .varint, [5]), (2, .varint, [1]), (1, .varint, [6])] = none := by decide +kernel

/-- C135. Forward compatibility: fields with tags a reader does not know, inserted anywhere between fields, change nothing for the tags it
knows. -/
theorem C135_unknown_fields (chk : Bool) (a u b : Bytes) (ra ru rb : List Rec)
    (ha : drain chk (DState.fresh a []) = (.ok (), DState.fresh [] ra)) (hu : drain chk (DState.fresh u []) = (.ok (), DState.fresh [] ru))
    (hb : drain chk (DState.fresh b []) = (.ok (), DState.fresh [] rb)) :
    ∃ r r', drain chk (DState.fresh (a ++ u ++ b) []) = (.ok (), DState.fresh [] r) ∧
      drain chk (DState.fresh (a ++ b) []) = (.ok (), DState.fresh [] r') ∧
      ∀ tag, (∀ x ∈ ru, x.1 ≠ tag) → ofTag tag r = ofTag tag r' ∧ lastOf tag r = lastOf tag r' := by
  obtain ⟨r1, h1, p1⟩ := C135_merge chk a u ra ru ha hu
  obtain ⟨r, h2, p2⟩ := C135_merge chk (a ++ u) b r1 rb h1 hb
  obtain ⟨r', h3, p3⟩ := C135_merge chk a b ra rb ha hb
  refine ⟨r, r', h2, h3, fun tag ht => ?_⟩
  have e : ofTag tag ru = [] := by
    unfold ofTag
    rw [List.filter_eq_nil_iff.mpr (by intro x hx; simpa using ht x hx)]; rfl
  have e2 : ofTag tag r = ofTag tag r' := by rw [(p2 tag).1, (p1 tag).1, (p3 tag).1, e, List.append_nil]
  exact ⟨e2, by unfold lastOf; rw [e2]⟩

example : drain true (DState.fresh [26, 2, 8, 7] []) = (.ok (), DState.fresh [] [(3, .lengthDelimited, [8, 7])]) ∧
    drain true (DState.fresh ([8, 5] ++ [26, 2, 8, 7] ++ [16, 1]) []) =
      (.ok (), DState.fresh [] [(1, .varint, [5]), (3, .lengthDelimited, [8, 7]), (2, .varint, [1])]) := by decide +kernel

/-- C135. Overriding a field without understanding the message: encode the new value behind any bytes that are read completely. The field then
has the new value, which converts back, and all other fields are as before. -/
theorem C135_override (chk : Bool) (a : Bytes) (ra : List Rec) (tag : UInt32) (lit : EncoderLit) (hg : GoodField (tag, lit))
    (ha : drain chk (DState.fresh a []) = (.ok (), DState.fresh [] ra)) :
    ∃ n m r, Encoder.encode vecWriter tag lit a = (.ok n, m) ∧ m.length = a.length + n ∧
      drain chk (DState.fresh m []) = (.ok (), DState.fresh [] r) ∧
      lastOf tag r = some (wireType lit, payload lit) ∧ ConvertsBack chk (payload lit) lit ∧
      ∀ other, other ≠ tag → ofTag other r = ofTag other ra := by
  obtain ⟨m, e, d, c⟩ := C52_until_zero chk [(tag, lit)] (by intro f hf; cases List.mem_singleton.mp hf; exact hg) []
  have hm : m = fieldBytes tag.toNat lit := by
    have x := C56_append_all [(tag, lit)] (by intro f hf; cases List.mem_singleton.mp hf; exact hg) []
    dsimp only at x
    rw [e] at x
    injection x with _ y
    simpa using y
  obtain ⟨r, h1, h2⟩ := C135_merge chk a m ra _ ha d
  refine ⟨_, _, r, C56_append tag lit hg a, List.length_append, by rw [← hm]; exact h1, ?_, c _ (List.mem_singleton.mpr rfl), fun other ho => ?_⟩
  · rw [(h2 tag).2]
    simp [lastOf, ofTag]
  · rw [(h2 other).1]
    simp [ofTag, Ne.symm ho]

example : drain true (DState.fresh [8, 5, 16, 1] []) = (.ok (), DState.fresh [] [(1, .varint, [5]), (2, .varint, [1])]) ∧
    Encoder.encode vecWriter 1 (.uint64 300) [8, 5, 16, 1] = (.ok 3, [8, 5, 16, 1, 8, 172, 2]) ∧ GoodField (1, .uint64 300) :=
  ⟨by decide +kernel, by decide +kernel, by decide, by decide, trivial⟩

end Verif.Props
