import Verif.Lemmas.ProtosValues
/-! Properties of `Encoder` and `Decoder` of the `protos` crate: fields, messages, streaming, failures. -/
namespace Verif.Props
open Verif Verif.Spec Verif.Spec.Proto Verif.Protos

/-! ### Writing -/

/-- C56. A field with a good tag is appended to whatever the vector holds; the bytes are those of the wire format, do not
depend on the contents, and their number is returned. -/
theorem C56_append (tag : UInt32) (lit : EncoderLit) (h : GoodField (tag, lit)) (dst : Bytes) :
    Encoder.encode vecWriter tag lit dst = (.ok (fieldBytes tag.toNat lit).length, dst ++ fieldBytes tag.toNat lit) := by
  obtain ⟨h1, h2, h3⟩ := h
  obtain ⟨plan, e, r⟩ := encode_runs ⟨h1, by omega⟩ lit (payload_fits _ h3)
  have := r.vec dst
  rw [e] at this
  exact this

/-- C56 for sequences of fields. -/
theorem C56_append_all (fs : List (UInt32 × EncoderLit)) (h : ∀ f ∈ fs, GoodField f) (dst : Bytes) :
    let m := fs.flatMap fun f => fieldBytes f.1.toNat f.2
    encodeAll vecWriter fs dst = (.ok m.length, dst ++ m) := by
  obtain ⟨plan, e, r⟩ := encodeAll_runs (goodField h)
  have := r.vec dst
  rw [e] at this
  exact this

example : Encoder.encode vecWriter 3 (.int32Vec [1, 300]) [9] = (.ok 5, [9, 26, 3, 1, 0xAC, 2]) := by decide
example : GoodField (3, .int32Vec [1, 300]) := by simp [GoodField, Fits]

/-- C59. The key that is written has the wire type of the format, and is read back with it. -/
theorem C59_wire_type (chk : Bool) (tag : UInt32) (lit : EncoderLit) (h : GoodField (tag, lit)) :
    ∃ key rest, Encoder.encode vecWriter tag lit [] = (.ok (key ++ rest).length, key ++ rest) ∧
      key = varint (8 * tag.toNat + typNum (wireType lit)) ∧
      decodeKey chk (key ++ rest) = .ok ((tag, wireType lit), key.length) := by
  have h1 := C56_append tag lit h []
  obtain ⟨a, b, c⟩ := h
  have ht : wireType lit ≠ .unknown := wireType_known lit
  have := typNum_lt ht
  have b' : tag.toNat ≤ 2 ^ 29 - 1 := b
  have hlt : 8 * tag.toNat + typNum (wireType lit) < 2 ^ 64 := by omega
  refine ⟨varint (8 * tag.toNat + typNum (wireType lit)),
    (if wireType lit = .lengthDelimited then varint (payload lit).length else []) ++ payload lit, ?_, rfl, ?_⟩
  · rw [List.nil_append, fieldBytes, record, List.append_assoc] at h1
    exact h1
  · exact decodeKey_ok ⟨a, by omega, ht, varint_wire chk hlt⟩ _

/-- C59, the table: which format has which wire type. -/
theorem C59_table (lit : EncoderLit) :
    typNum (wireType lit) = match lit with
      | .bool _ | .int32 _ | .int64 _ | .uint32 _ | .uint64 _ | .sint32 _ | .sint64 _ => 0
      | .fixed64 _ | .sfixed64 _ | .double _ => 1
      | .fixed32 _ | .sfixed32 _ | .float _ => 5
      | _ => 2 := by
  cases lit <;> rfl

/-- C57. What `encode` does to a writer, whatever the writer does: there is a fixed list of `write_all` calls, whose bytes are
those of the field; they are made in order until one fails. The result is the size if all succeeded and `Interrupted` if one
failed; in both cases the writer is left as these calls left it. -/
theorem C57_failing_writer (tag : UInt32) (lit : EncoderLit) (h : GoodField (tag, lit)) :
    ∃ plan : List Bytes, plan.flatten = fieldBytes tag.toNat lit ∧
      ∀ (σ : Type) (w : Writer σ) (s : σ), Encoder.encode w tag lit s =
        match runPlan w plan s with
        | (true, s') => (.ok (fieldBytes tag.toNat lit).length, s')
        | (false, s') => (.err .interrupted, s') := by
  obtain ⟨h1, h2, h3⟩ := h
  exact encode_runs ⟨h1, by omega⟩ lit (payload_fits _ h3)

/-- A writer that remembers its calls and fails from call number `k` on. -/
def failAt (k : Nat) : Writer (List Bytes) := ⟨fun log b => if log.length < k then (true, log ++ [b]) else (false, log)⟩

theorem runPlan_failAt (k : Nat) (plan log : List Bytes) (hl : log.length ≤ k) :
    runPlan (failAt k) plan log = (decide (log.length + plan.length ≤ k), log ++ plan.take (k - log.length)) := by
  induction plan generalizing log with
  | nil => simp [runPlan, hl]
  | cons b plan ih =>
    rw [runPlan]
    by_cases h : log.length < k
    · have e : (failAt k).writeAll log b = (true, log ++ [b]) := by simp [failAt, h]
      rw [e]
      simp only
      rw [ih (log ++ [b]) (by simp; omega)]
      obtain ⟨j, hj⟩ : ∃ j, k - log.length = j + 1 := ⟨k - log.length - 1, by omega⟩
      rw [hj, List.take_succ_cons, List.length_append, List.length_singleton, show k - (log.length + 1) = j by omega]
      simp only [List.length_cons, List.append_assoc, List.singleton_append, Prod.mk.injEq, and_true]
      congr 1
      apply propext; omega
    · have e : (failAt k).writeAll log b = (false, log) := by simp [failAt, h]
      rw [e]
      simp only [show k - log.length = 0 by omega, List.take_zero, List.append_nil, Prod.mk.injEq, and_true, List.length_cons]
      symm; simp; omega

/-- C57 for failure at call number `k`: the calls that succeeded are the first `k` of the successful run. -/
theorem C57_prefix (tag : UInt32) (lit : EncoderLit) (h : GoodField (tag, lit)) :
    ∃ plan : List Bytes, plan.flatten = fieldBytes tag.toNat lit ∧
      ∀ k, Encoder.encode (failAt k) tag lit [] =
        (if plan.length ≤ k then .ok (fieldBytes tag.toNat lit).length else .err .interrupted, plan.take k) := by
  obtain ⟨plan, h1, h2⟩ := C57_failing_writer tag lit h
  refine ⟨plan, h1, fun k => ?_⟩
  rw [h2, runPlan_failAt k plan [] (by simp)]
  by_cases hk : plan.length ≤ k <;> simp [hk]

example : Encoder.encode (failAt 2) 3 (.int32Vec [1, 300]) [] = (.err .interrupted, [[26], [3]]) := by decide
example : Encoder.encode (failAt 3) 3 (.int32Vec [1, 300]) [] = (.ok 5, [[26], [3], [1, 0xAC, 2]]) := by decide

/-! ### Reading back -/

/-- C47 and C48 for whole fields: every value of every format, also the empty vector, is written, the field is read in one call
with its tag and wire type, and the payload converts back into the value. -/
theorem C48_field_roundtrip (chk : Bool) (tag : UInt32) (lit : EncoderLit) (h : GoodField (tag, lit)) (dst : List Rec) :
    ∃ bs p, Encoder.encode vecWriter tag lit [] = (.ok bs.length, bs) ∧
      decode chk (DState.fresh bs dst) = (.ok bs.length, DState.fresh [] (dst ++ [(tag, wireType lit, p)])) ∧
      ConvertsBack chk p lit := by
  refine ⟨fieldBytes tag.toNat lit, payload lit, C56_append tag lit h [], ?_, payload_converts chk lit⟩
  obtain ⟨h1, h2, h3⟩ := h
  have hw := fieldBytes_wire chk ⟨h1, by omega⟩ lit (payload_fits _ h3)
  by_cases he : payload lit = []
  · have := decode_message_empty (chk := chk) (rs := []) (m := []) rfl (by simp) hw he [] dst
    simpa using this
  · exact decode_message (messageWire_single hw) (by simpa using he) dst

/-- C48 for the payload alone: what the packed field holds converts back. -/
theorem C48_packed_roundtrip (chk : Bool) (lit : EncoderLit) : ConvertsBack chk (payload lit) lit := payload_converts chk lit

example : decode true (DState.fresh [26, 3, 1, 0xAC, 2]) = (.ok 5, DState.fresh [] [(3, .lengthDelimited, [1, 0xAC, 2])]) ∧
    DecoderLit.toI32Vec true (.int32Vec [1, 0xAC, 2]) = .ok [1, 300] := by decide
example : decode true (DState.fresh [26, 0]) = (.ok 2, DState.fresh [] [(3, .lengthDelimited, [])]) ∧
    DecoderLit.toI32Vec true (.int32Vec []) = .ok [] := by decide

/-- C51. A message without empty length-delimited fields is read in one call; the fields come out in order with tag, wire
type and a payload that converts back. -/
theorem C51_message_roundtrip (chk : Bool) (fs : List (UInt32 × EncoderLit)) (h : ∀ f ∈ fs, GoodField f ∧ ¬ EmptyValue f.2)
    (dst : List Rec) :
    ∃ m, encodeAll vecWriter fs [] = (.ok m.length, m) ∧
      decode chk (DState.fresh m dst) = (.ok m.length, DState.fresh [] (dst ++ fs.map fun f => (f.1, wireType f.2, payload f.2))) ∧
      ∀ f ∈ fs, ConvertsBack chk (payload f.2) f.2 := by
  have hg := goodField fun f hf => (h f hf).1
  refine ⟨_, C56_append_all fs (fun f hf => (h f hf).1) [], ?_, fun f _ => payload_converts chk f.2⟩
  refine decode_message (fields_wire chk hg) ?_ dst
  intro r hr
  obtain ⟨f, hf, rfl⟩ := List.mem_map.mp hr
  exact fun he => (h f hf).2 ((payload_empty f.2).mp he)

example : encodeAll vecWriter [(1, .bool true), (2, .bytes [7, 8])] [] = (.ok 6, [8, 1, 18, 2, 7, 8]) ∧
    decode true (DState.fresh [8, 1, 18, 2, 7, 8]) = (.ok 6, DState.fresh [] [(1, .varint, [1]), (2, .lengthDelimited, [7, 8])]) := by
  decide

/-- C52. One call is not always enough: after an empty field one call stops, and the rest of the message is left in the buffer. -/
theorem C52_one_call_not_enough :
    ∃ fs, (∀ f ∈ fs, GoodField f) ∧ ∃ m, encodeAll vecWriter fs [] = (.ok m.length, m) ∧
      ∀ chk, ∃ n s', decode chk (DState.fresh m []) = (.ok n, s') ∧ n < m.length ∧ s'.buf ≠ [] ∧ s'.dst.length < fs.length := by
  refine ⟨[(1, .bytes []), (1, .bool true)], by simp [GoodField, Fits], [10, 0, 8, 1], by decide, ?_⟩
  intro chk
  refine ⟨2, DState.fresh [8, 1] [(1, .lengthDelimited, [])], ?_, by decide, by decide, by decide⟩
  cases chk <;> decide

/-- C52, when exactly the call stops early: at the first empty field, which is still delivered, whatever follows. -/
theorem C52_stops_at_empty_field (chk : Bool) (fs : List (UInt32 × EncoderLit)) (f : UInt32 × EncoderLit)
    (h : ∀ f ∈ fs, GoodField f ∧ ¬ EmptyValue f.2) (hf : GoodField f) (he : EmptyValue f.2) (x : Bytes) (dst : List Rec) :
    ∃ m, encodeAll vecWriter (fs ++ [f]) [] = (.ok m.length, m) ∧
      decode chk (DState.fresh (m ++ x) dst) =
        (.ok m.length, DState.fresh x (dst ++ (fs ++ [f]).map fun f => (f.1, wireType f.2, payload f.2))) := by
  have hg := goodField fun f hf => (h f hf).1
  have hgf := goodField (fs := [f]) (by simpa using hf) f (by simp)
  refine ⟨_, C56_append_all (fs ++ [f]) ?_ [], ?_⟩
  · intro g hg
    rcases List.mem_append.mp hg with hg | hg
    · exact (h g hg).1
    · obtain rfl : g = f := by simpa using hg
      exact hf
  · have := decode_message_empty (fields_wire chk hg) (by
      intro r hr
      obtain ⟨g, hg, rfl⟩ := List.mem_map.mp hr
      exact fun he => (h g hg).2 ((payload_empty g.2).mp he)) (fieldBytes_wire chk hgf.1 f.2 hgf.2) ((payload_empty f.2).mpr he)
      x dst
    simpa using this

/-- C52. Calling `decode` until it returns 0 reads every message. -/
theorem C52_until_zero (chk : Bool) (fs : List (UInt32 × EncoderLit)) (h : ∀ f ∈ fs, GoodField f) (dst : List Rec) :
    ∃ m, encodeAll vecWriter fs [] = (.ok m.length, m) ∧
      drain chk (DState.fresh m dst) = (.ok (), DState.fresh [] (dst ++ fs.map fun f => (f.1, wireType f.2, payload f.2))) ∧
      ∀ f ∈ fs, ConvertsBack chk (payload f.2) f.2 :=
  ⟨_, C56_append_all fs h [], drain_message (fields_wire chk (goodField h)) dst, fun f _ => payload_converts chk f.2⟩

example : drain true (DState.fresh [10, 0, 8, 1]) = (.ok (), DState.fresh [] [(1, .lengthDelimited, []), (1, .varint, [1])]) := by
  decide

/-- C52. Exactly when one call is enough: one call of `decode` reads the whole message if and only if no field before the last
has an empty value. -/
theorem C52_one_call_iff (chk : Bool) (fs : List (UInt32 × EncoderLit)) (h : ∀ f ∈ fs, GoodField f) (dst : List Rec) :
    ∃ m, encodeAll vecWriter fs [] = (.ok m.length, m) ∧
      (decode chk (DState.fresh m dst) = (.ok m.length, DState.fresh [] (dst ++ fs.map fun f => (f.1, wireType f.2, payload f.2))) ↔
        ∀ f ∈ fs.dropLast, ¬ EmptyValue f.2) := by
  refine ⟨_, C56_append_all fs h [], ?_⟩
  -- the first empty field, if there is one
  have split : ∀ fs : List (UInt32 × EncoderLit), (∀ f ∈ fs, ¬ EmptyValue f.2) ∨
      ∃ a f b, fs = a ++ f :: b ∧ EmptyValue f.2 ∧ ∀ f ∈ a, ¬ EmptyValue f.2 := by
    intro fs
    induction fs with
    | nil => left; simp
    | cons f fs ih =>
      by_cases he : EmptyValue f.2
      · exact Or.inr ⟨[], f, fs, rfl, he, by simp⟩
      · rcases ih with ih | ⟨a, g, b, rfl, hg, ha⟩
        · left
          intro g hg
          rcases List.mem_cons.mp hg with rfl | hg
          · exact he
          · exact ih g hg
        · refine Or.inr ⟨f :: a, g, b, rfl, hg, ?_⟩
          intro x hx
          rcases List.mem_cons.mp hx with rfl | hx
          · exact he
          · exact ha x hx
  have app : ∀ gs : List (UInt32 × EncoderLit), (∀ f ∈ gs, GoodField f) → ∀ m, encodeAll vecWriter gs [] = (.ok m.length, m) →
      m = gs.flatMap (fun f => fieldBytes f.1.toNat f.2) := by
    intro gs hg m hm
    have := C56_append_all gs hg []
    rw [hm] at this
    simpa using congrArg Prod.snd this
  rcases split fs with hne | ⟨a, f, b, rfl, he, ha⟩
  · refine ⟨fun _ f hf => hne f (List.dropLast_subset fs hf), fun _ => ?_⟩
    obtain ⟨m, h1, h2, _⟩ := C51_message_roundtrip chk fs (fun f hf => ⟨h f hf, hne f hf⟩) dst
    rw [← app fs h m h1]
    exact h2
  · obtain ⟨m, h1, h2⟩ := C52_stops_at_empty_field chk a f (fun g hg => ⟨h g (by simp [hg]), ha g hg⟩) (h f (by simp)) he
      (b.flatMap fun f => fieldBytes f.1.toNat f.2) dst
    have hm := app (a ++ [f]) (fun g hg => h g (by
      rcases List.mem_append.mp hg with hg | hg
      · simp [hg]
      · simp at hg; simp [hg])) m h1
    have hall : (a ++ f :: b).flatMap (fun f => fieldBytes f.1.toNat f.2) = m ++ b.flatMap fun f => fieldBytes f.1.toNat f.2 := by
      rw [hm]; simp
    rw [hall, h2]
    cases b with
    | nil =>
      simp
      exact fun x y hxy => ha (x, y) hxy
    | cons g b =>
      constructor
      · intro hh
        have := congrArg (fun x => x.2.buf) hh
        simp only [DState.fresh] at this
        exfalso
        have hpos : 0 < (fieldBytes g.1.toNat g.2).length := by
          unfold fieldBytes record
          rw [List.length_append, List.length_append]
          have : 1 ≤ (varint (8 * g.1.toNat + typNum (wireType g.2))).length := by
            rw [varint]; split <;> simp
          omega
        rw [List.flatMap_cons, List.append_eq_nil_iff] at this
        rw [this.1] at hpos
        simp at hpos
      · intro hh
        exact absurd he (hh f (by simp))

example : ∃ m, encodeAll vecWriter [(1, .bool true), (1, .bytes [])] [] = (.ok m.length, m) ∧ decode true (DState.fresh m []) =
    (.ok m.length, DState.fresh [] [(1, .varint, [1]), (1, .lengthDelimited, [])]) := ⟨[8, 1, 10, 0], by decide, by decide⟩

/-- C64. The decoder accepts exactly the wire format: calling `decode` until it returns 0 empties the buffer and delivers
`recs` if and only if the buffer holds the fields `recs` one after the other. -/
theorem C64_exactly_the_format (chk : Bool) (buf : Bytes) (recs : List Rec) (dst : List Rec) :
    drain chk (DState.fresh buf dst) = (.ok (), DState.fresh [] (dst ++ recs)) ↔ MessageWire chk recs buf := by
  constructor
  · intro h
    obtain ⟨used, m, recs', hb', h1, h2, h3, h4, h5, h6, h7⟩ := drain_spec (fresh_header chk buf dst)
    rw [h] at h1 h2 h5
    have e1 : buf = used := by simpa [DState.fresh] using h1
    have e2 : recs = recs' := List.append_cancel_left (as := dst) h2
    have e3 : hb' = [] := by
      rcases h5 with ⟨_, _, h⟩ | ⟨h, _⟩ | ⟨k, l, n, _, h, _⟩
      · exact h
      · exact absurd rfl h.2.2.1
      · exact absurd rfl h.2.2.1
    rw [e3, List.append_nil, List.nil_append] at h3
    rw [e1, e2, h3]
    exact h4
  · intro h
    exact drain_message h dst

/-- C64, consequence: a byte string is the encoding of at most one list of fields. -/
theorem C64_unambiguous (chk : Bool) (buf : Bytes) (r₁ r₂ : List Rec) (h₁ : MessageWire chk r₁ buf) (h₂ : MessageWire chk r₂ buf) :
    r₁ = r₂ := by
  have e := (drain_message h₁ []).symm.trans (drain_message h₂ [])
  simpa [DState.fresh] using e

example : MessageWire true [(1, .varint, [0x81, 0x00])] [0x88, 0x00, 0x81, 0x00] :=
  ⟨_, [], by simp, ⟨[0x88, 0x00], [0x81, 0x00], rfl, ⟨by decide, by decide, by decide, by simp [IsCont], by decide, by decide⟩,
    rfl, by simp [IsCont]⟩, rfl⟩

/-! ### Streaming -/

/-- C53. Feeding a stream in chunks, calling `decode` until 0 after each, is the same as feeding it at once: same verdict, same
fields, same decoder state; what is left in the buffer differs only by the chunks `post` that were not fed because of an
earlier failure. -/
theorem C53_chunks (chk : Bool) (s : DState) (hs : Reachable chk s) (cs : List Bytes) (hne : cs ≠ []) :
    ∃ pre post, cs = pre ++ post ∧ pump chk pre s = pump chk cs s ∧ ((pump chk cs s).1 = .ok () → post = []) ∧
      pump chk [cs.flatten] s = ((pump chk cs s).1, (pump chk cs s).2.app post.flatten) := by
  obtain ⟨hb, hm⟩ := reachable_header hs
  obtain ⟨pre, post, h1, h2, h3, h4⟩ := pump_run cs hm hne
  refine ⟨pre, post, h1, h2, h3, ?_⟩
  rw [pump_single]
  exact (drain_run (s := s.app cs.flatten) (hb := hb) hm).det h4

/-- C53 in the form of the property for two ways to cut a stream that both go through: identical outcomes. -/
theorem C53_any_two_chunkings (chk : Bool) (s : DState) (hs : Reachable chk s) (cs ds : List Bytes) (hc : cs ≠ []) (hd : ds ≠ [])
    (he : cs.flatten = ds.flatten) :
    (pump chk cs s).1 = (pump chk ds s).1 ∧ (pump chk cs s).2.dst = (pump chk ds s).2.dst ∧
      (pump chk cs s).2.key = (pump chk ds s).2.key ∧ (pump chk cs s).2.ldLen = (pump chk ds s).2.ldLen ∧
      ((pump chk cs s).1 = .ok () → pump chk cs s = pump chk ds s) := by
  obtain ⟨p1, q1, a1, a2, a3, a4⟩ := C53_chunks chk s hs cs hc
  obtain ⟨p2, q2, b1, b2, b3, b4⟩ := C53_chunks chk s hs ds hd
  rw [he, b4] at a4
  simp only [Prod.mk.injEq, DState.app, DState.mk.injEq] at a4
  refine ⟨a4.1.symm, a4.2.2.2.2.symm, a4.2.1.symm, a4.2.2.1.symm, ?_⟩
  intro hok
  have e1 := a3 hok
  have e2 := b3 (a4.1.trans hok)
  rw [e1, e2] at a4
  simp only [List.flatten_nil, List.append_nil] at a4
  rcases h1 : pump chk cs s with ⟨r1, ⟨k1, l1, b1, d1⟩⟩
  rcases h2 : pump chk ds s with ⟨r2, ⟨k2, l2, b2, d2⟩⟩
  rw [h1, h2] at a4
  simp only at a4
  obtain ⟨g1, g2, g3, g4, g5⟩ := a4
  subst g1 g2 g3 g4 g5
  rfl

/-- C53 for every schedule: however appending and single calls of `decode` are interleaved, calling `decode` until 0 at the end
gives the same as having all bytes from the start. -/
theorem C53_any_schedule (chk : Bool) (s : DState) (hs : Reachable chk s) (acts : List Action) :
    ∃ pre post, acts = pre ++ post ∧ schedule chk pre s = schedule chk acts s ∧
      drain chk (s.app (arrivals acts)) =
        match schedule chk acts s with
        | (.ok _, t) => drain chk t
        | (r, t) => (r, t.app (arrivals post)) := by
  obtain ⟨hb, hm⟩ := reachable_header hs
  obtain ⟨pre, post, h1, h2, h3⟩ := schedule_run acts hm
  refine ⟨pre, post, h1, h2, ?_⟩
  have hd : Run chk (s.app (arrivals acts)) (drain chk (s.app (arrivals acts))) := drain_run (hb := hb) hm
  rcases h3 with ⟨a1, a2, a3, hb', a4⟩ | ⟨a1, a2⟩
  · rcases hsch : schedule chk acts s with ⟨_ | _ | _ | _, t⟩ <;> rw [hsch] at a1 a3 a4
    · exact hd.det (a3.run (drain_run a4))
    all_goals cases a1
  · rcases hsch : schedule chk acts s with ⟨⟨⟨⟩⟩ | e | _ | _, t⟩ <;> rw [hsch] at a1 a2
    · exact absurd rfl a1
    · exact hd.det a2
    · exact hd.det a2
    · exact hd.det a2

example : pump true [[8], [1, 18, 2], [7], [8]] (DState.fresh []) =
    (.ok (), DState.fresh [] [(1, .varint, [1]), (2, .lengthDelimited, [7, 8])]) := by decide
example : schedule true [.append [8], .decode, .decode, .append [1, 18], .append [2], .decode] (DState.fresh []) =
    (.ok (), { key := (2, .lengthDelimited), ldLen := some 2, buf := [], dst := [(1, .varint, [1])] }) := by decide

/-! ### One call -/

/-- C54. Whatever a call of `decode` returns: it removed a prefix of the buffer and appended to the destination; the payloads
of the appended fields are in the removed bytes, in order; a number returned is the number of bytes removed. -/
theorem C54_nothing_lost (chk : Bool) (s : DState) (hs : Reachable chk s) :
    ∃ removed recs, s.buf = removed ++ (decode chk s).2.buf ∧ (decode chk s).2.dst = s.dst ++ recs ∧
      (recs.map fun r => r.2.2).flatten.Sublist removed ∧ ∀ n, (decode chk s).1 = .ok n → n = removed.length := by
  obtain ⟨hb, hm⟩ := reachable_header hs
  obtain ⟨used, m, recs, hb', h1, h2, h3, h4, h5, h6, h7⟩ := decode_spec hm
  refine ⟨used, recs, h1, h2, h6, ?_⟩
  intro n hn
  rw [hn] at h7
  cases h7 <;> rfl

/-- C54, stronger: the bytes of the field begun before, followed by the removed ones, are exactly the delivered fields followed
by the header of the field begun now. -/
theorem C54_accounting (chk : Bool) (s : DState) (hb : Bytes) (hs : HeaderWire chk s.key s.ldLen hb) :
    ∃ removed m recs hb', s.buf = removed ++ (decode chk s).2.buf ∧ (decode chk s).2.dst = s.dst ++ recs ∧
      hb ++ removed = m ++ hb' ∧ MessageWire chk recs m ∧ HeaderWire chk (decode chk s).2.key (decode chk s).2.ldLen hb' := by
  obtain ⟨used, m, recs, hb', h1, h2, h3, h4, h5, h6, h7⟩ := decode_spec hs
  exact ⟨used, m, recs, hb', h1, h2, h3, h4, h5⟩

/-- C54_accounting applies to every state: each reachable one remembers the header of an unfinished field. -/
theorem C54_states (chk : Bool) (s : DState) (hs : Reachable chk s) : ∃ hb, HeaderWire chk s.key s.ldLen hb := reachable_header hs

example : Reachable true { key := (2, .lengthDelimited), ldLen := some 3, buf := [7], dst := [(1, .varint, [1])] } := by
  have : (decode true (DState.fresh [8, 1, 18, 3, 7])).2 =
      { key := (2, .lengthDelimited), ldLen := some 3, buf := [7], dst := [(1, .varint, [1])] } := by decide
  rw [← this]
  exact .decode (.fresh _ _)

/-- C55. After an error the decoder is as new, the buffer starts with the bad key, the fields before it were delivered, and
calling again, also with more bytes, fails again and changes nothing. -/
theorem C55_failed_decode (chk : Bool) (s s' : DState) (hb : Bytes) (hs : HeaderWire chk s.key s.ldLen hb) (e : DecoderError)
    (h : decode chk s = (.err e, s')) :
    e = .invalidInput ∧ s'.key = (0, .unknown) ∧ s'.ldLen = none ∧
      (∃ key rest v, s'.buf = key ++ rest ∧ VarintWire chk key v ∧ BadKey v) ∧
      (∃ removed recs, s.buf = removed ++ s'.buf ∧ s'.dst = s.dst ++ recs ∧ MessageWire chk recs (hb ++ removed)) ∧
      ∀ x, decode chk (s'.app x) = (.err e, s'.app x) := by
  obtain ⟨used, m, recs, hb', h1, h2, h3, h4, h5, h6, h7⟩ := decode_spec hs
  rw [h] at h1 h2 h5 h7
  simp only at h1 h2 h5 h7
  cases h7 with
  | bad cs r v a1 a2 a3 a4 a5 a6 a7 =>
    subst a4
    rw [List.append_nil] at h3
    refine ⟨rfl, a2, a3, ⟨cs, r, v, a5, a6, a7⟩, ⟨used, recs, h1, h2, h3 ▸ h4⟩, ?_⟩
    intro x
    have hx := step_app chk s' x (by rw [a1]; simp)
    rw [a1] at hx
    exact M.bind_of_err hx

/-- C55: the sentence of the documentation that an error leaves the buffer alone is false. -/
theorem C55_consumes_on_error :
    ∃ s s', Reachable true s ∧ decode true s = (.err .invalidInput, s') ∧ s'.buf ≠ s.buf ∧ s'.dst ≠ s.dst :=
  ⟨DState.fresh [8, 1, 7], DState.fresh [7] [(1, .varint, [1])], .fresh _ _, by decide, by decide, by decide⟩

/-- C58. A call of `decode` always ends, in one of three ways: a number, `InvalidInput`, or a panic; the panic needs overflow
checks and a key or length of more than ten bytes. -/
theorem C58_total (chk : Bool) (s : DState) (hs : Reachable chk s) :
    (∃ n, (decode chk s).1 = .ok n) ∨ (decode chk s).1 = .err .invalidInput ∨
    ((decode chk s).1 = .panic ∧ chk = true ∧ 10 < (decode chk s).2.buf.length ∧
      (∀ c ∈ (decode chk s).2.buf.take 10, 128 ≤ c.toNat) ∧
      ((decode chk s).2.key.2 = .unknown ∨ ((decode chk s).2.key.2 = .lengthDelimited ∧ (decode chk s).2.ldLen = none))) := by
  obtain ⟨hb, hm⟩ := reachable_header hs
  obtain ⟨used, m, recs, hb', h1, h2, h3, h4, h5, h6, h7⟩ := decode_spec hm
  generalize (decode chk s).2 = t at *
  generalize (decode chk s).1 = r at *
  cases h7 with
  | all => exact Or.inl ⟨_, rfl⟩
  | empty => exact Or.inl ⟨_, rfl⟩
  | bad => exact Or.inr (Or.inl rfl)
  | panic a1 a2 a3 a4 a5 => exact Or.inr (Or.inr ⟨rfl, a2, a3, a4, a5⟩)

/-- C58: without overflow checks `decode` never panics. -/
theorem C58_release (s : DState) (hs : Reachable false s) : (∃ n, (decode false s).1 = .ok n) ∨ (decode false s).1 = .err .invalidInput := by
  rcases C58_total false s hs with h | h | ⟨_, h, _⟩
  · exact Or.inl h
  · exact Or.inr h
  · cases h

/-- C58: the client loop that calls `decode` until 0 always ends, too. -/
theorem C58_drain_ends (chk : Bool) (s : DState) (hs : Reachable chk s) : (drain chk s).1 ≠ .hang := by
  obtain ⟨hb, hm⟩ := reachable_header hs
  exact (drain_run hm).not_hang

/-- C58: the panic does happen. -/
example : (decode true (DState.fresh [128, 128, 128, 128, 128, 128, 128, 128, 128, 128, 1])).1 = .panic := by decide

/-- C65. A call returns 0 only if nothing can be done before more bytes arrive; it changes nothing then. -/
theorem C65_zero_means_wait (chk : Bool) (s s' : DState) (hs : Reachable chk s) (h : decode chk s = (.ok 0, s')) :
    s' = s ∧ Incomplete s.key s.ldLen s.buf := by
  obtain ⟨hb, hm⟩ := reachable_header hs
  obtain ⟨h1, _, h3⟩ := decode_zero hm h
  exact ⟨h1, h3⟩

example : decode true { key := (2, .lengthDelimited), ldLen := some 3, buf := [7], dst := [] } =
    (.ok 0, { key := (2, .lengthDelimited), ldLen := some 3, buf := [7], dst := [] }) := by decide

/-! Concrete cases for C59 and C55. -/
example : ∃ key rest, Encoder.encode vecWriter 3 (.int32Vec [1, 300]) [] = (.ok (key ++ rest).length, key ++ rest) ∧ key = varint 26 := by
  obtain ⟨key, rest, h1, h2, _⟩ := C59_wire_type true 3 (.int32Vec [1, 300]) (by simp [GoodField, Fits])
  exact ⟨key, rest, h1, h2⟩
/-- The second field has the wire type 7: the first one is delivered and consumed. -/
example : ∃ removed recs, ([8, 1, 7, 9] : Bytes) = removed ++ [7, 9] ∧ [((1 : UInt32), Typ.varint, ([1] : Bytes))] = [] ++ recs ∧
    MessageWire true recs ([] ++ removed) := by
  have h := C55_failed_decode true (DState.fresh [8, 1, 7, 9]) (DState.fresh [7, 9] [(1, .varint, [1])]) [] (.inl ⟨rfl, rfl, rfl⟩) .invalidInput (by decide)
  exact h.2.2.2.2.1

end Verif.Props
