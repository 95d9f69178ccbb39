import Verif.Props.Protos
/-! Property theorem C97: messages over a byte stream, cut-off streams and crashes of the writer. -/
namespace Verif.Props
open Verif Verif.Protos Verif.Spec.Proto

/-- Feeding the bytes of a message in chunks. -/
theorem pump_message {chk : Bool} {rs : List Rec} {m : Bytes} (h : MessageWire chk rs m) (dst : List Rec) (cs : List Bytes)
    (hc : cs.flatten = m) (hne : cs ≠ []) : pump chk cs (DState.fresh [] dst) = (.ok (), DState.fresh [] (dst ++ rs)) := by
  obtain ⟨pre, post, h1, _, h3, h4⟩ := C53_chunks chk (DState.fresh [] dst) (.fresh _ _) cs hne
  have h5 : pump chk [cs.flatten] (DState.fresh [] dst) = (.ok (), DState.fresh [] (dst ++ rs)) := by
    rw [pump_single, hc, ← drain_message h dst]
    rfl
  rw [h5] at h4
  have hok : (pump chk cs (DState.fresh [] dst)).1 = .ok () := (congrArg Prod.fst h4).symm
  have hp := h3 hok
  rw [hp] at h4
  rw [h4]
  exact Prod.ext rfl (by simp [DState.app])

/-- The same for two chunks, with the state in between. -/
theorem pump_two {chk : Bool} {rs : List Rec} {q x : Bytes} (h : MessageWire chk rs (q ++ x)) (dst : List Rec) :
    ∃ t, drain chk (DState.fresh q dst) = (.ok (), t) ∧ drain chk (t.app x) = (.ok (), DState.fresh [] (dst ++ rs)) := by
  have h1 := pump_message h dst [q, x] (by simp) (by simp)
  have hdef : pump chk [q, x] (DState.fresh [] dst) = (drain chk >>= fun _ => pump chk [x]) (DState.fresh q dst) := rfl
  rw [hdef] at h1
  rcases hd : drain chk (DState.fresh q dst) with ⟨⟨⟨⟩⟩ | e | _ | _, t⟩
  · rw [M.bind_of_ok hd, pump_single] at h1
    exact ⟨t, rfl, h1⟩
  · rw [M.bind_of_err hd] at h1; cases congrArg Prod.fst h1
  · rw [M.bind_apply, hd] at h1; cases congrArg Prod.fst h1
  · rw [M.bind_apply, hd] at h1; cases congrArg Prod.fst h1

theorem header_fresh {chk : Bool} {bs : Bytes} (h : HeaderWire chk (0, .unknown) none bs) : bs = [] := by
  rcases h with ⟨_, _, h⟩ | ⟨⟨_, _, h, _⟩, _⟩ | ⟨k, l, n, _, ⟨_, _, h, _⟩, _⟩
  · exact h
  · exact absurd rfl h
  · exact absurd rfl h

/-- No wire form of a list of fields is a proper prefix of another one. -/
theorem wire_prefix_free {chk : Bool} {rs : List Rec} {a y : Bytes} (h : MessageWire chk rs a) (h' : MessageWire chk rs (a ++ y)) :
    y = [] := by
  obtain ⟨t, h1, h2⟩ := pump_two h' []
  rw [drain_message h []] at h1
  simp only [Prod.mk.injEq, true_and] at h1
  subst h1
  have h0 : HeaderWire chk (DState.app (DState.fresh [] ([] ++ rs)) y).key (DState.app (DState.fresh [] ([] ++ rs)) y).ldLen [] :=
    .inl ⟨rfl, rfl, rfl⟩
  obtain ⟨used, m, recs, hb', g1, g2, g3, g4, g5, _⟩ := drain_spec h0
  rw [h2] at g1 g2 g5
  have hr : recs = [] := by
    have hl := congrArg List.length g2
    simp only [DState.app, DState.fresh, List.length_append] at hl
    exact List.eq_nil_of_length_eq_zero (by omega)
  subst hr
  have hm : m = [] := g4
  have hb := header_fresh g5
  rw [hm, hb] at g3
  simp only [List.nil_append, List.append_nil] at g3
  rw [g3] at g1
  simpa [DState.app, DState.fresh] using g1

/-- The bytes of a list of fields. -/
abbrev bytesOf (fs : List (UInt32 × EncoderLit)) : Bytes := fs.flatMap fun f => fieldBytes f.1.toNat f.2

/-- C97. Messages over a byte stream: the bytes written for any list of fields are cut into chunks in any way and the decoder is
called until it returns 0 after each chunk. Then all calls succeed and exactly the fields written arrive, in order, with nothing
left, and each payload converts back to its value. -/
theorem C97_stream (chk : Bool) (fs : List (UInt32 × EncoderLit)) (h : ∀ f ∈ fs, GoodField f) (dst : List Rec) :
    ∃ m, encodeAll vecWriter fs [] = (.ok m.length, m) ∧ (∀ f ∈ fs, ConvertsBack chk (payload f.2) f.2) ∧
      ∀ cs, cs.flatten = m → cs ≠ [] →
        pump chk cs (DState.fresh [] dst) = (.ok (), DState.fresh [] (dst ++ fs.map fun f => (f.1, wireType f.2, payload f.2))) :=
  ⟨_, C56_append_all fs h [], fun f _ => payload_converts chk f.2,
    fun cs hc hne => pump_message (fields_wire chk (goodField h)) dst cs hc hne⟩

/-- C97. A stream cut off anywhere: exactly the fields whose bytes have all arrived are delivered, without an error; of the next one
(if any) at least a byte is missing. -/
theorem C97_cut_off (chk : Bool) (fs : List (UInt32 × EncoderLit)) (h : ∀ f ∈ fs, GoodField f) (dst : List Rec) (q x : Bytes)
    (hq : encodeAll vecWriter fs [] = (.ok (q ++ x).length, q ++ x)) :
    ∃ fs1 fs2 r t, fs = fs1 ++ fs2 ∧ (encodeAll vecWriter fs1 []).2 ++ r = q ∧
      (match fs2 with
        | [] => r = [] ∧ x = []
        | f :: _ => ∃ r', r' ≠ [] ∧ (Encoder.encode vecWriter f.1 f.2 []).2 = r ++ r') ∧
      drain chk (DState.fresh q dst) = (.ok (), t) ∧ t.dst = dst ++ fs1.map fun f => (f.1, wireType f.2, payload f.2) := by
  rw [C56_append_all fs h []] at hq
  have hm : bytesOf fs = q ++ x := by simpa using (congrArg Prod.snd hq)
  have hw := fields_wire chk (goodField h)
  rw [show (fs.flatMap fun f => fieldBytes f.1.toNat f.2) = q ++ x from hm] at hw
  obtain ⟨t, h1, h2⟩ := pump_two hw dst
  obtain ⟨used1, m1, recs1, hb1, a1, a2, a3, a4, a5, _⟩ := drain_spec (chk := chk) (s := DState.fresh q dst) (hb := [])
    (.inl ⟨rfl, rfl, rfl⟩)
  rw [h1] at a1 a2 a5
  obtain ⟨used2, m2, recs2, hb2, b1, b2, b3, b4, b5, _⟩ := drain_spec (chk := chk) (s := t.app x) (hb := hb1) a5
  rw [h2] at b1 b2 b5
  have hb2' := header_fresh b5
  subst hb2'
  simp only [DState.fresh, DState.app, List.append_nil, List.nil_append] at a1 a2 a3 b1 b2 b3
  rw [a2, List.append_assoc, List.append_cancel_left_eq] at b2
  -- `b2 : fs.map reported = recs1 ++ recs2`
  obtain ⟨fs1, fs2, rfl, hr1, hr2⟩ := List.map_eq_append_iff.mp b2
  have hg1 : ∀ f ∈ fs1, GoodField f := fun f hf => h f (by simp [hf])
  have hg2 : ∀ f ∈ fs2, GoodField f := fun f hf => h f (by simp [hf])
  have hw1 := fields_wire chk (goodField hg1)
  have hq' : q ++ x = m1 ++ m2 := by
    rw [a1, a3, ← b3, ← b1]; simp
  have hfl : bytesOf fs1 ++ bytesOf fs2 = m1 ++ m2 := by rw [← hq', ← hm]; simp
  have hm1 : bytesOf fs1 = m1 := by
    rw [← hr1] at a4
    rcases List.append_eq_append_iff.mp hfl with ⟨y, e1, _⟩ | ⟨y, e1, _⟩
    · rw [e1] at a4
      rw [e1, wire_prefix_free hw1 a4, List.append_nil]
    · rw [show (fs1.flatMap fun f => fieldBytes f.1.toNat f.2) = m1 ++ y from e1] at hw1
      rw [e1, wire_prefix_free a4 hw1, List.append_nil]
  have hqe : q = bytesOf fs1 ++ (hb1 ++ t.buf) := by rw [a1, a3, hm1, List.append_assoc]
  have hrest : bytesOf fs2 = hb1 ++ t.buf ++ x := by
    have := hm
    rw [hqe] at this
    simpa [bytesOf, List.flatMap_append] using this
  refine ⟨fs1, fs2, hb1 ++ t.buf, t, rfl, ?_, ?_, h1, by rw [a2, ← hr1]⟩
  · rw [C56_append_all fs1 hg1 []]; simpa using hqe.symm
  · cases fs2 with
    | nil =>
      simp only [bytesOf, List.flatMap_nil] at hrest
      have := List.append_eq_nil_iff.mp hrest.symm
      exact this
    | cons f fs' =>
      simp only
      rw [C56_append f.1 f.2 (hg2 f (by simp)) [], List.nil_append]
      have hsplit : fieldBytes f.1.toNat f.2 ++ bytesOf fs' = (hb1 ++ t.buf) ++ x := by rw [← hrest]; rfl
      rcases List.append_eq_append_iff.mp hsplit with ⟨y, e1, _⟩ | ⟨y, e1, _⟩
      · -- the whole field has arrived: then it was delivered
        exfalso
        have hg3 : ∀ g ∈ fs1 ++ [f], GoodField g := by
          intro g hg
          rcases List.mem_append.mp hg with hg | hg
          · exact hg1 g hg
          · obtain rfl : g = f := by simpa using hg
            exact hg2 g (by simp)
        have hw3 := fields_wire chk (goodField hg3)
        obtain ⟨pre, post, c1, c2, c3, c4⟩ := C53_chunks chk (DState.fresh [] dst) (.fresh _ _) [bytesOf (fs1 ++ [f]), y] (by simp)
        have hcat : [bytesOf (fs1 ++ [f]), y].flatten = q := by
          rw [hqe, e1]; simp [bytesOf]
        have c5 : pump chk [[bytesOf (fs1 ++ [f]), y].flatten] (DState.fresh [] dst) = (.ok (), t) := by
          rw [pump_single, hcat]
          exact h1
        rw [c5] at c4
        have hpost := c3 (congrArg Prod.fst c4).symm
        rw [hpost] at c4
        have hdef : pump chk [bytesOf (fs1 ++ [f]), y] (DState.fresh [] dst) =
            (drain chk >>= fun _ => pump chk [y]) (DState.fresh (bytesOf (fs1 ++ [f])) dst) := rfl
        rw [hdef, M.bind_of_ok (drain_message hw3 dst), pump_single] at c4
        obtain ⟨_, _, recs3, _, _, d2, _⟩ := drain_spec (chk := chk)
          (s := DState.app (DState.fresh [] (dst ++ (fs1 ++ [f]).map reported)) y) (hb := []) (.inl ⟨rfl, rfl, rfl⟩)
        have e := congrArg (fun p => p.2.dst.length) c4
        simp only [DState.app] at e
        have e' := congrArg List.length d2
        simp only [DState.app, DState.fresh] at e e' 
        rw [e', a2, ← hr1] at e
        simp only [List.length_append, List.length_map, List.length_singleton] at e
        omega
      · by_cases hy : y = []
        · exfalso
          subst hy
          rw [List.append_nil] at e1
          -- complete as well: the same argument with nothing after it
          have hg3 : ∀ g ∈ fs1 ++ [f], GoodField g := by
            intro g hg
            rcases List.mem_append.mp hg with hg | hg
            · exact hg1 g hg
            · obtain rfl : g = f := by simpa using hg
              exact hg2 g (by simp)
          have hw3 := fields_wire chk (goodField hg3)
          have hcat : ((fs1 ++ [f]).flatMap fun f => fieldBytes f.1.toNat f.2) = q := by
            rw [hqe, ← e1]; simp [bytesOf]
          rw [hcat] at hw3
          have := drain_message hw3 dst
          rw [h1] at this
          have e := congrArg (fun p => p.2.dst.length) this
          simp only [DState.fresh] at e
          rw [a2, ← hr1] at e
          simp only [List.length_append, List.length_map, List.length_singleton] at e
          omega
        · exact ⟨y, hy, e1⟩

example : ∃ t, drain true (DState.fresh [8, 1, 18, 2, 7]) = (.ok (), t) ∧ t.dst = [(1, .varint, [1])] :=
  ⟨(drain true (DState.fresh [8, 1, 18, 2, 7])).2, by decide, by decide⟩

/-- C97. A crash of the writer at any call: what reached the writer is decoded without an error to a beginning of the fields; if the
writer did not fail, to all of them. -/
theorem C97_crash (chk : Bool) (fs : List (UInt32 × EncoderLit)) (h : ∀ f ∈ fs, GoodField f) (dst : List Rec) (k : Nat) :
    ∃ fs1 fs2 t, fs = fs1 ++ fs2 ∧
      drain chk (DState.fresh (encodeAll (failAt k) fs []).2.flatten dst) = (.ok (), t) ∧
      t.dst = dst ++ (fs1.map fun f => (f.1, wireType f.2, payload f.2)) ∧
      (∀ n, (encodeAll (failAt k) fs []).1 = .ok n → fs2 = []) := by
  obtain ⟨plan, e, r⟩ := encodeAll_runs (goodField h)
  have hr := r (List Bytes) (failAt k) []
  simp only at hr
  rw [runPlan_failAt k plan [] (by simp)] at hr
  simp only [List.length_nil, Nat.zero_add, Nat.sub_zero, List.nil_append] at hr
  have hcat : (plan.take k).flatten ++ (plan.drop k).flatten = bytesOf fs := by
    rw [← List.flatten_append, List.take_append_drop, e]
  have hq : encodeAll vecWriter fs [] = (.ok ((plan.take k).flatten ++ (plan.drop k).flatten).length,
      (plan.take k).flatten ++ (plan.drop k).flatten) := by
    rw [C56_append_all fs h [], hcat]; simp
  obtain ⟨fs1, fs2, s, t, h1, h2, h3, h4, h5⟩ := C97_cut_off chk fs h dst _ _ hq
  by_cases hk : plan.length ≤ k
  · have hlog : (encodeAll (failAt k) fs []).2 = plan.take k := by rw [hr]; simp [hk]
    have hw := fields_wire chk (goodField h)
    refine ⟨fs, [], DState.fresh [] (dst ++ fs.map reported), by simp, ?_, rfl, fun _ _ => rfl⟩
    rw [hlog, List.take_of_length_le hk, e]
    exact drain_message hw dst
  · refine ⟨fs1, fs2, t, h1, ?_, h5, ?_⟩
    · have hlog : (encodeAll (failAt k) fs []).2 = plan.take k := by rw [hr]; simp [hk]
      rw [hlog]
      exact h4
    · intro n hn
      rw [hr] at hn
      simp [hk] at hn

/-- The writer fails at its fourth call, inside the second field; the first field is recovered. -/
example : encodeAll (failAt 3) [(1, .bool true), (2, .bytes [7, 8])] [] = (.err .interrupted, [[8], [1], [18]]) ∧
    (drain true (DState.fresh [[8], [1], [18]].flatten)).2.dst = [(1, .varint, [1])] := by decide

/-- `impl Write for &mut [u8]` of the standard library, with room for `n` bytes: writes as much as fits; the call fails if not
everything did. The state is what was written so far. -/
def sliceWriter (n : Nat) : Writer Bytes := ⟨fun s b => (decide (s.length + b.length ≤ n), (s ++ b).take n)⟩

theorem runPlan_slice (n : Nat) (plan : List Bytes) (s : Bytes) (hs : s.length ≤ n) :
    runPlan (sliceWriter n) plan s = (decide (s.length + plan.flatten.length ≤ n), (s ++ plan.flatten).take n) := by
  induction plan generalizing s with
  | nil => simp [runPlan, hs, List.take_of_length_le hs]
  | cons b plan ih =>
    rw [runPlan]
    by_cases h : s.length + b.length ≤ n
    · have e : (sliceWriter n).writeAll s b = (true, s ++ b) := by
        simp only [sliceWriter, h, decide_true]
        rw [List.take_of_length_le (by simpa using h)]
      rw [e]
      simp only
      rw [ih (s ++ b) (by simpa using h)]
      simp [Nat.add_assoc]
    · have e : (sliceWriter n).writeAll s b = (false, (s ++ b).take n) := by simp [sliceWriter, h]
      rw [e]
      simp only [List.flatten_cons, List.length_append, Prod.mk.injEq]
      refine ⟨by simp; omega, ?_⟩
      rw [← List.append_assoc, List.take_append_of_le_length (l₁ := s ++ b) (by simp; omega)]

/-- C97. Writing into a buffer of fixed size: the call succeeds if and only if all bytes fit; in any case the buffer has the first
`n` bytes of the message, and exactly the fields that fit as a whole can be read from it. -/
theorem C97_fixed_buffer (chk : Bool) (fs : List (UInt32 × EncoderLit)) (h : ∀ f ∈ fs, GoodField f) (dst : List Rec) (n : Nat) :
    ∃ m fs1 fs2 t, encodeAll vecWriter fs [] = (.ok m.length, m) ∧
      encodeAll (sliceWriter n) fs [] = (if m.length ≤ n then .ok m.length else .err .interrupted, m.take n) ∧
      fs = fs1 ++ fs2 ∧ (encodeAll vecWriter fs1 []).2.length ≤ n ∧
      (∀ f fs', fs2 = f :: fs' → n < (encodeAll vecWriter (fs1 ++ [f]) []).2.length) ∧
      drain chk (DState.fresh (m.take n) dst) = (.ok (), t) ∧
      t.dst = dst ++ fs1.map fun f => (f.1, wireType f.2, payload f.2) := by
  obtain ⟨plan, e, r⟩ := encodeAll_runs (goodField h)
  have hr := r Bytes (sliceWriter n) []
  simp only at hr
  rw [runPlan_slice n plan [] (by simp), e] at hr
  have hq : encodeAll vecWriter fs [] = (.ok ((bytesOf fs).take n ++ (bytesOf fs).drop n).length,
      (bytesOf fs).take n ++ (bytesOf fs).drop n) := by
    rw [C56_append_all fs h [], List.take_append_drop]; rfl
  obtain ⟨fs1, fs2, s, t, h1, h2, h3, h4, h5⟩ := C97_cut_off chk fs h dst _ _ hq
  have hlen := congrArg List.length h2
  simp only [List.length_append, List.length_take] at hlen
  refine ⟨bytesOf fs, fs1, fs2, t, C56_append_all fs h [], ?_, h1, by omega, ?_, h4, h5⟩
  · rw [hr]
    by_cases hn : (bytesOf fs).length ≤ n
    · simp [bytesOf] at hn ⊢; simp [hn]
    · simp [bytesOf] at hn ⊢; simp [Nat.not_le.mpr hn]
  · intro f fs' hf
    subst hf
    have hg1 : ∀ g ∈ fs1, GoodField g := fun g hg => h g (by rw [h1]; simp [hg])
    have hgf : GoodField f := h f (by rw [h1]; simp)
    have hg3 : ∀ g ∈ fs1 ++ [f], GoodField g := by
      intro g hg
      rcases List.mem_append.mp hg with hg | hg
      · exact hg1 g hg
      · obtain rfl : g = f := by simpa using hg
        exact hgf
    obtain ⟨r', hr', he⟩ := h3
    rw [C56_append f.1 f.2 hgf [], List.nil_append] at he
    rw [C56_append_all (fs1 ++ [f]) hg3 []]
    rw [C56_append_all fs1 hg1 []] at hlen
    have hle := congrArg List.length he
    have hpos : 0 < r'.length := List.length_pos_iff.mpr hr'
    have htot : (bytesOf fs).length = (bytesOf fs1).length + (fieldBytes f.1.toNat f.2).length + (bytesOf fs').length := by
      rw [h1]; simp [bytesOf, Nat.add_assoc]
    simp only [List.nil_append, List.length_append, List.flatMap_append, List.flatMap_cons, List.flatMap_nil, List.append_nil] at hlen hle ⊢
    have hb1 : (bytesOf fs1).length = (fs1.flatMap fun f => fieldBytes f.1.toNat f.2).length := rfl
    omega

example : encodeAll (sliceWriter 5) [(1, .bool true), (2, .bytes [7, 8])] [] = (.err .interrupted, [8, 1, 18, 2, 7]) := by decide

end Verif.Props
