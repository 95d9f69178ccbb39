import Verif.Props.ProtosUnfinished
import Verif.Props.ProtosStream
/-! Property theorem C144: a receiver of protobuf fields that limits how many bytes it keeps between the chunks. -/
namespace Verif.Props
open Verif Verif.Spec Verif.Spec.Proto Verif.Protos

/-- User code around /repo/protos/src/decoder/mod.rs:71-108:
`for c in chunks { buf.extend(c); while decoder.decode(&mut buf, &mut dst)? > 0 {} if buf.len() > limit { return Ok(false) } } Ok(true)`. -/
def feedLimited (chk : Bool) (limit : Nat) : List Bytes → M DState DecoderError Bool
  | [] => fun s => (.ok true, s)
  | c :: cs => fun s =>
    match drain chk (s.app c) with
    | (.ok _, s') => if s'.buf.length > limit then (.ok false, s') else feedLimited chk limit cs s'
    | (.err e, s') => (.err e, s')
    | (.panic, s') => (.panic, s')
    | (.hang, s') => (.hang, s')

/-- `Ok(true)` for success, the same failure otherwise. -/
def asBool : Res DecoderError Unit → Res DecoderError Bool
  | .ok _ => .ok true
  | .err e => .err e
  | .panic => .panic
  | .hang => .hang

theorem pump_cons (chk : Bool) (c : Bytes) (cs : List Bytes) (s : DState) :
    pump chk (c :: cs) s = match drain chk (s.app c) with
      | (.ok _, s') => pump chk cs s'
      | (.err e, s') => (.err e, s')
      | (.panic, s') => (.panic, s')
      | (.hang, s') => (.hang, s') := by
  show (drain chk >>= fun _ => pump chk cs) (s.app c) = _
  rw [M.bind_apply]
  rcases drain chk (s.app c) with ⟨_ | _ | _ | _, t⟩ <;> rfl

/-- C144. The limit changes nothing else: for any state and any chunks, either the loop does what the same loop without the limit does, and
after every chunk that was decoded successfully at most `limit` bytes were left; or it refuses, and then at the first chunk after which
more than `limit` bytes were left. -/
theorem C144_same_or_refused (chk : Bool) (limit : Nat) (cs : List Bytes) (s : DState) :
    (feedLimited chk limit cs s = (asBool (pump chk cs s).1, (pump chk cs s).2) ∧
      ∀ pre post, cs = pre ++ post → pre ≠ [] → ∀ s1, pump chk pre s = (.ok (), s1) → s1.buf.length ≤ limit) ∨
    ∃ pre c post s1, cs = pre ++ c :: post ∧ feedLimited chk limit cs s = (.ok false, s1) ∧ pump chk (pre ++ [c]) s = (.ok (), s1) ∧
      limit < s1.buf.length ∧ ∀ p q, pre = p ++ q → p ≠ [] → ∀ s2, pump chk p s = (.ok (), s2) → s2.buf.length ≤ limit := by
  induction cs generalizing s with
  | nil =>
    refine Or.inl ⟨rfl, fun pre post h hne => absurd ?_ hne⟩
    exact (List.append_eq_nil_iff.mp h.symm).1
  | cons c cs ih =>
    have failing : ∀ (pre : List Bytes), pre ≠ [] → (∃ post, c :: cs = pre ++ post) → ∃ pre', pre = c :: pre' := by
      intro pre hne ⟨post, h⟩
      rcases pre with _ | ⟨a, pre'⟩
      · exact absurd rfl hne
      · rw [List.cons_append, List.cons.injEq] at h
        exact ⟨pre', by rw [h.1]⟩
    have key : ∀ p, pump chk (c :: p) s = _ := fun p => pump_cons chk c p s
    rcases hd : drain chk (s.app c) with ⟨⟨⟨⟩⟩ | e | _ | _, t⟩
    · simp only [hd] at key
      by_cases hlim : limit < t.buf.length
      · refine Or.inr ⟨[], c, cs, t, rfl, by simp only [feedLimited, hd]; rw [if_pos hlim], by rw [List.nil_append, key]; rfl, hlim, ?_⟩
        intro p q h hne
        exact absurd (List.append_eq_nil_iff.mp h.symm).1 hne
      · have e0 : feedLimited chk limit (c :: cs) s = feedLimited chk limit cs t := by simp only [feedLimited, hd]; rw [if_neg hlim]
        have small : ∀ pre', (∀ s1, pre' ≠ [] → pump chk pre' t = (.ok (), s1) → s1.buf.length ≤ limit) →
            ∀ s1, pump chk (c :: pre') s = (.ok (), s1) → s1.buf.length ≤ limit := by
          intro pre' h s1 h1
          rw [key] at h1
          rcases pre' with _ | ⟨a, pre'⟩
          · have : t = s1 := congrArg Prod.snd h1
            rw [← this]; omega
          · exact h s1 (by simp) h1
        rcases ih t with ⟨h1, h2⟩ | ⟨pre, c', post, s1, h1, h2, h3, h4, h5⟩
        · refine Or.inl ⟨by rw [e0, key, h1], ?_⟩
          intro pre post h hne s1
          obtain ⟨pre', rfl⟩ := failing pre hne ⟨post, h⟩
          rw [List.cons_append, List.cons.injEq] at h
          exact small pre' (fun s2 hne2 h3 => h2 pre' post h.2 hne2 s2 h3) s1
        · refine Or.inr ⟨c :: pre, c', post, s1, by rw [h1]; rfl, by rw [e0, h2], by rw [List.cons_append, key]; exact h3, h4, ?_⟩
          intro p q h hne s2
          rcases p with _ | ⟨a, p'⟩
          · exact absurd rfl hne
          · rw [List.cons_append, List.cons.injEq] at h
            obtain ⟨rfl, h⟩ := h
            exact small p' (fun s3 hne2 h6 => h5 p' q h hne2 s3 h6) s2
    all_goals
      simp only [hd] at key
      refine Or.inl ⟨by rw [key]; simp only [feedLimited, hd]; rfl, ?_⟩
      intro pre post h hne s1 h1
      obtain ⟨pre', rfl⟩ := failing pre hne ⟨post, h⟩
      rw [key] at h1
      cases congrArg Prod.fst h1

/-- C144: what the limit is for. At every moment the buffer holds at most `limit` bytes more than the chunk that has just arrived: when the
chunks `pre` were taken and `c` is appended to what they left. The loop over more chunks goes on from there. -/
theorem C144_memory (chk : Bool) (limit : Nat) (pre post : List Bytes) (c : Bytes) (s s1 : DState) (h0 : s.buf.length ≤ limit)
    (h : feedLimited chk limit pre s = (.ok true, s1)) : (s1.app c).buf.length ≤ limit + c.length ∧
      feedLimited chk limit (pre ++ c :: post) s = feedLimited chk limit (c :: post) s1 := by
  induction pre generalizing s with
  | nil =>
    obtain rfl : s = s1 := congrArg Prod.snd h
    refine ⟨?_, rfl⟩
    simp only [DState.app, List.length_append]
    omega
  | cons a pre ih =>
    rw [List.cons_append, feedLimited]
    rw [feedLimited] at h
    rcases hd : drain chk (s.app a) with ⟨⟨⟨⟩⟩ | e | _ | _, t⟩
    · simp only [hd] at h ⊢
      by_cases hl : t.buf.length > limit
      · rw [if_pos hl] at h; cases congrArg Prod.fst h
      · rw [if_neg hl] at h ⊢
        exact ih t (by omega) h
    all_goals
      simp only [hd] at h
      cases congrArg Prod.fst h

example : feedLimited true 9 [[8], [1, 18, 2, 97]] (DState.fresh [] []) =
    (.ok true, { key := (2, .lengthDelimited), ldLen := some 2, buf := [97], dst := [(1, .varint, [1])] }) := by decide

theorem drain_of_pump {chk : Bool} {s s1 : DState} (hs : Reachable chk s) {cs : List Bytes} (hne : cs ≠ [])
    (h : pump chk cs s = (.ok (), s1)) : drain chk (s.app cs.flatten) = (.ok (), s1) := by
  obtain ⟨pre, post, _, _, h3, h4⟩ := C53_chunks chk s hs cs hne
  rw [h] at h3 h4
  rw [h3 rfl, pump_single] at h4
  rw [h4]
  simp [DState.app]

/-- C144. Why a stream is refused: for any decoder, with the bytes `hb` of an unfinished field behind it. What had arrived is a sequence
of fields, all of them reported, then the header of one field, then more than `limit` bytes of that field. With a limit of at least 8
bytes these bytes belong to a length-delimited value whose declared length is greater than the limit, or to a varint (a key, a length or
a value) that has not ended after more than `limit` bytes. -/
theorem C144_why (chk : Bool) (limit : Nat) (cs : List Bytes) (s s1 : DState) (hs : Reachable chk s) (hb : Bytes)
    (hh : HeaderWire chk s.key s.ldLen hb) (h : feedLimited chk limit cs s = (.ok false, s1)) :
    ∃ arrived later m recs hb1, cs = arrived ++ later ∧ hb ++ s.buf ++ arrived.flatten = m ++ hb1 ++ s1.buf ∧ s1.dst = s.dst ++ recs ∧
      MessageWire chk recs m ∧ HeaderWire chk s1.key s1.ldLen hb1 ∧ limit < s1.buf.length ∧
      (8 ≤ limit → (s1.key.2 = .lengthDelimited ∧ ∃ n : UInt64, s1.ldLen = some n ∧ s1.buf.length < n.toNat) ∨ ∀ c ∈ s1.buf, 128 ≤ c.toNat) := by
  rcases C144_same_or_refused chk limit cs s with ⟨h1, _⟩ | ⟨pre, c, post, s2, h1, h2, h3, h4, _⟩
  · rw [h] at h1
    have := congrArg Prod.fst h1
    rcases hp : (pump chk cs s).1 with ⟨⟨⟩⟩ | e | _ | _ <;> simp [hp, asBool] at this
  · rw [h] at h2
    obtain rfl : s1 = s2 := congrArg Prod.snd h2
    have hd := drain_of_pump hs (by simp) h3
    obtain ⟨used, m, recs, hb', e1, e2, e3, e4, e5, _, e7⟩ := drain_spec (chk := chk) (s := s.app (pre ++ [c]).flatten) (hb := hb) hh
    rw [hd] at e1 e2 e5 e7
    replace e7 : Incomplete s1.key s1.ldLen s1.buf := e7 rfl
    refine ⟨pre ++ [c], post, m, recs, hb', by rw [h1]; simp, ?_, e2, e4, e5, h4, fun h8 => ?_⟩
    · replace e1 : s.buf ++ (pre ++ [c]).flatten = used ++ s1.buf := e1
      rw [List.append_assoc, e1, ← List.append_assoc, e3]
    · rcases hk : s1.key with ⟨tag, typ⟩
      rw [hk] at e7
      cases typ with
      | unknown => exact Or.inr e7
      | varint => exact Or.inr e7
      | bit32 => exact absurd (show s1.buf.length < 4 from e7) (by omega)
      | bit64 => exact absurd (show s1.buf.length < 8 from e7) (by omega)
      | lengthDelimited =>
        rcases hl : s1.ldLen with _ | n
        · rw [hl] at e7; exact Or.inr e7
        · rw [hl] at e7
          exact Or.inl ⟨rfl, n, rfl, e7⟩

theorem isCont_cut {l p y : Bytes} (h : IsCont l) (he : l = p ++ y) (hy : y ≠ []) : ∀ c ∈ p, 128 ≤ c.toNat := by
  induction p generalizing l with
  | nil => intro c hc; cases hc
  | cons a p ih =>
    subst he
    rcases hpy : p ++ y with _ | ⟨b, r⟩
    · exact absurd (List.append_eq_nil_iff.mp hpy).2 hy
    · rw [List.cons_append, hpy] at h
      intro c hc
      rcases List.mem_cons.mp hc with rfl | hc
      · exact h.1
      · exact ih h.2 hpy.symm c hc

theorem varintWire_any {bs : Bytes} {v : Nat} (chk : Bool) (h : VarintWire true bs v) : VarintWire chk bs v := by
  refine ⟨h.1, h.2.1, fun h2 => ?_⟩
  cases (h.2.2 h2).1

theorem varintWire_short {bs : Bytes} {v : Nat} (h : VarintWire true bs v) : bs.length ≤ 10 := by
  apply Decidable.byContradiction
  intro h2
  cases (h.2.2 (by omega)).1

theorem recordWire_any {r : Rec} {bs : Bytes} (chk : Bool) (h : RecordWire true r bs) : RecordWire chk r bs := by
  obtain ⟨k, b, h1, ⟨a1, a2, a3, a4⟩, h3⟩ := h
  refine ⟨k, b, h1, ⟨a1, a2, a3, varintWire_any chk a4⟩, ?_⟩
  obtain ⟨tag, typ, p⟩ := r
  cases typ with
  | lengthDelimited =>
    obtain ⟨l, e, h4⟩ := h3
    exact ⟨l, e, varintWire_any chk h4⟩
  | _ => exact h3

theorem messageWire_any {rs : List Rec} {bs : Bytes} (chk : Bool) (h : MessageWire true rs bs) : MessageWire chk rs bs := by
  induction rs generalizing bs with
  | nil => exact h
  | cons r rs ih =>
    obtain ⟨b, c, h1, h2, h3⟩ := h
    exact ⟨b, c, h1, recordWire_any chk h2, ih h3⟩

/-- The part of a field that has arrived. -/
theorem record_cut {chk : Bool} {r : Rec} {b p y : Bytes} (h : RecordWire true r b) (he : b = p ++ y) (hy : y ≠ []) :
    ∃ hb rest key len, p = hb ++ rest ∧ HeaderWire chk key len hb ∧ Incomplete key len rest ∧
      (rest.length < 10 ∨ rest.length < r.2.2.length) ∧ (AtNumber key len → rest.length ≤ 10) := by
  obtain ⟨tag, typ, pay⟩ := r
  obtain ⟨k, body, rfl, ⟨a1, a2, a3, a4⟩, h3⟩ := h
  have hk := varintWire_short a4
  have keyw : KeyWire chk k tag.toNat typ := ⟨a1, a2, a3, varintWire_any chk a4⟩
  rcases List.append_eq_append_iff.mp he with ⟨q, e1, e2⟩ | ⟨q, e1, e2⟩
  · -- the key has arrived
    have hlen : body.length = q.length + y.length := by rw [e2]; simp
    have hy0 : 0 < y.length := List.length_pos_iff.mpr hy
    cases typ with
    | unknown => exact h3.elim
    | varint =>
      obtain ⟨h3, h4⟩ : body = pay ∧ IsCont pay := h3
      refine ⟨k, q, (tag, .varint), none, e1, Or.inr (Or.inl ⟨keyw, rfl⟩), isCont_cut h4 (by rw [← h3, e2]) hy, Or.inr ?_, ?_⟩
      · show q.length < pay.length
        rw [← h3]; omega
      · rintro (h | ⟨h, _⟩) <;> cases h
    | bit32 =>
      obtain ⟨h3, h4⟩ : body = pay ∧ pay.length = 4 := h3
      have : q.length < 4 := by rw [h3] at hlen; omega
      refine ⟨k, q, (tag, .bit32), none, e1, Or.inr (Or.inl ⟨keyw, rfl⟩), this, Or.inl (by omega), fun _ => by omega⟩
    | bit64 =>
      obtain ⟨h3, h4⟩ : body = pay ∧ pay.length = 8 := h3
      have : q.length < 8 := by rw [h3] at hlen; omega
      refine ⟨k, q, (tag, .bit64), none, e1, Or.inr (Or.inl ⟨keyw, rfl⟩), this, Or.inl (by omega), fun _ => by omega⟩
    | lengthDelimited =>
      obtain ⟨l, h3, h4⟩ : ∃ l, body = l ++ pay ∧ VarintWire true l pay.length := h3
      have hl := varintWire_short h4
      rw [h3] at e2
      rcases List.append_eq_append_iff.mp e2 with ⟨z, f1, f2⟩ | ⟨z, f1, f2⟩
      · have hz : pay.length = z.length + y.length := by rw [f2]; simp
        have hn : (UInt64.ofNat pay.length).toNat = pay.length := by
          rw [UInt64.toNat_ofNat']
          exact Nat.mod_eq_of_lt (VarintWire.lt h4)
        refine ⟨k ++ l, z, (tag, .lengthDelimited), some (UInt64.ofNat pay.length), by rw [e1, f1, List.append_assoc],
          Or.inr (Or.inr ⟨k, l, _, rfl, keyw, rfl, rfl, ?_, by rw [hn]; exact varintWire_any chk h4⟩), ?_, Or.inr (show z.length < pay.length by omega), ?_⟩
        · intro h0
          have := congrArg UInt64.toNat h0
          rw [hn] at this
          have : pay.length = 0 := this
          omega
        · show z.length < (UInt64.ofNat pay.length).toNat
          rw [hn]; omega
        · rintro (h | ⟨_, h⟩) <;> cases h
      · rcases z with _ | ⟨a, z⟩
        · -- exactly the key and the length have arrived
          rw [List.append_nil] at f1
          rw [List.nil_append] at f2
          subst f1
          have hn : (UInt64.ofNat pay.length).toNat = pay.length := by
            rw [UInt64.toNat_ofNat']
            exact Nat.mod_eq_of_lt (VarintWire.lt h4)
          refine ⟨k ++ l, [], (tag, .lengthDelimited), some (UInt64.ofNat pay.length), by rw [e1, List.append_nil],
            Or.inr (Or.inr ⟨k, l, _, rfl, keyw, rfl, rfl, ?_, by rw [hn]; exact varintWire_any chk h4⟩), ?_, Or.inl (by simp), fun _ => by simp⟩
          · intro h0
            have := congrArg UInt64.toNat h0
            rw [hn] at this
            have : pay.length = 0 := this
            rw [← f2] at this
            omega
          · show 0 < (UInt64.ofNat pay.length).toNat
            rw [hn, ← f2]; omega
        · have hq : q.length < l.length := by rw [f1]; simp
          exact ⟨k, q, (tag, .lengthDelimited), none, e1, Or.inr (Or.inl ⟨keyw, rfl⟩), isCont_cut h4.1 f1 (by simp), Or.inl (by omega), fun _ => by omega⟩
  · rcases q with _ | ⟨a, q⟩
    · -- exactly the key has arrived
      rw [List.append_nil] at e1
      subst e1
      rw [List.nil_append] at e2
      subst e2
      refine ⟨k, [], (tag, typ), none, by simp, Or.inr (Or.inl ⟨keyw, rfl⟩), ?_, Or.inl (by simp), fun _ => by simp⟩
      cases typ <;> simp [Incomplete]
    · have hp : p.length < k.length := by rw [e1]; simp
      exact ⟨[], p, (0, .unknown), none, rfl, Or.inl ⟨rfl, rfl, rfl⟩, isCont_cut a4.1 e1 (by simp), Or.inl (by omega), fun _ => by omega⟩

/-- The part of a message that has arrived. -/
theorem message_cut {chk : Bool} {limit : Nat} (h10 : 9 ≤ limit) {rs : List Rec} {w p y : Bytes} (h : MessageWire true rs w)
    (hp : ∀ r ∈ rs, r.2.2.length ≤ limit + 1) (he : w = p ++ y) :
    ∃ m recs hb rest key len, p = m ++ hb ++ rest ∧ MessageWire chk recs m ∧ HeaderWire chk key len hb ∧ Incomplete key len rest ∧
      rest.length ≤ limit ∧ (AtNumber key len → rest.length ≤ 10) := by
  induction rs generalizing w p with
  | nil =>
    have hw : w = [] := h
    have : p = [] := (List.append_eq_nil_iff.mp (he.symm.trans hw)).1
    exact ⟨[], [], [], [], (0, .unknown), none, this, rfl, Or.inl ⟨rfl, rfl, rfl⟩, fun c hc => by (cases hc), by simp, fun _ => by simp⟩
  | cons r rs ih =>
    obtain ⟨b, c, e1, h2, h3⟩ := h
    rw [e1] at he
    rcases List.append_eq_append_iff.mp he with ⟨q, f1, f2⟩ | ⟨q, f1, f2⟩
    · obtain ⟨m, recs, hb, rest, key, len, g1, g2, g3, g4, g5, g6⟩ := ih h3 (fun r hr => hp r (List.mem_cons_of_mem _ hr)) f2
      exact ⟨b ++ m, r :: recs, hb, rest, key, len, by rw [f1, g1]; simp, ⟨b, m, rfl, recordWire_any chk h2, g2⟩, g3, g4, g5, g6⟩
    · by_cases hq : q = []
      · obtain ⟨m, recs, hb, rest, key, len, g1, g2, g3, g4, g5, g6⟩ :=
          ih (p := []) (w := c) h3 (fun r hr => hp r (List.mem_cons_of_mem _ hr)) (by rw [hq] at f2; exact f2.symm)
        refine ⟨b ++ m, r :: recs, hb, rest, key, len, ?_, ⟨b, m, rfl, recordWire_any chk h2, g2⟩, g3, g4, g5, g6⟩
        rw [List.append_assoc, List.append_assoc, ← List.append_assoc m, ← g1, f1, hq]; simp
      · obtain ⟨hb, rest, key, len, g1, g2, g3, g4, g5⟩ := record_cut (chk := chk) h2 f1 hq
        have := hp r (by simp)
        exact ⟨[], [], hb, rest, key, len, by simpa using g1, rfl, g2, g3, by omega, g5⟩

/-- C144. Who is never refused: a stream of fields (with keys and lengths of at most ten bytes) whose values have at most `limit + 1`
bytes, where `limit` is at least 9, however it is cut into chunks: every field is reported and nothing is left over. -/
theorem C144_accepted (chk : Bool) (limit : Nat) (h9 : 9 ≤ limit) (recs : List Rec) (m : Bytes) (h : MessageWire true recs m)
    (hp : ∀ r ∈ recs, r.2.2.length ≤ limit + 1) (cs : List Bytes) (hc : cs.flatten = m) (dst : List Rec) :
    feedLimited chk limit cs (DState.fresh [] dst) = (.ok true, DState.fresh [] (dst ++ recs)) := by
  rcases C144_same_or_refused chk limit cs (DState.fresh [] dst) with ⟨h1, _⟩ | ⟨pre, c, post, s1, h1, _, h3, h4, _⟩
  · by_cases hne : cs = []
    · subst hne
      have hm : m = [] := hc.symm
      rcases recs with _ | ⟨r, rs⟩
      · simp [feedLimited]
      · obtain ⟨b, c, e, ⟨k, b', e', hk, _⟩, _⟩ := h
        have := hk.2.2.2.1.ne_nil
        rw [hm, e'] at e
        simp at e
        exact absurd e.1 this
    · rw [h1, pump_message (messageWire_any chk h) dst cs hc hne]; rfl
  · have hd := drain_of_pump (.fresh [] dst) (by simp) h3
    obtain ⟨m1, recs1, hb, rest, key, len, g1, g2, g3, g4, g5, g6⟩ :=
      message_cut (chk := chk) h9 h hp (p := (pre ++ [c]).flatten) (y := post.flatten) (by rw [← hc, h1]; simp)
    have hv := (C115_verdict chk (pre ++ [c]).flatten rest dst recs1 key len (.ok ())).mpr ⟨m1, hb, g1, g2, g3, .waits g4 fun _ => g6⟩
    have he : (DState.fresh [] dst).app (pre ++ [c]).flatten = DState.fresh (pre ++ [c]).flatten dst := rfl
    rw [he, hv] at hd
    have : s1.buf = rest := by
      have h5 := congrArg (fun o => o.2.buf) hd
      exact h5.symm
    rw [this] at h4
    omega

/-- C144: in particular a peer that uses this crate's encoder for values of at most `limit + 1` bytes. -/
theorem C144_own_peer (chk : Bool) (limit : Nat) (h9 : 9 ≤ limit) (fs : List (UInt32 × EncoderLit)) (h : ∀ f ∈ fs, GoodField f)
    (hp : ∀ f ∈ fs, (payload f.2).length ≤ limit + 1) (dst : List Rec) :
    ∃ m, encodeAll vecWriter fs [] = (.ok m.length, m) ∧ ∀ cs : List Bytes, cs.flatten = m →
      feedLimited chk limit cs (DState.fresh [] dst) =
        (.ok true, DState.fresh [] (dst ++ fs.map fun f => (f.1, wireType f.2, payload f.2))) :=
  ⟨_, C56_append_all fs h [], fun cs hc => C144_accepted chk limit h9 _ _ (fields_wire true (goodField h))
    (fun r hr => by obtain ⟨f, hf, rfl⟩ := List.mem_map.mp hr; exact hp f hf) cs hc dst⟩

/-- C144: what the limit does not do. It is a limit on bytes that wait, not on sizes: a `bytes` field of more than `limit + 1` bytes is
accepted when it arrives in one chunk, and the very same field is refused when its last byte arrives separately. -/
theorem C144_not_a_size_limit (chk : Bool) (limit : Nat) (tag : UInt32) (b : Bytes) (x : UInt8) (dst : List Rec)
    (h : GoodField (tag, .bytes (b ++ [x]))) (hb : limit < b.length) :
    ∃ m, encodeAll vecWriter [(tag, .bytes (b ++ [x]))] [] = (.ok (m ++ [x]).length, m ++ [x]) ∧
      feedLimited chk limit [m ++ [x]] (DState.fresh [] dst) = (.ok true, DState.fresh [] (dst ++ [(tag, .lengthDelimited, b ++ [x])])) ∧
      ∃ s1, feedLimited chk limit [m, [x]] (DState.fresh [] dst) = (.ok false, s1) ∧ s1.buf = b ∧ s1.dst = dst := by
  have hg : ∀ f ∈ [(tag, EncoderLit.bytes (b ++ [x]))], GoodField f := by simpa using h
  have hv := goodField hg (tag, .bytes (b ++ [x])) (by simp)
  have hw := fieldBytes_wire chk hv.1 (.bytes (b ++ [x])) hv.2
  obtain ⟨k, body, e1, hk, l, e2, hl⟩ := hw
  have hk : KeyWire chk k tag.toNat .lengthDelimited := hk
  have e2 : body = l ++ (b ++ [x]) := e2
  have hl : VarintWire chk l (b ++ [x]).length := hl
  have he := C56_append_all _ hg []
  have hbytes : (([(tag, EncoderLit.bytes (b ++ [x]))] : List (UInt32 × EncoderLit)).flatMap fun f => fieldBytes f.1.toNat f.2)
      = (k ++ l ++ b) ++ [x] := by
    simp only [List.flatMap_cons, List.flatMap_nil, List.append_nil]
    rw [e1, e2]; simp
  rw [hbytes] at he
  refine ⟨k ++ l ++ b, he, ?_, ?_⟩
  · have hd := drain_message (fields_wire chk (goodField hg)) dst
    rw [hbytes] at hd
    have hd' : drain chk ((DState.fresh [] dst).app (k ++ l ++ b ++ [x])) = _ := hd
    simp only [feedLimited, hd']
    rfl
  · have hn : (UInt64.ofNat (b ++ [x]).length).toNat = (b ++ [x]).length := by
      rw [UInt64.toNat_ofNat']
      exact Nat.mod_eq_of_lt (VarintWire.lt hl)
    have hd := (C115_verdict chk (k ++ l ++ b) b dst [] (tag, .lengthDelimited) (some (UInt64.ofNat (b ++ [x]).length)) (.ok ())).mpr
      ⟨[], k ++ l, by simp, rfl, Or.inr (Or.inr ⟨k, l, _, rfl, hk, rfl, rfl, ?_, by rw [hn]; exact hl⟩), .waits ?_ ?_⟩
    · have hd' : drain chk ((DState.fresh [] dst).app (k ++ l ++ b)) = _ := hd
      simp only [feedLimited, hd']
      rw [if_pos hb]
      exact ⟨_, rfl, rfl, by simp⟩
    · intro h0
      have := congrArg UInt64.toNat h0
      rw [hn] at this
      simp at this
    · show b.length < (UInt64.ofNat (b ++ [x]).length).toNat
      rw [hn]; simp
    · rintro _ (h | ⟨_, h⟩) <;> cases h

example : feedLimited true 9 [[10, 200], [1, 97, 97], List.replicate 20 97] (DState.fresh [] []) =
    (.ok false, { key := (1, .lengthDelimited), ldLen := some 200, buf := List.replicate 22 97, dst := [] }) := by decide

example : feedLimited true 9 [[8], [1, 18, 2, 97], [98, 8]] (DState.fresh [] []) =
    (.ok true, { key := (1, .varint), ldLen := none, buf := [], dst := [(1, .varint, [1]), (2, .lengthDelimited, [97, 98])] }) := by decide

example : MessageWire true [(1, .varint, [1]), (2, .lengthDelimited, [97, 98])] [8, 1, 18, 2, 97, 98] :=
  ⟨[8, 1], _, rfl, ⟨[8], [1], rfl, ⟨by decide, by decide, by decide, w 8 8 (by decide) rfl⟩, ⟨rfl, show (1 : UInt8).toNat < 128 by decide⟩⟩,
    _, [], rfl, ⟨[18], _, rfl, ⟨by decide, by decide, by decide, w 18 18 (by decide) rfl⟩, [2], rfl, w 2 2 (by decide) rfl⟩, rfl⟩
where
  w (c : UInt8) (n : Nat) (h : c.toNat < 128) (hn : n = contVal [c] % 2 ^ 64) : VarintWire true [c] n :=
    ⟨h, fun _ => hn, fun h2 => absurd h2 (by simp)⟩

/-- The hypotheses of `C144_why` and `C144_not_a_size_limit`, for a varint that does not end and a value of four bytes. -/
example : (feedLimited false 9 [[8, 129, 129, 129, 129, 129], [129, 129, 129, 129, 129]] (DState.fresh [] [])).1 = .ok false ∧
    GoodField (1, .bytes ([97, 98, 99] ++ [100])) ∧ 2 < ([97, 98, 99] : Bytes).length := by
  exact ⟨by decide, by simp [GoodField, Fits], by decide⟩

end Verif.Props
