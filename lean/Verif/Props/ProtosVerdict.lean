import Verif.Props.Protos
/-! What the decoder says about any byte string, exactly: C58 (panics), C65 (zero) and C115 (the verdict). -/
namespace Verif.Protos
open Verif.Spec Verif.Spec.Proto

theorem decodeVarint_incomplete {chk : Bool} {buf : Bytes} (h : ∀ c ∈ buf, 128 ≤ c.toNat) (h2 : chk = true → buf.length ≤ 10) :
    decodeVarint chk buf = .err .inputUnderflow := by
  rcases decodeVarint_cases chk buf with ⟨cs, r, v, e1, e2, _⟩ | ⟨_, _, e3⟩ | ⟨e1, e2, _, _⟩
  · obtain ⟨c, hc, hlt⟩ : ∃ c ∈ cs, c.toNat < 128 := by
      have : ∀ l : Bytes, IsCont l → ∃ c ∈ l, c.toNat < 128 := by
        intro l
        induction l with
        | nil => intro h; exact h.elim
        | cons a l ih =>
          intro h
          rcases l with _ | ⟨b, l⟩
          · exact ⟨a, by simp, h⟩
          · obtain ⟨c, hc, hlt⟩ := ih h.2
            exact ⟨c, List.mem_cons_of_mem _ hc, hlt⟩
      exact this cs e2.1
    have := h c (by rw [e1]; exact List.mem_append_left _ hc)
    omega
  · exact e3
  · have := h2 e1; omega

theorem decodeVarint_overlong {buf : Bytes} (h : Overlong buf) : decodeVarint true buf = .panic :=
  loop_panic buf 0 0 h.2 (by have := h.1; omega) (by omega)

theorem decodeKey_of_fail {chk : Bool} {buf : Bytes} : (decodeVarint chk buf = .panic → decodeKey chk buf = .panic) ∧
    (decodeVarint chk buf = .err .inputUnderflow → decodeKey chk buf = .err .inputUnderflow) := by
  constructor <;> intro h <;> simp only [decodeKey, h] <;> rfl

/-- A round at a place where the buffer ends early does nothing. -/
theorem step_waits {chk : Bool} {s : DState} (h : Incomplete s.key s.ldLen s.buf)
    (h2 : chk = true → AtNumber s.key s.ldLen → s.buf.length ≤ 10) : decodeStep chk s = (.ok 0, s) := by
  obtain ⟨⟨tag, typ⟩, len, buf, dst⟩ := s
  cases typ with
  | unknown =>
    have := decodeKey_of_fail.2 (decodeVarint_incomplete (chk := chk) (buf := buf) h fun hc => h2 hc (Or.inl rfl))
    simp only [decodeStep, stepKey, this, orUnderflow]
  | varint => simp only [decodeStep, stepVarint, extractVarint, extractLoop_underflow _ _ _ h, orUnderflow]
  | bit32 => simp only [decodeStep, stepBit32, extractBit32, if_pos (show buf.length < 4 from h), orUnderflow]
  | bit64 => simp only [decodeStep, stepBit64, extractBit64, if_pos (show buf.length < 8 from h), orUnderflow]
  | lengthDelimited =>
    cases len with
    | none =>
      have := decodeVarint_incomplete (chk := chk) (buf := buf) h fun hc => h2 hc (Or.inr ⟨rfl, rfl⟩)
      simp only [decodeStep, stepLd, stepLdLen, this, orUnderflow]
    | some n => simp only [decodeStep, stepLd, stepLdBytes, extractLd, if_pos (show buf.length < n.toNat from h), orUnderflow]

theorem step_panics {s : DState} (h2 : AtNumber s.key s.ldLen) (h3 : Overlong s.buf) : decodeStep true s = (.panic, s) := by
  obtain ⟨⟨tag, typ⟩, len, buf, dst⟩ := s
  rcases h2 with h2 | ⟨h2, h4⟩
  · obtain rfl : typ = .unknown := h2
    simp only [decodeStep, stepKey, decodeKey_of_fail.1 (decodeVarint_overlong h3), orUnderflow]
  · obtain rfl : typ = .lengthDelimited := h2
    obtain rfl : len = none := h4
    simp only [decodeStep, stepLd, stepLdLen, decodeVarint_overlong h3, orUnderflow]

theorem overlong_of_incomplete {s : DState} (h : Incomplete s.key s.ldLen s.buf) (h2 : AtNumber s.key s.ldLen)
    (h3 : ¬ s.buf.length ≤ 10) : Overlong s.buf := by
  refine ⟨by omega, fun c hc => ?_⟩
  have hall : ∀ c ∈ s.buf, 128 ≤ c.toNat := by
    rcases h2 with h2 | ⟨h2, h4⟩
    · simp only [Incomplete, h2] at h; exact h
    · simp only [Incomplete, h2, h4] at h; exact h
  exact hall c (List.mem_of_mem_take hc)

/-- The header of an unfinished field is read. -/
theorem reach_header {chk : Bool} {key : UInt32 × Typ} {len : Option UInt64} {hb : Bytes} (h : HeaderWire chk key len hb)
    (x : Bytes) (dst : List Rec) :
    Reach chk (DState.fresh (hb ++ x) dst) { key := key, ldLen := len, buf := x, dst := dst } := by
  have go : ∀ {s t : DState} {n : Nat}, decodeStep chk s = (.ok n, t) → n ≠ 0 → decodeStep chk s ≠ (.ok 0, s) := by
    intro s t n h hn h2
    rw [h] at h2
    simp only [Prod.mk.injEq, Res.ok.injEq] at h2
    exact hn h2.1
  obtain ⟨tag, typ⟩ := key
  rcases h with ⟨h1, rfl, rfl⟩ | ⟨h1, rfl⟩ | ⟨k, l, n, rfl, h1, h2, rfl, _, h5⟩
  · cases h1; exact .refl
  · have := pos_of_ne h1.2.2.2.1.ne_nil
    exact .step (step_key h1 _ _) (go (step_key h1 _ _) (by omega)) .refl
  · have := pos_of_ne h1.2.2.2.1.ne_nil
    have := pos_of_ne h5.1.ne_nil
    obtain rfl : typ = .lengthDelimited := h2
    rw [List.append_assoc]
    refine .step (step_key h1 _ _) (go (step_key h1 _ _) (by omega)) ?_
    have e := step_len (chk := chk) (tag := tag) (x := x) (dst := dst) h5
    rw [UInt64.ofNat_toNat] at e
    exact .step e (go e (by omega)) .refl

/-- What a sequence of rounds has done in the end. -/
theorem Run.verdict {chk : Bool} {s : DState} {o : Res DecoderError Unit × DState} (h : Run chk s o) {hb : Bytes}
    (hm : Mid chk s.key s.ldLen hb) :
    ∃ m recs hb', hb ++ s.buf = m ++ hb' ++ o.2.buf ∧ o.2.dst = s.dst ++ recs ∧ MessageWire chk recs m ∧
      HeaderWire chk o.2.key o.2.ldLen hb' ∧ Ending chk o.2.key o.2.ldLen o.2.buf o.1 := by
  induction h generalizing hb with
  | @stuck s h =>
    cases step_cases hm with
    | more used rest key len h1 h2 h3 h4 =>
      rw [h] at h3
      simp only [Prod.mk.injEq, Res.ok.injEq] at h3
      exact absurd (List.eq_nil_of_length_eq_zero h3.1.symm) h2
    | record used rest r h1 h2 h3 h4 h5 =>
      rw [h] at h3
      have := congrArg (fun p => p.2.dst.length) h3
      simp [DState.fresh] at this
    | stuck h1 h2 h3 =>
      refine ⟨[], [], hb, by simp, by simp, rfl, Mid.header hm h2, .waits h3 ?_⟩
      intro hc hn
      apply Decidable.byContradiction
      intro h10
      subst hc
      rw [step_panics hn (overlong_of_incomplete h3 hn h10)] at h
      cases h
    | bad cs r v h1 => rw [h] at h1; cases h1
    | panic h1 => rw [h] at h1; cases h1
  | @step s s' n o h hne h2 ih =>
    cases step_cases hm with
    | more used rest key len a1 a2 a3 a4 =>
      rw [h] at a3
      simp only [Prod.mk.injEq, Res.ok.injEq] at a3
      obtain ⟨rfl, rfl⟩ := a3
      obtain ⟨m, recs, hb', e1, e2, e3, e4, e5⟩ := ih a4
      exact ⟨m, recs, hb', by rw [a1, ← List.append_assoc]; exact e1, e2, e3, e4, e5⟩
    | record used rest r a1 a2 a3 a4 a5 =>
      rw [h] at a3
      simp only [Prod.mk.injEq, Res.ok.injEq] at a3
      obtain ⟨rfl, rfl⟩ := a3
      obtain ⟨m, recs, hb', e1, e2, e3, e4, e5⟩ := ih (hb := []) (HeaderWire.mid (fresh_header _ _ _))
      refine ⟨(hb ++ used) ++ m, r :: recs, hb', ?_, ?_, ⟨_, _, rfl, a4, e3⟩, e4, e5⟩
      · rw [a1]
        have e1' : rest = m ++ hb' ++ o.2.buf := by simpa [DState.fresh] using e1
        rw [e1']; simp
      · rw [e2]; simp [DState.fresh]
    | stuck h1 => exact absurd h1 hne
    | bad cs r v h1 => rw [h] at h1; cases h1
    | panic h1 => rw [h] at h1; cases h1
  | @err s s' e h =>
    cases step_cases hm with
    | more used rest key len a1 a2 a3 a4 => rw [h] at a3; cases a3
    | record used rest r a1 a2 a3 a4 a5 => rw [h] at a3; cases a3
    | stuck h1 => rw [h] at h1; cases h1
    | bad cs r v a1 a2 a3 a4 a5 a6 a7 =>
      rw [h] at a1
      cases a1
      exact ⟨[], [], hb, by simp, by simp, rfl, Mid.header hm (by rw [a3]; simp), .refuses cs r v a2 a5 a6 a7⟩
    | panic h1 => rw [h] at h1; cases h1
  | @panic s s' h =>
    cases step_cases hm with
    | more used rest key len a1 a2 a3 a4 => rw [h] at a3; cases a3
    | record used rest r a1 a2 a3 a4 a5 => rw [h] at a3; cases a3
    | stuck h1 => rw [h] at h1; cases h1
    | bad cs r v a1 => rw [h] at a1; cases a1
    | panic a1 a2 a3 a4 a5 =>
      rw [h] at a1
      cases a1
      refine ⟨[], [], hb, by simp, by simp, rfl, Mid.header hm ?_, .panics a2 a5 ⟨a3, a4⟩⟩
      rcases a5 with h5 | ⟨_, h5⟩
      · rcases hm with ⟨a, b, _⟩ | ⟨a, b⟩ | ⟨k, l, n, _, b, c, d, _⟩
        · rw [b]; simp
        · rw [b]; simp
        · rw [h5] at c; cases c
      · rw [h5]; simp

/-- A state whose rest must end in a certain way does end so at once. -/
theorem run_ending {chk : Bool} {s : DState} {r : Res DecoderError Unit} (h : Ending chk s.key s.ldLen s.buf r) : Run chk s (r, s) := by
  cases h with
  | waits h h2 => exact .stuck (step_waits h h2)
  | refuses cs r v h h2 h3 h4 =>
    refine .err ?_
    simp only [decodeStep, h, stepKey]
    rw [h2, decodeKey_bad h3 h4]; rfl
  | panics h h2 h3 => subst h; exact .panic (step_panics h2 h3)

end Verif.Protos

namespace Verif.Props
open Verif.Protos Verif.Spec Verif.Spec.Proto

/-- C115. The verdict on any bytes. Calling `decode` until it returns 0 ends with the answer `r`, the fields `recs` and the state
`key`, `len`, `rest` if and only if the bytes are the fields `recs`, then the header of an unfinished field (`key`, `len`), then
`rest`, where `rest` is such that: the field cannot be read further (answer: wait), or `rest` starts with a bad key (answer:
`InvalidInput`), or, with overflow checks, with a key or length of more than ten bytes (panic). -/
theorem C115_verdict (chk : Bool) (buf rest : Bytes) (dst recs : List Rec) (key : UInt32 × Typ) (len : Option UInt64)
    (r : Res DecoderError Unit) :
    drain chk (DState.fresh buf dst) = (r, { key := key, ldLen := len, buf := rest, dst := dst ++ recs }) ↔
      ∃ m hb, buf = m ++ hb ++ rest ∧ MessageWire chk recs m ∧ HeaderWire chk key len hb ∧ Ending chk key len rest r := by
  have run := drain_run (fresh_header chk buf dst)
  constructor
  · intro h
    rw [h] at run
    obtain ⟨m, recs', hb', e1, e2, e3, e4, e5⟩ := run.verdict (HeaderWire.mid (fresh_header chk buf dst))
    obtain rfl : recs = recs' := List.append_cancel_left (as := dst) e2
    exact ⟨m, hb', by simpa [DState.fresh] using e1, e3, e4, e5⟩
  · rintro ⟨m, hb, rfl, h2, h3, h4⟩
    rw [List.append_assoc] at run ⊢
    exact run.det (((reach_message h2 _ dst).trans (reach_header h3 rest _)).run (run_ending h4))

/-- C115: there is always such a description. -/
theorem C115_every_input (chk : Bool) (buf : Bytes) : ∃ m recs hb key len rest r, buf = m ++ hb ++ rest ∧ MessageWire chk recs m ∧
    HeaderWire chk key len hb ∧ Ending chk key len rest r := by
  obtain ⟨m, recs, hb, e1, _, e3, e4, e5⟩ := (drain_run (fresh_header chk buf [])).verdict (HeaderWire.mid (fresh_header chk buf []))
  exact ⟨m, recs, hb, _, _, _, _, by simpa [DState.fresh] using e1, e3, e4, e5⟩

/-- C115: and only one. -/
theorem C115_one_description (chk : Bool) (buf m m' hb hb' rest rest' : Bytes) (recs recs' : List Rec) (key key' : UInt32 × Typ)
    (len len' : Option UInt64) (r r' : Res DecoderError Unit)
    (h : buf = m ++ hb ++ rest ∧ MessageWire chk recs m ∧ HeaderWire chk key len hb ∧ Ending chk key len rest r)
    (h' : buf = m' ++ hb' ++ rest' ∧ MessageWire chk recs' m' ∧ HeaderWire chk key' len' hb' ∧ Ending chk key' len' rest' r') :
    recs = recs' ∧ key = key' ∧ len = len' ∧ rest = rest' ∧ r = r' := by
  have e := ((C115_verdict chk buf rest [] recs key len r).mpr ⟨m, hb, h⟩).symm.trans
    ((C115_verdict chk buf rest' [] recs' key' len' r').mpr ⟨m', hb', h'⟩)
  simp only [Prod.mk.injEq, DState.mk.injEq, List.nil_append] at e
  exact ⟨e.2.2.2.2, e.2.1, e.2.2.1, e.2.2.2.1, e.1⟩

/-- C58. Exactly which bytes make the decoder panic: with overflow checks on, those where, after whole fields, a key or the
length of a length-delimited field has more than ten bytes. -/
theorem C58_panics_exactly (chk : Bool) (buf : Bytes) (dst : List Rec) :
    (drain chk (DState.fresh buf dst)).1 = .panic ↔
      chk = true ∧ ∃ m recs hb rest, buf = m ++ hb ++ rest ∧ MessageWire chk recs m ∧
        (hb = [] ∨ ∃ tag, KeyWire chk hb tag .lengthDelimited) ∧ Overlong rest := by
  constructor
  · intro h
    obtain ⟨m, recs, hb, e1, _, e3, e4, e5⟩ := (drain_run (fresh_header chk buf dst)).verdict (HeaderWire.mid (fresh_header chk buf dst))
    rw [h] at e5
    cases e5 with
    | panics h1 h2 h3 =>
      refine ⟨h1, m, recs, hb, _, by simpa [DState.fresh] using e1, e3, ?_, h3⟩
      rcases e4 with ⟨_, _, e⟩ | ⟨e, _⟩ | ⟨k, l, n, _, e, e', e'', _⟩
      · exact Or.inl e
      · rcases h2 with h2 | ⟨h2, _⟩
        · exact absurd h2 e.2.2.1
        · exact Or.inr ⟨_, h2 ▸ e⟩
      · rcases h2 with h2 | ⟨_, h2⟩
        · exact absurd h2 e.2.2.1
        · rw [h2] at e''; cases e''
  · rintro ⟨rfl, m, recs, hb, rest, rfl, h2, h3, h4⟩
    rcases h3 with rfl | ⟨tag, h3⟩
    · rw [(C115_verdict true _ rest dst recs (0, .unknown) none .panic).mpr
        ⟨m, [], rfl, h2, Or.inl ⟨rfl, rfl, rfl⟩, .panics rfl (Or.inl rfl) h4⟩]
    · have ht : (UInt32.ofNat tag).toNat = tag := UInt32.toNat_ofNat_of_lt' (Nat.lt_trans h3.2.1 (by decide))
      rw [(C115_verdict true _ rest dst recs (UInt32.ofNat tag, .lengthDelimited) none .panic).mpr
        ⟨m, hb, rfl, h2, Or.inr (Or.inl ⟨by simpa only [ht] using h3, rfl⟩), .panics rfl (Or.inr ⟨rfl, rfl⟩) h4⟩]

/-- A length of eleven bytes, after a field: the hypotheses of the right-hand side are met. -/
example : (drain true (DState.fresh ([8, 1] ++ [18] ++ [128, 128, 128, 128, 128, 128, 128, 128, 128, 128, 1]))).1 = .panic :=
  (C58_panics_exactly true _ []).mpr ⟨rfl, [8, 1], [(1, .varint, [1])], [18], _, rfl,
    ⟨[8, 1], [], rfl, ⟨[8], [1], rfl, ⟨by decide, by decide, by decide, by simp [IsCont], by decide, by decide⟩, rfl, by simp [IsCont]⟩, rfl⟩,
    Or.inr ⟨2, by decide, by decide, by decide, by simp [IsCont], by decide, by decide⟩, by decide, by decide⟩

/-- C115. Exactly which bytes are refused: those where, after whole fields, there is a key that no field can have. -/
theorem C115_refuses_exactly (chk : Bool) (buf : Bytes) (dst : List Rec) :
    (drain chk (DState.fresh buf dst)).1 = .err .invalidInput ↔
      ∃ m recs k rest v, buf = m ++ k ++ rest ∧ MessageWire chk recs m ∧ VarintWire chk k v ∧ BadKey v := by
  constructor
  · intro h
    obtain ⟨m, recs, hb, e1, _, e3, e4, e5⟩ := (drain_run (fresh_header chk buf dst)).verdict (HeaderWire.mid (fresh_header chk buf dst))
    rw [h] at e5
    cases e5 with
    | refuses cs r v h1 h2 h3 h4 =>
      refine ⟨m, recs, cs, r, v, ?_, e3, h3, h4⟩
      have : hb = [] := by
        rcases e4 with ⟨_, _, e⟩ | ⟨e, _⟩ | ⟨k, l, n, _, e, _⟩
        · exact e
        · rw [h1] at e; exact absurd rfl e.2.2.1
        · rw [h1] at e; exact absurd rfl e.2.2.1
      subst this
      rw [h2] at e1
      simpa [DState.fresh] using e1
  · rintro ⟨m, recs, k, rest, v, rfl, h2, h3, h4⟩
    rw [(C115_verdict chk _ (k ++ rest) dst recs (0, .unknown) none (.err .invalidInput)).mpr
      ⟨m, [], by simp, h2, Or.inl ⟨rfl, rfl, rfl⟩, .refuses k rest v rfl rfl h3 h4⟩]

example : (drain true (DState.fresh [8, 1, 7, 9])).1 = .err .invalidInput :=
  (C115_refuses_exactly true _ []).mpr ⟨[8, 1], [(1, .varint, [1])], [7], [9], 7, rfl,
    ⟨[8, 1], [], rfl, ⟨[8], [1], rfl, ⟨by decide, by decide, by decide, by simp [IsCont], by decide, by decide⟩, rfl, by simp [IsCont]⟩, rfl⟩,
    ⟨by simp [IsCont], by decide, by decide⟩, Or.inr (Or.inl (by decide))⟩

/-- C65. Exactly when a call returns 0: when the buffer ends inside the next key, length or value (with overflow checks: and a key
or length has not already more than ten bytes). -/
theorem C65_zero_exactly (chk : Bool) (s : DState) (hs : Reachable chk s) :
    (∃ s', decode chk s = (.ok 0, s')) ↔
      Incomplete s.key s.ldLen s.buf ∧ (chk = true → AtNumber s.key s.ldLen → s.buf.length ≤ 10) := by
  constructor
  · rintro ⟨s', h⟩
    obtain ⟨hb, hm⟩ := reachable_header hs
    obtain ⟨_, h2, h3⟩ := decode_zero hm h
    refine ⟨h3, fun hc hn => ?_⟩
    apply Decidable.byContradiction
    intro h10
    subst hc
    rw [step_panics hn (overlong_of_incomplete h3 hn h10)] at h2
    cases h2
  · rintro ⟨h, h2⟩
    exact ⟨s, loop_end (step_waits h h2)⟩

example : Reachable true (DState.fresh [0x88]) ∧ Incomplete (DState.fresh [0x88]).key (DState.fresh [0x88]).ldLen (DState.fresh [0x88]).buf :=
  ⟨.fresh _ _, by intro c hc; simp [DState.fresh] at hc; subst hc; decide⟩

end Verif.Props
