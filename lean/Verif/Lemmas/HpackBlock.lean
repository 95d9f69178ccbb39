import Verif.Lemmas.HpackDecoder
/-! Header blocks: the loops of `decode` and `decode_exact`. -/
namespace Verif.Hpack
open Verif.Spec
open Verif.Huffman (Speed)

theorem decodeOne_dst (s : DecoderState) (hwf : s.table.WF) (d : List Field) :
    (decodeOne { s with dst := d }).1 = (decodeOne s).1 := by
  obtain hb | ⟨b0, tl, hb⟩ : s.buf = [] ∨ ∃ b0 tl, s.buf = b0 :: tl := by
    cases s.buf with
    | nil => exact Or.inl rfl
    | cons b0 tl => exact Or.inr ⟨b0, tl, rfl⟩
  · simp [decodeOne, M.bind_apply, hb]
  · have hb' : ({ s with dst := d } : DecoderState).buf = b0 :: tl := hb
    have hwf' : ({ s with dst := d } : DecoderState).table.WF := hwf
    by_cases h128 : 128 ≤ b0.toNat
    · rw [decodeOne_indexed hb h128, decodeOne_indexed hb' h128, decodeIndexed_eq, decodeIndexed_eq]
      simp only
      cases decodeInteger s.buf 7 with
      | ok p =>
        obtain ⟨i, t⟩ := p
        simp only
        cases s.table.spec.addr (UInt32.ofNat i).toNat <;> rfl
      | err e => rfl
      | panic => rfl
      | hang => rfl
    by_cases h32 : 32 ≤ b0.toNat ∧ b0.toNat < 64
    · rw [decodeOne_update hb h32.1 h32.2, decodeOne_update hb' h32.1 h32.2, decUpdate_eq s hwf, decUpdate_eq _ hwf']
      simp only
      cases decodeInteger s.buf 5 with
      | ok p =>
        obtain ⟨i, t⟩ := p
        simp only
        by_cases h : s.maxDynamicSize < UInt32.ofNat i
        · rw [if_pos h, if_pos h]
        · rw [if_neg h, if_neg h]
      | err e => rfl
      | panic => rfl
      | hang => rfl
    obtain ⟨m, hm⟩ : ∃ m : Indexing, hiBits m.bits b0 = m.pattern := by
      by_cases h64 : 64 ≤ b0.toNat
      · exact ⟨.incremental, by simp only [hiBits, Indexing.bits, Indexing.pattern]; omega⟩
      · by_cases h16 : 16 ≤ b0.toNat
        · exact ⟨.never, by simp only [hiBits, Indexing.bits, Indexing.pattern]; omega⟩
        · exact ⟨.without, by simp only [hiBits, Indexing.bits, Indexing.pattern]; omega⟩
    rw [decodeOne_literal hb hm, decodeOne_literal hb' hm, decodeLiteral_eq hwf hb hm, decodeLiteral_eq hwf' hb' hm]
    simp only
    cases decodeInteger s.buf m.bits with
    | ok p =>
      obtain ⟨i, t1⟩ := p
      simp only
      have : decodeName { s with dst := d } i t1 = decodeName s i t1 := rfl
      rw [this]
      cases decodeName s i t1 with
      | ok q =>
        obtain ⟨name, t2⟩ := q
        simp only
        cases decodeString (s.buf.drop t2) s.speed with
        | ok r => rfl
        | err e => rfl
        | panic => rfl
        | hang => rfl
      | err e => rfl
      | panic => rfl
      | hang => rfl
    | err e => rfl
    | panic => rfl
    | hang => rfl

/-- One step, with its effect independent of what is in `dst`. -/
theorem decodeOne_frame {s : DecoderState} (hwf : s.table.WF) (hne : s.buf ≠ []) :
    (∃ rep bs rest hdr t', s.buf = bs ++ rest ∧ RepWire lenientPads 5 rep bs ∧
      rep.apply s.maxDynamicSize.toNat s.table.spec = some (hdr, t'.spec) ∧ t'.WF ∧
      ∀ d, decodeOne { s with dst := d } =
        (.ok (if rep.isHeader then bs.length else 0), { s with dst := d ++ hdr.toList, buf := rest, table := t' })) ∨
    ((∀ rep bs rest, s.buf = bs ++ rest → RepWire lenientPads 5 rep bs →
        rep.apply s.maxDynamicSize.toNat s.table.spec = none) ∧
      ((∃ e, (∀ d, decodeOne { s with dst := d } = (.err e, { s with dst := d })) ∧
          ¬ RepCut lenientPads s.table.spec s.buf) ∨
       ((∀ d, decodeOne { s with dst := d } = (.panic, { s with dst := d })) ∧ RepCut lenientPads s.table.spec s.buf))) := by
  rcases decodeOne_cases hwf hne with ⟨rep, bs, rest, hdr, t', hb, hw, ha, hwf', h⟩ | ⟨hno, ⟨e, he, hc⟩ | ⟨he, hc⟩⟩
  · left
    refine ⟨rep, bs, rest, hdr, t', hb, hw, ha, hwf', fun d => ?_⟩
    have := decodeOne_wire (s := { s with dst := d }) hwf hb hw
    simp only [ha] at this
    obtain ⟨t'', h1, h2, h3⟩ := this
    rw [Table.WF.ext h1 hwf' h2] at h3
    exact h3
  · right
    refine ⟨hno, Or.inl ⟨e, fun d => ?_, hc⟩⟩
    have h1 := decodeOne_dst s hwf d
    rw [he] at h1
    rcases decodeOne_cases (s := { s with dst := d }) hwf hne with ⟨_, _, _, _, _, _, _, _, _, h⟩ | ⟨_, ⟨e', he', _⟩ | ⟨he', _⟩⟩
    · rw [h] at h1; simp at h1
    · rw [he'] at h1 ⊢; simp only [Res.err.injEq] at h1; rw [h1]
    · rw [he'] at h1; simp at h1
  · right
    exact ⟨hno, Or.inr ⟨fun d => decodeOne_cut hwf hc, hc⟩⟩

/-! ### Blocks -/

theorem block_nil (limit : Nat) (t : SpecTable) : Block lenientPads limit t [] [] [] t :=
  ⟨by simp, rfl, rfl⟩

theorem block_cons {limit : Nat} {t t1 t2 : SpecTable} {rep : Rep} {bs bs' : Bytes} {hdr : Option Field}
    {ws : List (Rep × Octets)} {hs : List Field} (hw : RepWire lenientPads 5 rep bs)
    (ha : rep.apply limit t = some (hdr, t1)) (h : Block lenientPads limit t1 bs' ws hs t2) :
    Block lenientPads limit t (bs ++ bs') ((rep, bs) :: ws) (hdr.toList ++ hs) t2 := by
  obtain ⟨h1, rfl, h3⟩ := h
  refine ⟨?_, by simp [wireOf], ?_⟩
  · intro w hw'
    simp only [List.mem_cons] at hw'
    rcases hw' with rfl | hw'
    · exact hw
    · exact h1 w hw'
  · simp only [List.map_cons, applyAll, ha, h3]

/-- `s` has become `s'` by reading the representations `ws` with headers `hs`. -/
structure Reads (s s' : DecoderState) (ws : List (Rep × Octets)) (hs : List Field) : Prop where
  block : ∃ used, s.buf = used ++ s'.buf ∧ Block lenientPads s.maxDynamicSize.toNat s.table.spec used ws hs s'.table.spec
  dst : s'.dst = s.dst ++ hs
  wf : s'.table.WF
  speed : s'.speed = s.speed
  limit : s'.maxDynamicSize = s.maxDynamicSize

theorem Reads.refl {s : DecoderState} (h : s.table.WF) : Reads s s [] [] :=
  ⟨⟨[], by simp, block_nil _ _⟩, by simp, h, rfl, rfl⟩

/-- The reason why decoding stopped at a state. -/
inductive Stop (s : DecoderState) : Res DecoderError Nat → Prop where
  | err (e : DecoderError) (hne : s.buf ≠ []) (h : decodeOne s = (.err e, s))
      (hno : ∀ rep bs rest, s.buf = bs ++ rest → RepWire lenientPads 5 rep bs →
        rep.apply s.maxDynamicSize.toNat s.table.spec = none)
      (hc : ¬ RepCut lenientPads s.table.spec s.buf) : Stop s (.err e)
  | panic (hne : s.buf ≠ []) (h : decodeOne s = (.panic, s))
      (hno : ∀ rep bs rest, s.buf = bs ++ rest → RepWire lenientPads 5 rep bs →
        rep.apply s.maxDynamicSize.toNat s.table.spec = none)
      (hc : RepCut lenientPads s.table.spec s.buf) : Stop s .panic

theorem RepWire.pos {pads : List (List Bool)} {lim : Nat} {rep : Rep} {bs : Bytes}
    (h : RepWire pads lim rep bs) : 1 ≤ bs.length := by
  obtain ⟨_, _, h⟩ := h
  exact RepWireAs.pos h

theorem headerOctets_cons (rep : Rep) (bs : Bytes) (ws : List (Rep × Octets)) :
    (headerOctets ((rep, bs) :: ws)).length = (if rep.isHeader then bs.length else 0) + (headerOctets ws).length := by
  simp only [headerOctets, List.filter_cons]
  split <;> simp

/-- One successful step followed by more. -/
theorem Reads.step {s s' : DecoderState} {rep : Rep} {bs rest : Bytes} {hdr : Option Field} {t' : Table}
    {ws : List (Rep × Octets)} {hs : List Field}
    (hb : s.buf = bs ++ rest) (hw : RepWire lenientPads 5 rep bs)
    (ha : rep.apply s.maxDynamicSize.toNat s.table.spec = some (hdr, t'.spec))
    (h : Reads { s with dst := s.dst ++ hdr.toList, buf := rest, table := t' } s' ws hs) :
    Reads s s' ((rep, bs) :: ws) (hdr.toList ++ hs) := by
  obtain ⟨⟨used, h1, h2⟩, h3, h4, h5, h6⟩ := h
  refine ⟨⟨bs ++ used, ?_, block_cons hw ha h2⟩, by rw [h3]; simp, h4, h5, h6⟩
  rw [hb, List.append_assoc]; simpa using h1

/-- `decode`: reads representations until the buffer is empty or it must stop. -/
theorem decodeLoop_spec (fuel total : Nat) (s : DecoderState) (hwf : s.table.WF) (hf : s.buf.length ≤ fuel) :
    ∃ s' ws hs r, decodeLoop fuel total s = (r, s') ∧ Reads s s' ws hs ∧
      ((r = .ok (total + (headerOctets ws).length) ∧ s'.buf = []) ∨ Stop s' r) := by
  induction fuel generalizing total s with
  | zero =>
    have : s.buf = [] := List.eq_nil_of_length_eq_zero (by omega)
    refine ⟨s, [], [], .ok total, ?_, Reads.refl hwf, Or.inl ⟨rfl, this⟩⟩
    unfold decodeLoop
    simp [this]
  | succ fuel ih =>
    by_cases hne : s.buf = []
    · refine ⟨s, [], [], .ok total, ?_, Reads.refl hwf, Or.inl ⟨rfl, hne⟩⟩
      unfold decodeLoop
      simp [hne]
    · unfold decodeLoop
      have hemp : s.buf.isEmpty = false := by simpa using hne
      have hex : ∀ r s1, decodeOne { s with dst := [] } = (r, s1) →
          decodeExact 1 { s with dst := [] } = (r, s1) := by
        intro r s1 h
        simp only [decodeExact, decodeExactLoop, M.bind_apply, M.get_apply, M.ite_apply, hemp, h]
        cases r <;> simp
      rcases decodeOne_frame hwf hne with ⟨rep, bs, rest, hdr, t', hb, hw, ha, hwf', h⟩ | ⟨hno, ⟨e, he, hc⟩ | ⟨he, hc⟩⟩
      · simp only [hemp, hex _ _ (h []), Bool.false_eq_true, if_false, List.nil_append]
        have hpos := RepWire.pos hw
        have hl : rest.length ≤ fuel := by
          rw [hb, List.length_append] at hf; omega
        obtain ⟨s', ws, hs, r, h1, h2, h3⟩ := ih (total + (if rep.isHeader then bs.length else 0))
          { s with dst := s.dst ++ hdr.toList, buf := rest, table := t' } hwf' hl
        refine ⟨s', (rep, bs) :: ws, hdr.toList ++ hs, r, h1, Reads.step hb hw ha h2, ?_⟩
        rcases h3 with ⟨rfl, h3⟩ | h3
        · left
          refine ⟨?_, h3⟩
          rw [headerOctets_cons]; congr 1; omega
        · exact Or.inr h3
      · simp only [hemp, hex _ _ (he []), Bool.false_eq_true, if_false]
        exact ⟨s, [], [], _, rfl, Reads.refl hwf, Or.inr (.err e hne (he s.dst) hno hc)⟩
      · simp only [hemp, hex _ _ (he []), Bool.false_eq_true, if_false]
        exact ⟨s, [], [], _, rfl, Reads.refl hwf, Or.inr (.panic hne (he s.dst) hno hc)⟩

theorem decode_spec (s : DecoderState) (hwf : s.table.WF) :
    ∃ s' ws hs r, decode s = (r, s') ∧ Reads s s' ws hs ∧
      ((r = .ok (headerOctets ws).length ∧ s'.buf = []) ∨ Stop s' r) := by
  obtain ⟨s', ws, hs, r, h1, h2, h3⟩ := decodeLoop_spec s.buf.length 0 s hwf (Nat.le_refl _)
  refine ⟨s', ws, hs, r, h1, h2, ?_⟩
  simpa using h3

/-- `decode_exact`: the same, with at most `capacity` representations. -/
theorem decodeExactLoop_spec (limit total : Nat) (s : DecoderState) (hwf : s.table.WF) :
    ∃ s' ws hs r, decodeExactLoop limit total s = (r, s') ∧ Reads s s' ws hs ∧
      ((r = .ok (total + (headerOctets ws).length) ∧ (s'.buf = [] ∧ ws.length ≤ limit ∨ ws.length = limit)) ∨
        (Stop s' r ∧ ws.length < limit)) := by
  induction limit generalizing total s with
  | zero => exact ⟨s, [], [], _, rfl, Reads.refl hwf, Or.inl ⟨rfl, Or.inr rfl⟩⟩
  | succ limit ih =>
    by_cases hne : s.buf = []
    · refine ⟨s, [], [], .ok total, ?_, Reads.refl hwf, Or.inl ⟨rfl, Or.inl ⟨hne, by simp⟩⟩⟩
      simp [decodeExactLoop, M.bind_apply, hne]
    · have hemp : s.buf.isEmpty = false := by simpa using hne
      rcases decodeOne_frame hwf hne with ⟨rep, bs, rest, hdr, t', hb, hw, ha, hwf', h⟩ | ⟨hno, ⟨e, he, hc⟩ | ⟨he, hc⟩⟩
      · obtain ⟨s', ws, hs, r, h1, h2, h3⟩ := ih (total + (if rep.isHeader then bs.length else 0))
          { s with dst := s.dst ++ hdr.toList, buf := rest, table := t' } hwf'
        refine ⟨s', (rep, bs) :: ws, hdr.toList ++ hs, r, ?_, Reads.step hb hw ha h2, ?_⟩
        · have hd := h s.dst
          simp only [decodeExactLoop, M.bind_apply, M.get_apply, M.ite_apply, hemp]
          rw [show ({ s with dst := s.dst } : DecoderState) = s from rfl] at hd
          rw [hd]
          simpa using h1
        · rcases h3 with ⟨rfl, h3⟩ | ⟨h3, h4⟩
          · left
            refine ⟨by rw [headerOctets_cons]; congr 1; omega, ?_⟩
            rcases h3 with ⟨h3, h4⟩ | h3
            · exact Or.inl ⟨h3, by simpa using h4⟩
            · exact Or.inr (by simpa using h3)
          · exact Or.inr ⟨h3, by simpa using h4⟩
      · refine ⟨s, [], [], .err e, ?_, Reads.refl hwf, Or.inr ⟨.err e hne (he s.dst) hno hc, by simp⟩⟩
        have hd : decodeOne s = (.err e, s) := he s.dst
        simp [decodeExactLoop, M.bind_apply, hne, hd]
      · refine ⟨s, [], [], .panic, ?_, Reads.refl hwf, Or.inr ⟨.panic hne (he s.dst) hno hc, by simp⟩⟩
        have hd : decodeOne s = (.panic, s) := he s.dst
        simp [decodeExactLoop, M.bind_apply, hne, hd]

/-- Completeness for blocks: octets of meaningful representations are read, whatever follows. -/
theorem block_steps {limit : Nat} {t t2 : SpecTable} {used : Bytes} {ws : List (Rep × Octets)} {hs : List Field}
    (h : Block lenientPads limit t used ws hs t2) : ∀ (s : DecoderState) (fuel total : Nat) (rest : Bytes),
    s.table.WF → s.table.spec = t → s.maxDynamicSize.toNat = limit → s.buf = used ++ rest → s.buf.length ≤ fuel →
    ∃ t', t'.WF ∧ t'.spec = t2 ∧ ∃ fuel', rest.length ≤ fuel' ∧
      decodeLoop fuel total s =
        decodeLoop fuel' (total + (headerOctets ws).length) { s with buf := rest, dst := s.dst ++ hs, table := t' } := by
  induction ws generalizing t used hs with
  | nil =>
    obtain ⟨_, rfl, h3⟩ := h
    simp only [List.map_nil, applyAll, Option.some.injEq, Prod.mk.injEq] at h3
    obtain ⟨rfl, rfl⟩ := h3
    intro s fuel total rest hwf ht hl hb hf
    refine ⟨s.table, hwf, ht, fuel, by rw [hb] at hf; simpa [wireOf] using hf, ?_⟩
    simp only [wireOf, List.flatMap_nil, List.nil_append] at hb
    rw [← hb]
    simp [headerOctets]
  | cons w ws ih =>
    obtain ⟨rep, bs⟩ := w
    obtain ⟨h1, rfl, h3⟩ := h
    simp only [List.map_cons, applyAll] at h3
    intro s fuel total rest hwf ht hl hb hf
    cases ha : rep.apply limit t with
    | none => simp [ha] at h3
    | some p =>
      obtain ⟨hdr, t1⟩ := p
      simp only [ha] at h3
      cases hr : applyAll limit t1 (ws.map (·.1)) with
      | none => simp [hr] at h3
      | some q =>
        obtain ⟨hs', t2'⟩ := q
        simp only [hr, Option.some.injEq, Prod.mk.injEq] at h3
        obtain ⟨rfl, rfl⟩ := h3
        have hw : RepWire lenientPads 5 rep bs := h1 (rep, bs) (by simp)
        have hb2 : s.buf = bs ++ (wireOf ws ++ rest) := by rw [hb]; simp [wireOf]
        have hone := decodeOne_wire (s := { s with dst := [] }) hwf hb2 hw
        simp only [hl, ht, ha] at hone
        obtain ⟨tt, hwf', hsp, hone⟩ := hone
        have hpos := RepWire.pos hw
        obtain ⟨fuel, rfl⟩ : ∃ g, fuel = g + 1 := ⟨fuel - 1, by
          rw [hb2] at hf; simp at hf; omega⟩
        have hemp : s.buf.isEmpty = false := by
          rw [hb2]
          cases bs with
          | nil => simp at hpos
          | cons => rfl
        have hex : decodeExact 1 { s with dst := [] } = decodeOne { s with dst := [] } := by
          rw [hone]
          simp only [decodeExact, decodeExactLoop, M.bind_apply, M.get_apply, M.ite_apply, hemp, hone]
          simp
        obtain ⟨t', hwf2, hsp2, fuel', hf', hrun⟩ := ih ⟨fun w hw => h1 w (by simp [hw]), rfl, hr⟩
          { s with buf := wireOf ws ++ rest, dst := s.dst ++ hdr.toList, table := tt } fuel
          (total + (if rep.isHeader then bs.length else 0)) rest hwf' hsp hl rfl
          (by
            rw [hb2, List.length_append] at hf
            simp only
            omega)
        refine ⟨t', hwf2, hsp2, fuel', hf', ?_⟩
        rw [decodeLoop]
        simp only [hemp, Bool.false_eq_true, if_false, hex, hone, DecoderState.step, List.nil_append]
        rw [hrun, headerOctets_cons]
        simp only [List.append_assoc, Nat.add_assoc]

/-- The same for `decode_exact`, with room for all the representations. -/
theorem block_steps_exact {limit : Nat} {t t2 : SpecTable} {used : Bytes} {ws : List (Rep × Octets)} {hs : List Field}
    (h : Block lenientPads limit t used ws hs t2) : ∀ (s : DecoderState) (cap total : Nat) (rest : Bytes),
    s.table.WF → s.table.spec = t → s.maxDynamicSize.toNat = limit → s.buf = used ++ rest → ws.length ≤ cap →
    ∃ t', t'.WF ∧ t'.spec = t2 ∧
      decodeExactLoop cap total s =
        decodeExactLoop (cap - ws.length) (total + (headerOctets ws).length)
          { s with buf := rest, dst := s.dst ++ hs, table := t' } := by
  induction ws generalizing t used hs with
  | nil =>
    obtain ⟨_, rfl, h3⟩ := h
    simp only [List.map_nil, applyAll, Option.some.injEq, Prod.mk.injEq] at h3
    obtain ⟨rfl, rfl⟩ := h3
    intro s cap total rest hwf ht hl hb hf
    refine ⟨s.table, hwf, ht, ?_⟩
    simp only [wireOf, List.flatMap_nil, List.nil_append] at hb
    rw [← hb]
    simp [headerOctets]
  | cons w ws ih =>
    obtain ⟨rep, bs⟩ := w
    obtain ⟨h1, rfl, h3⟩ := h
    simp only [List.map_cons, applyAll] at h3
    intro s cap total rest hwf ht hl hb hf
    cases ha : rep.apply limit t with
    | none => simp [ha] at h3
    | some p =>
      obtain ⟨hdr, t1⟩ := p
      simp only [ha] at h3
      cases hr : applyAll limit t1 (ws.map (·.1)) with
      | none => simp [hr] at h3
      | some q =>
        obtain ⟨hs', t2'⟩ := q
        simp only [hr, Option.some.injEq, Prod.mk.injEq] at h3
        obtain ⟨rfl, rfl⟩ := h3
        have hw : RepWire lenientPads 5 rep bs := h1 (rep, bs) (by simp)
        have hb2 : s.buf = bs ++ (wireOf ws ++ rest) := by rw [hb]; simp [wireOf]
        have hone := decodeOne_wire (s := s) hwf hb2 hw
        simp only [hl, ht, ha] at hone
        obtain ⟨tt, hwf', hsp, hone⟩ := hone
        have hpos := RepWire.pos hw
        obtain ⟨cap, rfl⟩ : ∃ g, cap = g + 1 := ⟨cap - 1, by simp at hf; omega⟩
        have hemp : s.buf.isEmpty = false := by
          rw [hb2]
          cases bs with
          | nil => simp at hpos
          | cons => rfl
        obtain ⟨t', hwf2, hsp2, hrun⟩ := ih ⟨fun w hw => h1 w (by simp [hw]), rfl, hr⟩
          { s with buf := wireOf ws ++ rest, dst := s.dst ++ hdr.toList, table := tt } cap
          (total + (if rep.isHeader then bs.length else 0)) rest hwf' hsp hl rfl (by simpa using hf)
        refine ⟨t', hwf2, hsp2, ?_⟩
        simp only [decodeExactLoop, M.bind_apply, M.get_apply, M.ite_apply, hemp, hone]
        simp only [Bool.false_eq_true, if_false, DecoderState.step]
        rw [hrun, headerOctets_cons]
        simp only [List.append_assoc, Nat.add_assoc, List.length_cons, Nat.add_sub_add_right]

/-- A step that fails makes `decode` fail at once. -/
theorem decodeLoop_fail {s : DecoderState} (hwf : s.table.WF) (hne : s.buf ≠ []) {fuel total : Nat}
    (hf : s.buf.length ≤ fuel) {r : Res DecoderError Nat} (h : decodeOne s = (r, s)) (hr : ∀ n, r ≠ .ok n) :
    decodeLoop fuel total s = (r, s) := by
  have hpos := List.length_pos_iff.mpr hne
  obtain ⟨fuel, rfl⟩ : ∃ g, fuel = g + 1 := ⟨fuel - 1, by omega⟩
  have hemp : s.buf.isEmpty = false := by simpa using hne
  rw [decodeLoop]
  rcases decodeOne_frame hwf hne with ⟨rep, bs, rest, hdr, t', hb, hw, ha, hwf', h'⟩ | ⟨hno, ⟨e, he, hc⟩ | ⟨he, hc⟩⟩
  · have := (h' s.dst).symm.trans h
    exact absurd (congrArg Prod.fst this).symm (hr _)
  · have := (he s.dst).symm.trans h
    have hre : r = .err e := (congrArg Prod.fst this).symm
    subst hre
    have hex : decodeExact 1 { s with dst := [] } = (.err e, { s with dst := [] }) := by
      simp only [decodeExact, decodeExactLoop, M.bind_apply, M.get_apply, M.ite_apply, hemp, he []]
      simp
    simp only [hemp, Bool.false_eq_true, if_false, hex]
  · have := (he s.dst).symm.trans h
    have hre : r = .panic := (congrArg Prod.fst this).symm
    subst hre
    have hex : decodeExact 1 { s with dst := [] } = (.panic, { s with dst := [] }) := by
      simp only [decodeExact, decodeExactLoop, M.bind_apply, M.get_apply, M.ite_apply, hemp, he []]
      simp
    simp only [hemp, Bool.false_eq_true, if_false, hex]

theorem decode_fail {s : DecoderState} (hwf : s.table.WF) (hne : s.buf ≠ []) {r : Res DecoderError Nat}
    (h : decodeOne s = (r, s)) (hr : ∀ n, r ≠ .ok n) : decode s = (r, s) :=
  decodeLoop_fail hwf hne (Nat.le_refl _) h hr

theorem decodeExact_fail {s : DecoderState} (hne : s.buf ≠ []) {cap total : Nat} (hc : 0 < cap)
    {r : Res DecoderError Nat} (h : decodeOne s = (r, s)) (hr : ∀ n, r ≠ .ok n) :
    decodeExactLoop cap total s = (r, s) := by
  obtain ⟨cap, rfl⟩ : ∃ g, cap = g + 1 := ⟨cap - 1, by omega⟩
  have hemp : s.buf.isEmpty = false := by simpa using hne
  simp only [decodeExactLoop, M.bind_apply, M.get_apply, M.ite_apply, hemp, h]
  cases r with
  | ok n => exact absurd rfl (hr n)
  | err e => simp
  | panic => simp
  | hang => simp

theorem decodeLoop_nil {s : DecoderState} (fuel total : Nat) (h : s.buf = []) :
    decodeLoop fuel total s = (.ok total, s) := by
  unfold decodeLoop; simp [h]

theorem decodeExactLoop_nil {s : DecoderState} (cap total : Nat) (h : s.buf = []) :
    decodeExactLoop cap total s = (.ok total, s) := by
  cases cap with
  | zero => rfl
  | succ cap => simp [decodeExactLoop, M.bind_apply, h]

/-- Completeness of `decode` on a block. -/
theorem decode_block {s : DecoderState} (hwf : s.table.WF) {ws : List (Rep × Octets)} {hs : List Field} {t2 : SpecTable}
    (h : Block lenientPads s.maxDynamicSize.toNat s.table.spec s.buf ws hs t2) :
    ∃ t', t'.WF ∧ t'.spec = t2 ∧
      decode s = (.ok (headerOctets ws).length, { s with buf := [], dst := s.dst ++ hs, table := t' }) := by
  obtain ⟨t', h1, h2, fuel', _, h3⟩ := block_steps h s s.buf.length 0 [] hwf rfl rfl (by simp) (Nat.le_refl _)
  refine ⟨t', h1, h2, ?_⟩
  rw [decode, h3, decodeLoop_nil _ _ rfl]
  simp

theorem applyAll_append (limit : Nat) (t : SpecTable) (a b : List Rep) :
    applyAll limit t (a ++ b) = match applyAll limit t a with
      | none => none
      | some (hs, t') => match applyAll limit t' b with
        | none => none
        | some (hs', t'') => some (hs ++ hs', t'') := by
  induction a generalizing t with
  | nil =>
    simp only [List.nil_append, applyAll]
    cases applyAll limit t b <;> rfl
  | cons r a ih =>
    simp only [List.cons_append, applyAll]
    cases r.apply limit t with
    | none => rfl
    | some p =>
      obtain ⟨h, t1⟩ := p
      simp only [ih]
      cases applyAll limit t1 a with
      | none => rfl
      | some q =>
        obtain ⟨hs, t2⟩ := q
        simp only
        cases applyAll limit t2 b with
        | none => rfl
        | some q' => simp

/-- The fuel and the running count of the loop of `decode` do not matter. -/
theorem decodeLoop_shift : ∀ (fuel fuel' total total' : Nat) (x : DecoderState), x.table.WF → x.buf.length ≤ fuel → x.buf.length ≤ fuel' →
    (decodeLoop fuel (total + total') x).2 = (decodeLoop fuel' total' x).2 ∧
    (decodeLoop fuel (total + total') x).1 = (match (decodeLoop fuel' total' x).1 with | .ok k => .ok (total + k) | r => r) := by
  intro fuel
  induction fuel with
  | zero =>
    intro fuel' total total' x _ hf _
    have : x.buf = [] := List.eq_nil_of_length_eq_zero (by omega)
    rw [decodeLoop_nil _ _ this, decodeLoop_nil _ _ this]
    simp
  | succ fuel ih =>
    intro fuel' total total' x hx hf hf'
    by_cases hne : x.buf = []
    · rw [decodeLoop_nil _ _ hne, decodeLoop_nil _ _ hne]; simp
    · rcases decodeOne_frame hx hne with ⟨rep, bs, rest, hdr, t', hb, hw, ha, hwf', h'⟩ | ⟨hno, ⟨e, he, hc⟩ | ⟨he, hc⟩⟩
      · have hpos := RepWire.pos hw
        have hbl : x.buf.length = bs.length + rest.length := by rw [hb, List.length_append]
        obtain ⟨g, rfl⟩ : ∃ g, fuel' = g + 1 := ⟨fuel' - 1, by omega⟩
        have hemp : x.buf.isEmpty = false := by simpa using hne
        have hex : decodeExact 1 { x with dst := [] } = decodeOne { x with dst := [] } := by
          rw [h' []]
          simp only [decodeExact, decodeExactLoop, M.bind_apply, M.get_apply, M.ite_apply, hemp, h' []]
          simp
        rw [decodeLoop, decodeLoop]
        simp only [hemp, Bool.false_eq_true, if_false, hex, h' []]
        have := ih g total (total' + if rep.isHeader then bs.length else 0) { x with buf := rest, dst := x.dst ++ hdr.toList, table := t' } hwf'
          (by simp only; omega) (by simp only; omega)
        simpa only [Nat.add_assoc, List.nil_append] using this
      · rw [decodeLoop_fail hx hne hf (he x.dst) (by simp), decodeLoop_fail hx hne hf' (he x.dst) (by simp)]
        simp
      · rw [decodeLoop_fail hx hne hf (he x.dst) (by simp), decodeLoop_fail hx hne hf' (he x.dst) (by simp)]
        simp

end Verif.Hpack
