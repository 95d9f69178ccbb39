import Verif.Props.HpackErrors
/-! Property theorem C120: the complete description of `Decoder::decode` for HPACK, and unique reading of the format. -/
namespace Verif.Props
open Verif Verif.Spec Verif.Hpack

/-- How decoding ends at the octets `rest`, with the table `t`, after header representations of `k` octets: it is complete, or `rest`
starts with a defective representation, or `rest` ends inside (or just before) an integer of its first representation. -/
inductive BlockEnd (limit : Nat) (t : SpecTable) (k : Nat) : Octets → Res DecoderError Nat → Prop where
  | complete : BlockEnd limit t k [] (.ok k)
  | defect {rest : Octets} {e : DecoderError} (h : RepDefect lenientPads limit t rest e) : BlockEnd limit t k rest (.err e)
  | cut {rest : Octets} (h : RepCut lenientPads t rest) : BlockEnd limit t k rest .panic

theorem RepCut.ne_nil {pads : List (List Bool)} {t : SpecTable} {rest : Bytes} (hc : RepCut pads t rest) : rest ≠ [] := by
  rintro rfl
  rcases hc with ⟨b0, tl, h, _⟩ | ⟨m, i, b1, r, _, _, hw, _, h⟩ | ⟨m, b1, r, hw, _, h⟩ | ⟨m, n, b1, b2, r, hw, _, _, h⟩
  · simp at h
  · have := hw.1.pos; simp at h; rw [h.1] at this; simp at this
  · have := hw.1.pos; simp at h; rw [h.1] at this; simp at this
  · have := hw.1.pos; simp at h; rw [h.1] at this; simp at this

/-- C120. The verdict on any octets: `decode` ends with the answer `r` in the state `s'` if and only if the octets are representations
`ws` that mean the headers `hs` and the new table, followed by what is left in the buffer, where decoding ends as described. -/
theorem C120_verdict (s s' : DecoderState) (hwf : s.table.WF) (r : Res DecoderError Nat) :
    decode s = (r, s') ↔
      ∃ used ws hs, s.buf = used ++ s'.buf ∧ Block lenientPads s.maxDynamicSize.toNat s.table.spec used ws hs s'.table.spec ∧
        s'.dst = s.dst ++ hs ∧ s'.table.WF ∧ s'.speed = s.speed ∧ s'.maxDynamicSize = s.maxDynamicSize ∧
        BlockEnd s.maxDynamicSize.toNat s'.table.spec (headerOctets ws).length s'.buf r := by
  constructor
  · intro h
    obtain ⟨s1, ws, hs, r1, h1, ⟨⟨used, hb, hblk⟩, h3, h4, h5, h6⟩, h2⟩ := decode_spec s hwf
    rw [h] at h1
    simp only [Prod.mk.injEq] at h1
    obtain ⟨rfl, rfl⟩ := h1
    refine ⟨used, ws, hs, hb, hblk, h3, h4, h5, h6, ?_⟩
    rcases h2 with ⟨rfl, h8⟩ | h2
    · rw [h8]; exact .complete
    · cases h2 with
      | err e hne hd hno hc =>
        have := decodeOne_err h4 hne hd
        rw [h6] at this
        exact .defect this
      | panic hne hd hno hc => exact .cut hc
  · rintro ⟨used, ws, hs, hb, hblk, h3, h4, h5, h6, hend⟩
    obtain ⟨t1, w1, w2, fuel', hf', hrun⟩ := block_steps hblk s s.buf.length 0 s'.buf hwf rfl rfl hb (Nat.le_refl _)
    obtain rfl : t1 = s'.table := Table.WF.ext w1 h4 w2
    have hst : ({ s with buf := s'.buf, dst := s.dst ++ hs, table := s'.table } : DecoderState) = s' := by
      obtain ⟨sp1, m1, t1, buf1, d1⟩ := s'
      simp only at h3 h5 h6 ⊢
      rw [h3, h5, h6]
    rw [hst, Nat.zero_add] at hrun
    rw [decode, hrun]
    generalize hk : (headerOctets ws).length = k at hend ⊢
    generalize hbuf : s'.buf = rest at hend
    cases hend with
    | complete => exact decodeLoop_nil _ _ hbuf
    | defect h =>
      rw [← hbuf] at h
      exact decodeLoop_fail h4 (RepDefect.ne_nil h) hf' (decodeOne_defect h4 (by rw [h6]; exact h)) (by simp)
    | cut h =>
      rw [← hbuf] at h
      exact decodeLoop_fail h4 (RepCut.ne_nil h) hf' (decodeOne_cut h4 h) (by simp)

example : ∃ used ws hs, [0x82, 0xbf] = used ++ (decode { DecoderState.default with buf := [0x82, 0xbf] }).2.buf ∧
    Block lenientPads 4096 DecoderState.default.table.spec used ws hs (decode { DecoderState.default with buf := [0x82, 0xbf] }).2.table.spec := by
  obtain ⟨used, ws, hs, h1, h2, _⟩ := (C120_verdict { DecoderState.default with buf := [0x82, 0xbf] } _ (Table.withDynamicSize_WF 4096)
    (.err .InvalidIndex)).mp (Prod.ext (by decide +kernel) rfl)
  exact ⟨used, ws, hs, h1, h2⟩

/-- How `decode_exact` ends after `n` representations with room for `cap`: the input or the room is used up, or there is room and the
next representation is defective or cut. -/
inductive ExactEnd (limit : Nat) (t : SpecTable) (k n cap : Nat) : Octets → Res DecoderError Nat → Prop where
  | complete (h : n ≤ cap) : ExactEnd limit t k n cap [] (.ok k)
  | full {rest : Octets} (h : n = cap) : ExactEnd limit t k n cap rest (.ok k)
  | defect {rest : Octets} {e : DecoderError} (h : n < cap) (h : RepDefect lenientPads limit t rest e) : ExactEnd limit t k n cap rest (.err e)
  | cut {rest : Octets} (h : n < cap) (h : RepCut lenientPads t rest) : ExactEnd limit t k n cap rest .panic

/-- C120. The same for `decode_exact` and a vector with room for `cap` headers. -/
theorem C120_exact_verdict (s s' : DecoderState) (hwf : s.table.WF) (cap : Nat) (r : Res DecoderError Nat) :
    decodeExact cap s = (r, s') ↔
      ∃ used ws hs, s.buf = used ++ s'.buf ∧ Block lenientPads s.maxDynamicSize.toNat s.table.spec used ws hs s'.table.spec ∧
        s'.dst = s.dst ++ hs ∧ s'.table.WF ∧ s'.speed = s.speed ∧ s'.maxDynamicSize = s.maxDynamicSize ∧
        ExactEnd s.maxDynamicSize.toNat s'.table.spec (headerOctets ws).length ws.length cap s'.buf r := by
  constructor
  · intro h
    obtain ⟨s1, ws, hs, r1, h1, ⟨⟨used, hb, hblk⟩, h3, h4, h5, h6⟩, h2⟩ := decodeExactLoop_spec cap 0 s hwf
    rw [decodeExact, h1] at h
    simp only [Prod.mk.injEq] at h
    obtain ⟨rfl, rfl⟩ := h
    refine ⟨used, ws, hs, hb, hblk, h3, h4, h5, h6, ?_⟩
    rw [Nat.zero_add] at h2
    rcases h2 with ⟨rfl, ⟨h8, h9⟩ | h8⟩ | ⟨h2, hlt⟩
    · rw [h8]; exact .complete h9
    · exact .full h8
    · cases h2 with
      | err e hne hd hno hc =>
        have := decodeOne_err h4 hne hd
        rw [h6] at this
        exact .defect hlt this
      | panic hne hd hno hc => exact .cut hlt hc
  · rintro ⟨used, ws, hs, hb, hblk, h3, h4, h5, h6, hend⟩
    have hle : ws.length ≤ cap := by
      revert hend
      generalize s'.buf = rest
      intro hend
      cases hend <;> omega
    obtain ⟨t1, w1, w2, hrun⟩ := block_steps_exact hblk s cap 0 s'.buf hwf rfl rfl hb hle
    obtain rfl : t1 = s'.table := Table.WF.ext w1 h4 w2
    have hst : ({ s with buf := s'.buf, dst := s.dst ++ hs, table := s'.table } : DecoderState) = s' := by
      obtain ⟨sp1, m1, t1, buf1, d1⟩ := s'
      simp only at h3 h5 h6 ⊢
      rw [h3, h5, h6]
    rw [hst, Nat.zero_add] at hrun
    rw [decodeExact, hrun]
    generalize hk : (headerOctets ws).length = k at hend ⊢
    generalize hbuf : s'.buf = rest at hend
    cases hend with
    | complete h => exact decodeExactLoop_nil _ _ hbuf
    | full h => rw [h, Nat.sub_self]; rfl
    | defect hlt h =>
      rw [← hbuf] at h
      exact exactLoop_fail (RepDefect.ne_nil h) (by omega) (decodeOne_defect h4 (by rw [h6]; exact h)) (by simp)
    | cut hlt h =>
      rw [← hbuf] at h
      exact exactLoop_fail (RepCut.ne_nil h) (by omega) (decodeOne_cut h4 h) (by simp)

example : ∃ used ws hs, [0x82, 0x84] = used ++ (decodeExact 1 { DecoderState.default with buf := [0x82, 0x84] }).2.buf ∧
    Block lenientPads 4096 DecoderState.default.table.spec used ws hs (decodeExact 1 { DecoderState.default with buf := [0x82, 0x84] }).2.table.spec := by
  obtain ⟨used, ws, hs, h1, h2, _⟩ := (C120_exact_verdict { DecoderState.default with buf := [0x82, 0x84] } _ (Table.withDynamicSize_WF 4096)
    1 (.ok 1)).mp (Prod.ext (by decide +kernel) rfl)
  exact ⟨used, ws, hs, h1, h2⟩

/-- The kinds of representation are told apart by their first octet. -/
theorem int_first {lim n hi v : Nat} {bs : Bytes} (hhi : hi % 2 ^ n = 0) (hhl : hi + 2 ^ n ≤ 256) (h : IntWireLim lim n hi v bs) :
    ∃ b0 tl, bs = b0 :: tl ∧ hi ≤ b0.toNat ∧ b0.toNat < hi + 2 ^ n := by
  have hp := Nat.two_pow_pos n
  rcases h.1 with ⟨hv, rfl⟩ | ⟨cs, _, _, rfl⟩
  · refine ⟨_, _, rfl, ?_⟩
    rw [UInt8.toNat_ofNat_of_lt' (by simp [UInt8.size]; omega)]
    omega
  · refine ⟨_, _, rfl, ?_⟩
    rw [UInt8.toNat_ofNat_of_lt' (by simp [UInt8.size]; omega)]
    omega

theorem int_unique {n hi v v' : Nat} {bs bs' r r' : Bytes} (h1 : 1 ≤ n) (h8 : n ≤ 8) (hhi : hi % 2 ^ n = 0) (hhl : hi < 256)
    (h : IntWireLim 5 n hi v bs) (h' : IntWireLim 5 n hi v' bs') (e : bs ++ r = bs' ++ r') : v = v' ∧ bs = bs' ∧ r = r' := by
  have a := decodeInteger_complete r h1 h8 hhi hhl h
  have b := decodeInteger_complete r' h1 h8 hhi hhl h'
  rw [e, b] at a
  simp only [Res.ok.injEq, Prod.mk.injEq] at a
  obtain ⟨e1, e2⟩ := List.append_inj e a.2.symm
  exact ⟨a.1.symm, e1, e2⟩

theorem str_unique {huff huff' : Bool} {v v' : Bytes} {bs bs' r r' : Bytes}
    (h : StrWireAs lenientPads 5 huff v bs) (h' : StrWireAs lenientPads 5 huff' v' bs') (e : bs ++ r = bs' ++ r') :
    v = v' ∧ bs = bs' ∧ r = r' := by
  have a := decodeString_complete r .OneBit h
  have b := decodeString_complete r' .OneBit h'
  rw [e, b] at a
  simp only [Res.ok.injEq, Prod.mk.injEq] at a
  obtain ⟨e1, e2⟩ := List.append_inj e a.2.symm
  exact ⟨a.1.symm, e1, e2⟩

/-- The first octets of the five kinds of representation. -/
def firstRange : Rep → Nat × Nat
  | .indexed _ => (128, 256)
  | .literal .incremental _ _ => (64, 128)
  | .sizeUpdate _ => (32, 64)
  | .literal .never _ _ => (16, 32)
  | .literal .without _ _ => (0, 16)

theorem rep_first {rep : Rep} {bs : Bytes} (h : RepWire lenientPads 5 rep bs) :
    ∃ b0 tl, bs = b0 :: tl ∧ (firstRange rep).1 ≤ b0.toNat ∧ b0.toNat < (firstRange rep).2 := by
  obtain ⟨hn, hv, h⟩ := h
  cases rep with
  | indexed i => exact int_first (by decide) (by decide) h
  | sizeUpdate n => exact int_first (by decide) (by decide) h
  | literal m nm v =>
    have key : ∀ (i : Nat) (b1 : Bytes), IntWireLim 5 m.bits m.pattern i b1 → ∀ b2 : Bytes, ∃ b0 tl, b1 ++ b2 = b0 :: tl ∧
        (firstRange (.literal m nm v)).1 ≤ b0.toNat ∧ b0.toNat < (firstRange (.literal m nm v)).2 := by
      intro i b1 hw b2
      cases m <;> (obtain ⟨b0, tl, rfl, h1, h2⟩ := int_first (by decide) (by decide) hw; exact ⟨b0, tl ++ b2, rfl, h1, h2⟩)
    cases nm with
    | index i => obtain ⟨_, b1, b2, hw, _, rfl⟩ := h; exact key i b1 hw b2
    | new n => obtain ⟨b1, b2, b3, hw, _, _, rfl⟩ := h; exact key 0 b1 hw _

/-- C120. Unique reading of the format: octets start with at most one representation. -/
theorem C120_unique_reading (rep rep' : Rep) (bs bs' r r' : Bytes) (h : RepWire lenientPads 5 rep bs) (h' : RepWire lenientPads 5 rep' bs')
    (e : bs ++ r = bs' ++ r') : rep = rep' ∧ bs = bs' ∧ r = r' := by
  obtain ⟨b0, tl, e0, l0, u0⟩ := rep_first h
  obtain ⟨b0', tl', e0', l0', u0'⟩ := rep_first h'
  obtain rfl : b0 = b0' := by rw [e0, e0', List.cons_append, List.cons_append] at e; exact (List.cons.inj e).1
  obtain ⟨hn, hv, h⟩ := h
  obtain ⟨hn', hv', h'⟩ := h'
  have lits : ∀ (m : Indexing) (nm nm' : NameRef) (v v' : Bytes), RepWireAs lenientPads 5 hn hv (.literal m nm v) bs →
      RepWireAs lenientPads 5 hn' hv' (.literal m nm' v') bs' → nm = nm' ∧ v = v' ∧ bs = bs' ∧ r = r' := by
    intro m nm nm' v v' h h'
    have ints : ∀ {i i' : Nat} {b b' x x' : Bytes}, IntWireLim 5 m.bits m.pattern i b → IntWireLim 5 m.bits m.pattern i' b' →
        b ++ x = b' ++ x' → i = i' ∧ b = b' ∧ x = x' := by
      intro i i' b b' x x' hb hb' ex
      cases m <;> exact int_unique (by decide) (by decide) (by decide) (by decide) hb hb' ex
    cases nm with
    | index i =>
      obtain ⟨hi, b1, b2, w1, w2, rfl⟩ := h
      cases nm' with
      | index i' =>
        obtain ⟨hi', c1, c2, x1, x2, rfl⟩ := h'
        simp only [List.append_assoc] at e
        obtain ⟨rfl, rfl, e2⟩ := ints w1 x1 e
        obtain ⟨rfl, rfl, rfl⟩ := str_unique w2 x2 e2
        exact ⟨rfl, rfl, rfl, rfl⟩
      | new n' =>
        obtain ⟨c1, c2, c3, x1, x2, x3, rfl⟩ := h'
        simp only [List.append_assoc] at e
        obtain ⟨rfl, _⟩ := ints w1 x1 e
        exact absurd hi (by decide)
    | new n =>
      obtain ⟨b1, b2, b3, w1, w2, w3, rfl⟩ := h
      cases nm' with
      | index i' =>
        obtain ⟨hi', c1, c2, x1, x2, rfl⟩ := h'
        simp only [List.append_assoc] at e
        obtain ⟨rfl, _⟩ := ints w1 x1 e
        exact absurd hi' (by decide)
      | new n' =>
        obtain ⟨c1, c2, c3, x1, x2, x3, rfl⟩ := h'
        simp only [List.append_assoc] at e
        obtain ⟨_, rfl, e2⟩ := ints w1 x1 e
        obtain ⟨rfl, rfl, e3⟩ := str_unique w2 x2 e2
        obtain ⟨rfl, rfl, rfl⟩ := str_unique w3 x3 e3
        exact ⟨rfl, rfl, rfl, rfl⟩
  cases rep with
  | indexed i =>
    cases rep' with
    | indexed i' =>
      obtain ⟨rfl, rfl, rfl⟩ := int_unique (by decide) (by decide) (by decide) (by decide) h h' e
      exact ⟨rfl, rfl, rfl⟩
    | sizeUpdate n => simp only [firstRange] at l0 u0'; omega
    | literal m nm v => cases m <;> (simp only [firstRange] at l0 u0'; omega)
  | sizeUpdate n =>
    cases rep' with
    | indexed i' => simp only [firstRange] at l0' u0; omega
    | sizeUpdate n' =>
      obtain ⟨rfl, rfl, rfl⟩ := int_unique (by decide) (by decide) (by decide) (by decide) h h' e
      exact ⟨rfl, rfl, rfl⟩
    | literal m nm v => cases m <;> (simp only [firstRange] at l0 u0 l0' u0'; omega)
  | literal m nm v =>
    cases rep' with
    | indexed i' => cases m <;> (simp only [firstRange] at l0' u0; omega)
    | sizeUpdate n' => cases m <;> (simp only [firstRange] at l0 u0 l0' u0'; omega)
    | literal m' nm' v' =>
      obtain rfl : m = m' := by cases m <;> cases m' <;> first | rfl | (simp only [firstRange] at l0 u0 l0' u0'; omega)
      obtain ⟨rfl, rfl, rfl, rfl⟩ := lits m nm nm' v v' h h'
      exact ⟨rfl, rfl, rfl⟩

theorem wire_unique : ∀ (ws ws' : List (Rep × Octets)), (∀ w ∈ ws, RepWire lenientPads 5 w.1 w.2) →
    (∀ w ∈ ws', RepWire lenientPads 5 w.1 w.2) → wireOf ws = wireOf ws' → ws = ws' := by
  intro ws
  induction ws with
  | nil =>
    intro ws' _ h' e
    cases ws' with
    | nil => rfl
    | cons w ws' =>
      have := RepWire.pos (h' w (by simp))
      have h2 := congrArg List.length e
      simp only [wireOf, List.flatMap_cons, List.length_append, List.flatMap_nil, List.length_nil] at h2
      omega
  | cons w ws ih =>
    intro ws' h h' e
    cases ws' with
    | nil =>
      have := RepWire.pos (h w (by simp))
      have h2 := congrArg List.length e
      simp only [wireOf, List.flatMap_cons, List.length_append, List.flatMap_nil, List.length_nil] at h2
      omega
    | cons w' ws' =>
      obtain ⟨e1, e2, e3⟩ := C120_unique_reading w.1 w'.1 w.2 w'.2 (wireOf ws) (wireOf ws') (h w (by simp)) (h' w' (by simp)) e
      rw [ih ws' (fun x hx => h x (by simp [hx])) (fun x hx => h' x (by simp [hx])) e3]
      rw [show w = w' from Prod.ext e1 e2]

/-- C120. Every octet string has such a description ... -/
theorem C120_every_input (limit : Nat) (hl : limit < 2 ^ 32) (t : Table) (hwf : t.WF) (buf : Bytes) :
    ∃ used rest ws hs t' r, buf = used ++ rest ∧ Block lenientPads limit t.spec used ws hs t' ∧
      BlockEnd limit t' (headerOctets ws).length rest r := by
  let s : DecoderState := { DecoderState.default with maxDynamicSize := UInt32.ofNat limit, table := t, buf := buf }
  have hm : s.maxDynamicSize.toNat = limit := by
    show (UInt32.ofNat limit).toNat = limit
    rw [UInt32.toNat_ofNat_of_lt' (by simpa [UInt32.size] using hl)]
  obtain ⟨used, ws, hs, h1, h2, _, _, _, _, h3⟩ := (C120_verdict s (decode s).2 hwf (decode s).1).mp rfl
  rw [hm] at h2 h3
  exact ⟨used, _, ws, hs, _, _, h1, h2, h3⟩

/-- C120. ... and only one: the octets determine the representations, the headers, the table, the rest and the verdict. -/
theorem C120_one_description (limit : Nat) (hl : limit < 2 ^ 32) (t : Table) (hwf : t.WF) (buf used used' rest rest' : Bytes)
    (ws ws' : List (Rep × Octets)) (hs hs' : List Field) (t1 t1' : SpecTable) (r r' : Res DecoderError Nat)
    (h : buf = used ++ rest ∧ Block lenientPads limit t.spec used ws hs t1 ∧ BlockEnd limit t1 (headerOctets ws).length rest r)
    (h' : buf = used' ++ rest' ∧ Block lenientPads limit t.spec used' ws' hs' t1' ∧ BlockEnd limit t1' (headerOctets ws').length rest' r') :
    ws = ws' ∧ hs = hs' ∧ t1 = t1' ∧ used = used' ∧ rest = rest' ∧ r = r' := by
  let s : DecoderState := { DecoderState.default with maxDynamicSize := UInt32.ofNat limit, table := t, buf := buf, dst := [] }
  have hm : s.maxDynamicSize.toNat = limit := by
    show (UInt32.ofNat limit).toNat = limit
    rw [UInt32.toNat_ofNat_of_lt' (by simpa [UInt32.size] using hl)]
  have key : ∀ (used rest : Bytes) (ws : List (Rep × Octets)) (hs : List Field) (t1 : SpecTable) (r : Res DecoderError Nat), buf = used ++ rest →
      Block lenientPads limit t.spec used ws hs t1 → BlockEnd limit t1 (headerOctets ws).length rest r →
      ∃ T : Table, T.spec = t1 ∧ decode s = (r, { s with buf := rest, dst := hs, table := T }) := by
    intro used rest ws hs t1 r hb hblk hend
    obtain ⟨T, w1, w2, _⟩ := block_steps hblk s s.buf.length 0 rest hwf rfl hm hb (Nat.le_refl _)
    subst w2
    exact ⟨T, rfl, (C120_verdict s { s with buf := rest, dst := hs, table := T } hwf r).mpr
      ⟨used, ws, hs, hb, by rw [hm]; exact hblk, rfl, w1, rfl, rfl, by rw [hm]; exact hend⟩⟩
  obtain ⟨T, rfl, d1⟩ := key used rest ws hs t1 r h.1 h.2.1 h.2.2
  obtain ⟨T', rfl, d2⟩ := key used' rest' ws' hs' t1' r' h'.1 h'.2.1 h'.2.2
  rw [d1] at d2
  simp only [Prod.mk.injEq, DecoderState.mk.injEq, true_and] at d2
  obtain ⟨rfl, rfl, rfl, rfl⟩ := d2
  have hu : used = used' := List.append_cancel_right (h.1.symm.trans h'.1)
  subst hu
  exact ⟨wire_unique ws ws' h.2.1.1 h'.2.1.1 (h.2.1.2.1.symm.trans h'.2.1.2.1), rfl, rfl, rfl, rfl, rfl⟩

/-- An input of each kind: a whole block, one that goes on with a bad index, one that ends inside an integer. -/
example : BlockEnd 4096 DecoderState.default.table.spec 0 [0xC6] (.err .InvalidIndex) ∧
    BlockEnd 4096 DecoderState.default.table.spec 0 [0xFF] .panic ∧ BlockEnd 4096 DecoderState.default.table.spec 5 [] (.ok 5) :=
  ⟨.defect (.index (b := [0xC6]) (r := []) (i := 70) ⟨Or.inl ⟨by decide, rfl⟩, by decide⟩ (by decide +kernel)),
   .cut (.inl ⟨0xFF, [], rfl, .inl ⟨by decide, 0xFF, [], rfl, by decide, by decide, by simp⟩⟩), .complete⟩

end Verif.Props
