import Verif.Props.HpackVerdict
import Verif.Props.HpackExtra
/-! Property theorem C142: what a 0 returned by `decode_exact` means, and what a loop that waits for it misses. -/
namespace Verif.Props
open Verif Verif.Spec Verif.Hpack

/-- `loop { let n = decoder.decode_exact(&mut buf, &mut Vec::with_capacity(cap))?; if n == 0 { break } total += n }` with the headers collected
in one list. User code around /repo/hpack/src/decoder/mod.rs:138-165; fuel: as many rounds as there are octets, and one. -/
def untilZero (cap : Nat) : Nat → Nat → M DecoderState DecoderError Nat
  | 0, _ => M.hang
  | fuel + 1, total => do
    let n ← decodeExact cap
    if n = 0 then pure total else untilZero cap fuel (total + n)

/-- The number of size updates. -/
def updatesIn (ws : List (Rep × Octets)) : Nat := (ws.filter fun w => !w.1.isHeader).length

theorem length_updates (ws : List (Rep × Octets)) : ws.length = updatesIn ws + (ws.filter (·.1.isHeader)).length := by
  induction ws with
  | nil => rfl
  | cons w l ih =>
    simp only [updatesIn, List.filter_cons, List.length_cons] at ih ⊢
    cases w.1.isHeader <;> simp <;> omega

theorem applyAll_headers {limit : Nat} {t t' : SpecTable} {reps : List Rep} {hs : List Field} (h : applyAll limit t reps = some (hs, t')) :
    hs.length = (reps.filter Rep.isHeader).length := by
  induction reps generalizing t t' hs with
  | nil => simp only [applyAll, Option.some.injEq, Prod.mk.injEq] at h; obtain ⟨rfl, _⟩ := h; rfl
  | cons r reps ih =>
    simp only [applyAll] at h
    cases hr : r.apply limit t with
    | none => rw [hr] at h; cases h
    | some x =>
      obtain ⟨hd, t1⟩ := x
      rw [hr] at h
      simp only at h
      cases ha : applyAll limit t1 reps with
      | none => rw [ha] at h; cases h
      | some y =>
        obtain ⟨hs2, t2⟩ := y
        rw [ha] at h
        simp only [Option.some.injEq, Prod.mk.injEq] at h
        obtain ⟨rfl, _⟩ := h
        have e := ih ha
        cases r with
        | indexed i =>
          simp only [Rep.apply] at hr
          cases hg : t.addr i with
          | none => rw [hg] at hr; cases hr
          | some p =>
            rw [hg] at hr
            simp only [Option.some.injEq, Prod.mk.injEq] at hr
            obtain ⟨rfl, _⟩ := hr
            rw [List.filter_cons, if_pos (show Rep.isHeader _ = true from rfl)]; simp [e]
        | literal m name v =>
          simp only [Rep.apply] at hr
          cases hg : name.resolve t with
          | none => rw [hg] at hr; cases hr
          | some p =>
            rw [hg] at hr
            simp only [Option.some.injEq, Prod.mk.injEq] at hr
            obtain ⟨rfl, _⟩ := hr
            rw [List.filter_cons, if_pos (show Rep.isHeader _ = true from rfl)]; simp [e]
        | sizeUpdate n =>
          simp only [Rep.apply] at hr
          by_cases hn : n ≤ limit
          · rw [if_pos hn] at hr
            simp only [Option.some.injEq, Prod.mk.injEq] at hr
            obtain ⟨rfl, _⟩ := hr
            simp [Rep.isHeader, e]
          · rw [if_neg hn] at hr; cases hr

theorem headerOctets_zero {ws : List (Rep × Octets)} (h : ∀ w ∈ ws, RepWire lenientPads 5 w.1 w.2) :
    (headerOctets ws).length = 0 ↔ (ws.filter (·.1.isHeader)).length = 0 := by
  constructor
  · intro h0
    cases hf : ws.filter (·.1.isHeader) with
    | nil => rfl
    | cons w l =>
      have hm : w ∈ ws.filter (·.1.isHeader) := by rw [hf]; exact List.mem_cons_self ..
      have := RepWire.pos (h w (List.mem_filter.mp hm).1)
      rw [headerOctets, hf, List.flatMap_cons, List.length_append] at h0
      omega
  · intro h0
    rw [headerOctets, List.eq_nil_of_length_eq_zero h0]; rfl

/-- C142. A call of `decode_exact` that succeeds returns 0 exactly if it delivered no header. Nothing follows about the buffer: it may be empty, the
capacity may be 0, or as many size updates as the capacity may have come first. -/
theorem C142_zero_iff (s s' : DecoderState) (hwf : s.table.WF) (cap k : Nat) (h : decodeExact cap s = (.ok k, s')) :
    (k = 0 ↔ s'.dst = s.dst) ∧
    (k = 0 ↔ ∃ ws, (∀ w ∈ ws, w.1.isHeader = false ∧ RepWire lenientPads 5 w.1 w.2) ∧ s.buf = wireOf ws ++ s'.buf ∧
      (s'.buf = [] ∨ ws.length = cap)) := by
  obtain ⟨used, ws, hs, hb, ⟨g1, g2, g3⟩, hd, _, _, _, hend⟩ := (C120_exact_verdict s s' hwf cap _).mp h
  have hk : k = (headerOctets ws).length ∧ (s'.buf = [] ∨ ws.length = cap) := by
    revert hend; generalize s'.buf = rest; intro hend
    cases hend with
    | complete _ => exact ⟨rfl, Or.inl rfl⟩
    | full h2 => exact ⟨rfl, Or.inr h2⟩
  have hz := headerOctets_zero g1
  have hl := applyAll_headers g3
  have hl2 : hs.length = (ws.filter (·.1.isHeader)).length := by
    rw [hl, List.filter_map, List.length_map]; rfl
  have hiff : k = 0 ↔ hs = [] := by
    rw [hk.1, hz, ← hl2]; exact List.length_eq_zero_iff
  refine ⟨hiff.trans ?_, ?_⟩
  · rw [hd]; constructor
    · rintro rfl; simp
    · intro e; exact List.append_cancel_left (as := s.dst) (by simpa using e)
  · constructor
    · intro h0
      have hf : ws.filter (·.1.isHeader) = [] := List.eq_nil_of_length_eq_zero (hz.mp (hk.1 ▸ h0))
      refine ⟨ws, fun w hw => ⟨?_, g1 w hw⟩, by rw [hb, g2], hk.2⟩
      have := List.filter_eq_nil_iff.mp hf w hw
      simpa using this
    · rintro ⟨us, hu, hb', hend'⟩
      have key : ∀ (us ws : List (Rep × Octets)) (x : Octets), (∀ w ∈ us, w.1.isHeader = false ∧ RepWire lenientPads 5 w.1 w.2) →
          (∀ w ∈ ws, RepWire lenientPads 5 w.1 w.2) → wireOf us ++ x = wireOf ws ++ x → ws.filter (·.1.isHeader) = [] := by
        intro us
        induction us with
        | nil =>
          intro ws x _ hw e
          cases ws with
          | nil => rfl
          | cons w ws =>
            have := RepWire.pos (hw w (List.mem_cons_self ..))
            have e := congrArg List.length e
            simp [wireOf] at e
            omega
        | cons u us ih =>
          intro ws x hu hw e
          cases ws with
          | nil => rfl
          | cons w ws =>
            simp only [wireOf, List.flatMap_cons, List.append_assoc] at e
            obtain ⟨e1, e2, e3⟩ := C120_unique_reading _ _ _ _ _ _ (hu u (List.mem_cons_self ..)).2 (hw w (List.mem_cons_self ..)) e
            rw [List.filter_cons, if_neg (by rw [← e1, (hu u (List.mem_cons_self ..)).1]; decide)]
            exact ih ws x (fun v hv => hu v (List.mem_cons_of_mem _ hv)) (fun v hv => hw v (List.mem_cons_of_mem _ hv)) e3
      rw [hk.1, hz, key us ws s'.buf hu g1 (by rw [← hb', hb, g2])]; rfl

/-- The hypothesis is met, with 0 and headers left in the buffer. -/
example : decodeExact 1 { DecoderState.default with buf := [0x20, 0x82] } =
    (.ok 0, { DecoderState.default with buf := [0x82], table := Table.withDynamicSize 0 }) := by decide +kernel

/-- C142. A vector without capacity (`Vec::new()`) makes no progress: the call returns 0 and changes nothing, however often it is made. -/
theorem C142_no_capacity (s : DecoderState) (n : Nat) :
    decodeExact 0 s = (.ok 0, s) ∧ exactAll (List.replicate n 0) s = (.ok 0, s) := by
  have h : decodeExact 0 s = (.ok 0, s) := rfl
  refine ⟨h, ?_⟩
  induction n with
  | zero => rfl
  | succ n ih =>
    rw [List.replicate_succ, exactAll, M.bind_of_ok h, M.bind_of_ok ih]; rfl

/-- C142. A loop that ends when `decode_exact` returns 0 stops too early: after as many size updates (here to 0) as the capacity, whatever
follows stays unread, and no error tells. -/
theorem C142_stops_early (s : DecoderState) (hwf : s.table.WF) (cap fuel : Nat) (x : Bytes) (hb : s.buf = List.replicate cap 0x20 ++ x) :
    ∃ s', untilZero cap (fuel + 1) 0 s = (.ok 0, s') ∧ s'.buf = x ∧ s'.dst = s.dst := by
  have hw : RepWire lenientPads 5 (.sizeUpdate 0) [0x20] := ⟨false, false, Or.inl ⟨by decide, by decide⟩, by decide⟩
  have hblk : ∀ (cap : Nat) (t : SpecTable), ∃ t', Block lenientPads s.maxDynamicSize.toNat t (List.replicate cap 0x20)
      (List.replicate cap (.sizeUpdate 0, [0x20])) [] t' := by
    intro cap
    induction cap with
    | zero => intro t; exact ⟨t, block_nil _ _⟩
    | succ n ih =>
      intro t
      obtain ⟨t', h⟩ := ih (t.resize 0)
      refine ⟨t', ?_⟩
      have := block_cons (t := t) (t1 := t.resize 0) (hdr := none) hw (by simp [Rep.apply]) h
      simpa [List.replicate_succ] using this
  obtain ⟨t', hblk⟩ := hblk cap s.table.spec
  obtain ⟨t1, w1, w2, hrun⟩ := block_steps_exact hblk s cap 0 x hwf rfl rfl hb (by simp)
  have e : decodeExact cap s = (.ok 0, { s with buf := x, dst := s.dst ++ [], table := t1 }) := by
    rw [decodeExact, hrun]
    have : (headerOctets (List.replicate cap ((Rep.sizeUpdate 0, [0x20]) : Rep × Octets))).length = 0 := by
      simp [headerOctets, Rep.isHeader]
    rw [this]
    simp only [List.length_replicate, Nat.sub_self]
    rfl
  refine ⟨{ s with buf := x, dst := s.dst ++ [], table := t1 }, ?_, rfl, by simp⟩
  rw [untilZero, M.bind_of_ok e]
  rfl

example : ({ DecoderState.default with buf := [0x20, 0x20, 0x82] } : DecoderState).buf = List.replicate 2 0x20 ++ [0x82] := rfl

theorem untilZero_few (cap : Nat) : ∀ (fuel total : Nat) (s : DecoderState) (used0 : Octets) (ws : List (Rep × Octets)) (hs : List Field)
    (t2 : SpecTable), s.table.WF → s.buf = used0 ++ (decode s).2.buf → Block lenientPads s.maxDynamicSize.toNat s.table.spec used0 ws hs t2 →
    updatesIn ws < cap → s.buf.length < fuel →
    untilZero cap fuel total s = ((match (decode s).1 with | .ok K => .ok (total + K) | r => r), (decode s).2) := by
  intro fuel
  induction fuel with
  | zero => intro total s used0 ws hs t2 _ _ _ _ h; omega
  | succ fuel ih =>
    intro total s used0 ws hs t2 hwf hbuf hblk hcap hfuel
    obtain ⟨s1, ws1, hs1, used, r, e, hb, hb1, _, _, _, hwf1, hr⟩ := C36_capacity s hwf cap
    have hex : exactAll [cap, s.buf.length] s = decode s := C81_exact_loop s hwf _ (by simp)
    cases r with
    | err x => rw [← hex, untilZero, exactAll, M.bind_apply, M.bind_apply, e]
    | panic => rw [← hex, untilZero, exactAll, M.bind_apply, M.bind_apply, e]
    | hang => rw [← hex, untilZero, exactAll, M.bind_apply, M.bind_apply, e]
    | ok k1 =>
      obtain ⟨hk1, hend⟩ := hr k1 rfl
      obtain ⟨r1, r2⟩ := C36_resume s s1 hwf cap k1 e
      rw [untilZero, M.bind_of_ok e]
      have hlim : s1.maxDynamicSize = s.maxDynamicSize := by
        obtain ⟨_, _, _, _, _, _, _, _, h, _⟩ := (C120_exact_verdict s s1 hwf cap _).mp e
        exact h
      obtain ⟨used2, ws2, hs2, hb2, hblk2, _⟩ := (C120_verdict s1 (decode s1).2 hwf1 (decode s1).1).mp rfl
      have hused : used0 = used ++ used2 := by
        have h : used0 ++ (decode s1).2.buf = (used ++ used2) ++ (decode s1).2.buf := by
          rw [← r1, ← hbuf, r1, List.append_assoc, ← hb2, hb]
        exact List.append_cancel_right h
      have hws : ws = ws1 ++ ws2 := by
        refine wire_unique _ _ hblk.1 ?_ ?_
        · intro w hw
          rcases List.mem_append.mp hw with hw | hw
          · exact hb1.1 w hw
          · exact hblk2.1 w hw
        · rw [← hblk.2.1, hused, hb1.2.1, hblk2.2.1, wireOf, wireOf, wireOf, List.flatMap_append]
      have hu : updatesIn ws = updatesIn ws1 + updatesIn ws2 := by
        rw [hws, updatesIn, updatesIn, updatesIn, List.filter_append, List.length_append]
      have hz := headerOctets_zero hb1.1
      by_cases h0 : k1 = 0
      · rw [if_pos h0]
        have hempty : s1.buf = [] := by
          rcases hend with h | h
          · exact h
          · have h1 : (ws1.filter (·.1.isHeader)).length = 0 := hz.mp (hk1 ▸ h0)
            have h2 := length_updates ws1
            omega
        have hd1 : decode s1 = (.ok 0, s1) := by rw [decode, hempty]; simp [decodeLoop, hempty]
        rw [r2, r1, hd1, h0]; rfl
      · rw [if_neg h0]
        have hlen : used.length ≠ 0 := by
          intro h
          have : ws1.filter (·.1.isHeader) = [] := by
            cases ws1 with
            | nil => rfl
            | cons w l =>
              have := RepWire.pos (hb1.1 w (List.mem_cons_self ..))
              have e := congrArg List.length hb1.2.1
              simp [wireOf] at e
              omega
          exact h0 (hk1.trans (hz.mpr (by rw [this]; rfl)))
        have hl := congrArg List.length hb
        rw [List.length_append] at hl
        rw [ih (total + k1) s1 used2 ws2 hs2 _ hwf1 hb2 hblk2 (by omega) (by omega), r2, r1]
        cases (decode s1).1 <;> simp [Nat.add_assoc]

/-- C142. The loop is right if the capacity exceeds the number of size updates among what `decode` reads: then it does what one call of `decode` does, whether
that succeeds or fails. (A peer that follows RFC 7541 4.2 sends at most two, so a capacity of three is enough for each of its blocks.) -/
theorem C142_few_updates (s : DecoderState) (hwf : s.table.WF) (cap : Nat) (used : Octets) (ws : List (Rep × Octets)) (hs : List Field) (t2 : SpecTable)
    (hb : s.buf = used ++ (decode s).2.buf) (h : Block lenientPads s.maxDynamicSize.toNat s.table.spec used ws hs t2) (hc : updatesIn ws < cap) :
    untilZero cap (s.buf.length + 1) 0 s = decode s := by
  rw [untilZero_few cap _ 0 s used ws hs t2 hwf hb h hc (Nat.lt_succ_self _)]
  cases h : decode s with
  | mk r s' => cases r <;> simp

/-- The hypotheses are met: a size update and a header, capacity two. -/
example : Block lenientPads 4096 ⟨[], 4096⟩ [0x20, 0x82] [(.sizeUpdate 0, [0x20]), (.indexed 2, [0x82])]
      [([58, 109, 101, 116, 104, 111, 100], [71, 69, 84], 0)] ⟨[], 0⟩ ∧ updatesIn [(.sizeUpdate 0, [0x20]), (.indexed 2, [0x82])] < 2 := by
  refine ⟨⟨?_, by decide +kernel, by rfl⟩, by decide⟩
  intro w hw
  simp only [List.mem_cons, List.not_mem_nil, or_false] at hw
  rcases hw with rfl | rfl
  · exact ⟨false, false, Or.inl ⟨by decide, by decide⟩, by decide⟩
  · exact ⟨false, false, Or.inl ⟨by decide, by decide⟩, by decide⟩

/-- Also for a block that fails after these (index 62 of an empty table). -/
example : ({ DecoderState.default with buf := [0x20, 0x82, 0xbe] } : DecoderState).buf =
    [0x20, 0x82] ++ (decode { DecoderState.default with buf := [0x20, 0x82, 0xbe] }).2.buf := by decide +kernel

example : (untilZero 2 9 0 { DecoderState.default with buf := [0x20, 0x82] }).1 = .ok 1 ∧
    (untilZero 1 9 0 { DecoderState.default with buf := [0x20, 0x82] }).1 = .ok 0 := by decide +kernel

end Verif.Props
