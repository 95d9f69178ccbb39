import Verif.Hpack.Client
import Verif.Props.HpackExtra
/-! Property theorems C87 - C89: header blocks that arrive in pieces, position of size updates, lowering the limit. -/
namespace Verif.Props
open Verif Verif.Spec Verif.Hpack

/-- The same outcome, apart from the number of octets. -/
def SameVerdict : Res DecoderError Nat → Res DecoderError Nat → Prop
  | .ok _, .ok _ => True
  | .err e, .err e' => e = e'
  | .panic, .panic => True
  | _, _ => False

theorem sameVerdict_refl_of {r : Res DecoderError Nat} (h : r ≠ .hang) : SameVerdict r r := by
  cases r <;> simp_all [SameVerdict]

theorem SameVerdict.trans {a b c : Res DecoderError Nat} (h : SameVerdict a b) (h' : SameVerdict b c) : SameVerdict a c := by
  cases a <;> cases b <;> cases c <;> simp_all [SameVerdict]

/-- C87. Resuming: whatever `decode` did with the octets at hand (success, error, or panic), appending the octets `q` and
calling it again has the same final effect and the same verdict as one call on everything. -/
theorem C87_resume (s : DecoderState) (hwf : s.table.WF) (q : Bytes) :
    (decode ((decode s).2.app q)).2 = (decode (s.app q)).2 ∧
    SameVerdict (decode ((decode s).2.app q)).1 (decode (s.app q)).1 := by
  obtain ⟨s', ws, hs, r, h1, ⟨⟨used, hb, hblk⟩, hdst, hwf', hsp, hlim⟩, _⟩ := decode_spec s hwf
  rw [h1]
  simp only
  obtain ⟨t', h2, h3, fuel', hf', h4⟩ := block_steps hblk (s.app q) (s.app q).buf.length 0 (s'.buf ++ q) hwf rfl rfl
    (by simp [DecoderState.app, hb]) (Nat.le_refl _)
  have ht' : t' = s'.table := Table.WF.ext h2 hwf' h3
  have hst : ({ s.app q with buf := s'.buf ++ q, dst := (s.app q).dst ++ hs, table := t' } : DecoderState) = s'.app q := by
    obtain ⟨sp1, m1, t1, buf1, d1⟩ := s'
    simp only [DecoderState.app] at hdst hlim hsp ht' ⊢
    rw [hdst, hlim, hsp, ht']
  rw [hst, Nat.zero_add] at h4
  have h5 : decode (s.app q) = decodeLoop fuel' (headerOctets ws).length (s'.app q) := h4
  obtain ⟨h6, h7⟩ := decodeLoop_shift fuel' (s'.app q).buf.length (headerOctets ws).length 0 (s'.app q) hwf' hf' (Nat.le_refl _)
  rw [Nat.add_zero, ← h5] at h6 h7
  refine ⟨h6.symm, ?_⟩
  rw [h7]
  have hh := (C41_terminates (s'.app q) hwf' 0).1
  show SameVerdict (decodeLoop (s'.app q).buf.length 0 (s'.app q)).1 _
  have hh' : (decodeLoop (s'.app q).buf.length 0 (s'.app q)).1 ≠ .hang := hh
  revert hh'
  cases (decodeLoop (s'.app q).buf.length 0 (s'.app q)).1 <;> simp [SameVerdict]

theorem decode_keeps_wf (s : DecoderState) (hwf : s.table.WF) : (decode s).2.table.WF := by
  obtain ⟨s', ws, hs, r, h1, ⟨_, _, h, _, _⟩, _⟩ := decode_spec s hwf
  rw [h1]; exact h

/-- C87. However a stream is cut into chunks, feeding it chunk by chunk ends in the same state (headers, table, rest of the
buffer) and with the same verdict as one call on the whole stream. -/
theorem C87_chunks (s : DecoderState) (hwf : s.table.WF) (last : Res DecoderError Nat) (c : Bytes) (cs : List Bytes) :
    (feedAll last (c :: cs) s).2 = (decode (s.app (c :: cs).flatten)).2 ∧
    SameVerdict (feedAll last (c :: cs) s).1 (decode (s.app (c :: cs).flatten)).1 := by
  induction cs generalizing s last c with
  | nil =>
    simp only [feedAll, List.flatten_cons, List.flatten_nil, List.append_nil, true_and]
    exact sameVerdict_refl_of (C41_terminates (s.app c) hwf 0).1
  | cons d ds ih =>
    have hwf1 : (decode (s.app c)).2.table.WF := decode_keeps_wf (s.app c) hwf
    obtain ⟨h1, h2⟩ := ih (decode (s.app c)).2 hwf1 (decode (s.app c)).1 d
    obtain ⟨h3, h4⟩ := C87_resume (s.app c) hwf (d :: ds).flatten
    have e : (s.app c).app (d :: ds).flatten = s.app (c :: d :: ds).flatten := by
      simp [DecoderState.app]
    rw [e] at h3 h4
    rw [feedAll]
    exact ⟨h1.trans h3, h2.trans h4⟩

/-- C87. Octets that are missing never add or change a header: what a cut-off input delivers is a beginning of what the whole
input delivers. -/
theorem C87_prefix (s : DecoderState) (hwf : s.table.WF) (q : Bytes) :
    ∃ hs hs', (decode s).2.dst = s.dst ++ hs ∧ (decode (s.app q)).2.dst = s.dst ++ hs ++ hs' := by
  obtain ⟨s', ws, hs, r, h1, ⟨_, hdst, hwf', _, _⟩, _⟩ := decode_spec s hwf
  obtain ⟨h2, _⟩ := C87_resume s hwf q
  rw [h1] at h2 ⊢
  obtain ⟨s2, ws2, hs2, r2, h3, ⟨_, hdst2, _, _, _⟩, _⟩ := decode_spec (s'.app q) hwf'
  refine ⟨hs, hs2, hdst, ?_⟩
  rw [← h2, h3]
  simp only
  rw [hdst2, ← hdst]
  rfl

/-- Three chunks; the first call panics, the second reports `IntegerUnderflow`, the third completes the header. -/
example : feedAll (.ok 0) [[0x82, 0x40], [1, 0x61, 3, 0x62], [0x62, 0x62]] DecoderState.default =
      (.ok 7, (decode (DecoderState.default.app [0x82, 0x40, 1, 0x61, 3, 0x62, 0x62, 0x62])).2) ∧
    (decode (DecoderState.default.app [0x82, 0x40])).1 = .panic ∧
    (feedAll (.ok 0) [[0x82, 0x40], [1, 0x61, 3, 0x62]] DecoderState.default).1 = .err .IntegerUnderflow ∧
    (decode (DecoderState.default.app [0x82, 0x40, 1, 0x61, 3, 0x62, 0x62, 0x62])).1 = .ok 8 := by decide +kernel

/-! ### Size updates -/

/-- C88. A size update within the limit is accepted anywhere, also after headers (RFC 7541 4.2 allows it only at the
beginning of a block): if the octets `b` are decoded, then so are `b` followed by the update, with the same headers, and only
the table is resized. -/
theorem C88_update_anywhere (s s' : DecoderState) (hwf : s.table.WF) (k n : Nat) (u : Bytes) (h : decode s = (.ok k, s'))
    (hu : RepWire lenientPads 5 (.sizeUpdate n) u) (hn : n ≤ s.maxDynamicSize.toNat) :
    ∃ s2, decode (s.app u) = (.ok k, s2) ∧ s2.dst = s'.dst ∧ s2.buf = [] ∧ s2.table.spec = s'.table.spec.resize n := by
  obtain ⟨ws, hs, hblk, hb, hdst, hwf1, hlim, hsp, hk⟩ := C32_sound_block s s' hwf k h
  have h1 : Block lenientPads (s.app u).maxDynamicSize.toNat (s.app u).table.spec (s.app u).buf (ws ++ [(.sizeUpdate n, u)]) hs
      (s'.table.spec.resize n) := by
    obtain ⟨h1, h2, h3⟩ := hblk
    refine ⟨?_, ?_, ?_⟩
    · intro w hw
      rcases List.mem_append.mp hw with hw | hw
      · exact h1 w hw
      · simp only [List.mem_singleton] at hw; subst hw; exact hu
    · simp only [DecoderState.app, wireOf, List.flatMap_append, List.flatMap_cons, List.flatMap_nil, List.append_nil]
      rw [h2]; rfl
    · rw [List.map_append, applyAll_append]
      show (match applyAll s.maxDynamicSize.toNat s.table.spec (ws.map (·.1)) with | none => _ | some (hs, t') => _) = _
      rw [h3]
      have hn' : n ≤ (s.app u).maxDynamicSize.toNat := hn
      simp [applyAll, Rep.apply, hn']
  obtain ⟨t', h2, h3, h4⟩ := decode_block (s := s.app u) hwf h1
  have hc : (headerOctets (ws ++ [(Rep.sizeUpdate n, u)])).length = k := by
    rw [hk]
    simp [headerOctets, List.filter_append, Rep.isHeader]
  rw [hc] at h4
  exact ⟨_, h4, hdst.symm, rfl, h3⟩

/-- An update to 0 after a header that was stored: accepted, and the header is evicted. -/
example : (decode (DecoderState.default.app [0x40, 1, 0x61, 1, 0x62, 0x20])).1 = .ok 5 ∧
    (decode (DecoderState.default.app [0x40, 1, 0x61, 1, 0x62, 0x20])).2.dst = [([0x61], [0x62], 4)] ∧
    (decode (DecoderState.default.app [0x40, 1, 0x61, 1, 0x62, 0x20])).2.table.dynamicLen = 0 := by decide +kernel

/-- The meaning of representations without size updates does not depend on the limit. -/
theorem applyAll_limit {rs : List Rep} (h : ∀ r ∈ rs, r.isHeader = true) (l l' : Nat) (t : SpecTable) :
    applyAll l t rs = applyAll l' t rs := by
  induction rs generalizing t with
  | nil => rfl
  | cons r rs ih =>
    have h1 : r.apply l t = r.apply l' t := by
      cases r with
      | indexed i => rfl
      | literal m nm v => rfl
      | sizeUpdate n => have := h _ List.mem_cons_self; simp [Rep.isHeader] at this
    simp only [applyAll, h1]
    cases r.apply l' t with
    | none => rfl
    | some p =>
      obtain ⟨hd, t1⟩ := p
      simp only [ih (fun x hx => h x (List.mem_cons_of_mem _ hx))]

/-- C89. `set_max_dynamic_size` acts on size updates only: a block without size updates is decoded to the same headers and
the same table whatever the limit, so after the limit is lowered the table stays as large as it was until the peer sends an
update. -/
theorem C89_limit_is_lazy (s : DecoderState) (hwf : s.table.WF) (limit : UInt32) (ws : List (Rep × Octets)) (hs : List Field)
    (t : SpecTable) (h : Block lenientPads s.maxDynamicSize.toNat s.table.spec s.buf ws hs t) (hw : ∀ w ∈ ws, w.1.isHeader = true) :
    ∃ k s1 s2, decode s = (.ok k, s1) ∧ decode (s.setMaxDynamicSize limit) = (.ok k, s2) ∧
      s1.dst = s.dst ++ hs ∧ s2.dst = s.dst ++ hs ∧ s1.table.spec = t ∧ s2.table = s1.table ∧
      s2.getMaxDynamicSize = s.getMaxDynamicSize := by
  have h' : Block lenientPads (s.setMaxDynamicSize limit).maxDynamicSize.toNat (s.setMaxDynamicSize limit).table.spec
      (s.setMaxDynamicSize limit).buf ws hs t := by
    refine ⟨h.1, h.2.1, ?_⟩
    rw [← h.2.2]
    refine applyAll_limit ?_ _ _ _
    intro r hr
    obtain ⟨w, hw1, rfl⟩ := List.mem_map.mp hr
    exact hw w hw1
  have hmax : ∀ (rs : List Rep) (l : Nat) (t t' : SpecTable) (hs : List Field), (∀ r ∈ rs, r.isHeader = true) →
      applyAll l t rs = some (hs, t') → t'.max = t.max := by
    intro rs l
    induction rs with
    | nil => intro t t' hs _ e; simp only [applyAll, Option.some.injEq, Prod.mk.injEq] at e; rw [e.2]
    | cons r rs ih =>
      intro t t' hs hr e
      simp only [applyAll] at e
      cases ha : r.apply l t with
      | none => simp [ha] at e
      | some p =>
        obtain ⟨hd, t1⟩ := p
        have h1 : t1.max = t.max := by
          cases r with
          | indexed i =>
            simp only [Rep.apply] at ha
            split at ha
            · simp only [Option.some.injEq, Prod.mk.injEq] at ha; rw [← ha.2]
            · cases ha
          | literal m nm v =>
            simp only [Rep.apply] at ha
            split at ha
            · simp only [Option.some.injEq, Prod.mk.injEq] at ha
              rw [← ha.2]
              split
              · unfold SpecTable.insert; split <;> rfl
              · rfl
            · cases ha
          | sizeUpdate n => have := hr _ List.mem_cons_self; simp [Rep.isHeader] at this
        simp only [ha] at e
        cases hb : applyAll l t1 rs with
        | none => simp [hb] at e
        | some p =>
          obtain ⟨hs', t2⟩ := p
          simp only [hb, Option.some.injEq, Prod.mk.injEq] at e
          rw [← e.2, ← h1]
          exact ih t1 t2 hs' (fun x hx => hr x (List.mem_cons_of_mem _ hx)) hb
  obtain ⟨t1, a1, a2, a3⟩ := decode_block hwf h
  obtain ⟨t2, b1, b2, b3⟩ := decode_block (s := s.setMaxDynamicSize limit) hwf h'
  have e : t2 = t1 := Table.WF.ext b1 a1 (b2.trans a2.symm)
  refine ⟨_, _, _, a3, b3, rfl, rfl, a2, e, ?_⟩
  have := hmax (ws.map (·.1)) _ _ _ _ (by
    intro r hr
    obtain ⟨w, hw1, rfl⟩ := List.mem_map.mp hr
    exact hw w hw1) h'.2.2
  show t2.maxDynamicSize = s.table.maxDynamicSize
  have h1 : t2.spec.max = s.table.spec.max := by rw [b2]; exact this
  exact UInt32.toNat_inj.mp h1

/-- The limit is lowered to 0, but the entry stored before is still in the table and can be used. -/
example : (decode (((decode (DecoderState.default.app [0x40, 1, 0x61, 1, 0x62])).2.setMaxDynamicSize 0).app [0xBE])).2.dst =
    [([0x61], [0x62], 4), ([0x61], [0x62], 0)] := by decide +kernel

end Verif.Props
