import Verif.Props.HpackLoss
/-! Property theorem C136: an encoder whose dynamic table has the maximum size 0 is stateless; every decoder understands its blocks, in any
order and whatever else it has received. -/
namespace Verif.Props
open Verif Verif.Spec Verif.Hpack

/-- Without a dynamic table only the static table is addressed, and that is the same in every table. -/
theorem addr_static {i : Nat} {m : Nat} {e : Octets × Octets} (h : (SpecTable.mk [] m).addr i = some e) (t : SpecTable) : t.addr i = some e := by
  unfold SpecTable.addr at h ⊢
  split
  · rename_i h0; simp [h0] at h
  · rename_i h0
    split
    · rename_i h1; simpa [h0, h1] using h
    · rename_i h1; simp [h0, h1] at h

theorem apply_stateless {rep : Rep} {hdr : Option (Octets × Octets × UInt8)} {t1 : SpecTable} (h : rep.apply 0 ⟨[], 0⟩ = some (hdr, t1))
    (limit : Nat) (t : SpecTable) : t1 = ⟨[], 0⟩ ∧ ∃ t2, rep.apply limit t = some (hdr, t2) := by
  cases rep with
  | indexed i =>
    simp only [Rep.apply] at h ⊢
    split at h
    · rename_i n v hi
      simp only [Option.some.injEq, Prod.mk.injEq] at h
      obtain ⟨rfl, rfl⟩ := h
      exact ⟨rfl, t, by rw [addr_static hi t]⟩
    · cases h
  | literal m nm v =>
    simp only [Rep.apply] at h ⊢
    split at h
    · rename_i n hn
      simp only [Option.some.injEq, Prod.mk.injEq] at h
      obtain ⟨rfl, rfl⟩ := h
      have hr : nm.resolve t = some n := by
        cases nm with
        | index i =>
          simp only [NameRef.resolve, Option.map_eq_some_iff] at hn ⊢
          obtain ⟨e, he, hn⟩ := hn
          exact ⟨e, addr_static he t, hn⟩
        | new n' => exact hn
      rw [hr]
      refine ⟨?_, _, rfl⟩
      split
      · simp [SpecTable.insert, entrySize]
      · rfl
    · cases h
  | sizeUpdate n =>
    simp only [Rep.apply] at h ⊢
    split at h
    · rename_i hn
      simp only [Option.some.injEq, Prod.mk.injEq] at h
      obtain ⟨rfl, rfl⟩ := h
      have : n = 0 := Nat.le_zero.mp hn
      subst this
      exact ⟨rfl, t.resize 0, by simp⟩
    · cases h

theorem applyAll_stateless (reps : List Rep) : ∀ (hs : List (Octets × Octets × UInt8)) (t1 : SpecTable), applyAll 0 ⟨[], 0⟩ reps = some (hs, t1) →
    ∀ (limit : Nat) (t : SpecTable), t1 = ⟨[], 0⟩ ∧ ∃ t2, applyAll limit t reps = some (hs, t2) := by
  induction reps with
  | nil =>
    intro hs t1 h limit t
    simp only [applyAll, Option.some.injEq, Prod.mk.injEq] at h
    obtain ⟨rfl, rfl⟩ := h
    exact ⟨rfl, t, rfl⟩
  | cons r rs ih =>
    intro hs t1 h limit t
    simp only [applyAll] at h
    split at h
    · cases h
    · rename_i hdr t' hr
      obtain ⟨rfl, t2, h2⟩ := apply_stateless hr limit t
      split at h
      · cases h
      · rename_i hs' t'' hrs
        simp only [Option.some.injEq, Prod.mk.injEq] at h
        obtain ⟨rfl, rfl⟩ := h
        obtain ⟨e, t3, h3⟩ := ih hs' t'' hrs limit t2
        exact ⟨e, t3, by simp only [applyAll, h2, h3]⟩

/-- A table with the maximum size 0 is empty. -/
theorem spec_of_zero {t : Table} (hwf : t.WF) (h0 : t.maxDynamicSize = 0) : t.spec = ⟨[], 0⟩ := by
  have hm : t.dynamic.maxSize = 0 := h0
  have hs : tableSize t.dynamic.inner ≤ t.dynamic.maxSize.toNat := hwf.2
  rw [hm] at hs
  have he : t.dynamic.inner = [] := by
    cases hi : t.dynamic.inner with
    | nil => rfl
    | cons e es =>
      rw [hi] at hs
      simp [tableSize, entrySize] at hs
  unfold Table.spec
  rw [he, hm]; rfl

/-- C136. An encoder whose table has the maximum size 0, whatever flags the calls use (also WITH_INDEXING and BEST_FORMAT): its table stays as
it is, and its output means the same list of headers to every decoder, whatever that decoder's table holds and whatever its limits are. `OpFits 0`:
the strings have lengths a decoder can read, and the table is only ever resized to 0. -/
theorem C136_stateless (e e' : EncoderState) (ops : List SessionOp) (hwf : e.table.WF) (h0 : e.table.maxDynamicSize = 0)
    (hfit : ∀ op ∈ ops, OpFits 0 op) (h : encSession ops { e with dst := [] } = (.ok (), e')) :
    e'.table = e.table ∧ ∃ hs, SessionMeans 0 ⟨[], 0⟩ ops hs ⟨[], 0⟩ ∧
      ∀ d : DecoderState, d.table.WF → ∃ k t, t.WF ∧
        decode { d with buf := e'.dst } = (.ok k, { d with buf := [], dst := d.dst ++ hs, table := t }) := by
  obtain ⟨bs, ws, hs, hd, hb, hwf', hm⟩ := encSession_emits ops (e := { e with dst := [] }) hwf hfit h
  simp only [List.nil_append] at hd
  subst hd
  have hsp := spec_of_zero hwf h0
  simp only [hsp] at hb hm
  obtain ⟨h1, h2, h3⟩ := hb
  have hz : e'.table.spec = ⟨[], 0⟩ := (applyAll_stateless _ _ _ h3 0 ⟨[], 0⟩).1
  rw [hz] at hm
  refine ⟨Table.WF.ext hwf' hwf (hz.trans hsp.symm), hs, hm, fun d hdw => ?_⟩
  obtain ⟨_, t2, h4⟩ := applyAll_stateless _ _ _ h3 d.maxDynamicSize.toNat d.table.spec
  obtain ⟨t', w, _, x⟩ := decode_block (s := { d with buf := e'.dst }) hdw (ws := ws) (hs := hs) (t2 := t2) ⟨h1, h2, h4⟩
  exact ⟨_, t', w, x⟩

/-- C136. So its blocks may be lost, repeated and reordered in any way, and mixed with anything else a decoder has received before: for every
list `js` of arriving blocks the decoder delivers exactly the headers of those blocks, in the order of arrival. -/
theorem C136_arrival (blocks : List (List SessionOp)) : ∀ (e e' : EncoderState) (bs : List Bytes), e.table.WF → e.table.maxDynamicSize = 0 →
    (∀ ops ∈ blocks, ∀ op ∈ ops, OpFits 0 op) → encBlocks blocks e = some (bs, e') →
    ∃ hss : List (List Field), BlocksMean 0 ⟨[], 0⟩ blocks hss ⟨[], 0⟩ ∧ bs.length = blocks.length ∧
      ∀ (js : List Nat) (d : DecoderState), (∀ j ∈ js, j < blocks.length) → d.table.WF → d.buf = [] →
        ∃ t, decBlocks (js.map fun j => bs.getD j []) d = some { d with dst := d.dst ++ (js.map fun j => hss.getD j []).flatten, table := t } := by
  suffices hg : ∀ (blocks : List (List SessionOp)) (e e' : EncoderState) (bs : List Bytes), e.table.WF → e.table.maxDynamicSize = 0 →
      (∀ ops ∈ blocks, ∀ op ∈ ops, OpFits 0 op) → encBlocks blocks e = some (bs, e') →
      ∃ hss : List (List Field), BlocksMean 0 ⟨[], 0⟩ blocks hss ⟨[], 0⟩ ∧ bs.length = blocks.length ∧
        ∀ j, j < blocks.length → ∀ d : DecoderState, d.table.WF → ∃ k t, t.WF ∧
          decode { d with buf := bs.getD j [] } = (.ok k, { d with buf := [], dst := d.dst ++ hss.getD j [], table := t }) by
    intro e e' bs hwf h0 hfit h
    obtain ⟨hss, hm, hl, hd⟩ := hg blocks e e' bs hwf h0 hfit h
    refine ⟨hss, hm, hl, fun js => ?_⟩
    induction js with
    | nil => intro d _ _ _; exact ⟨d.table, by simp [decBlocks]⟩
    | cons j js ih =>
      intro d hj hdw hbuf
      obtain ⟨k, t, ht, hk⟩ := hd j (hj j (by simp)) d hdw
      obtain ⟨t', h'⟩ := ih { d with buf := [], dst := d.dst ++ hss.getD j [], table := t } (fun x hx => hj x (by simp [hx])) ht rfl
      refine ⟨t', ?_⟩
      simp only [List.map_cons, decBlocks, hk, List.flatten_cons]
      rw [h']
      simp only [List.append_assoc, hbuf]
  intro blocks
  induction blocks with
  | nil =>
    intro e e' bs _ _ _ h
    simp only [encBlocks, Option.some.injEq, Prod.mk.injEq] at h
    obtain ⟨rfl, rfl⟩ := h
    exact ⟨[], .nil _, rfl, fun j hj => absurd hj (by simp)⟩
  | cons ops rest ih =>
    intro e e' bs hwf h0 hfit h
    simp only [encBlocks] at h
    split at h
    · rename_i e1 he1
      cases hr : encBlocks rest e1 with
      | none => rw [hr] at h; cases h
      | some r =>
        obtain ⟨bs1, e2⟩ := r
        rw [hr] at h
        simp only [Option.map_some, Option.some.injEq, Prod.mk.injEq] at h
        obtain ⟨rfl, rfl⟩ := h
        obtain ⟨ht, hs, hm, hd⟩ := C136_stateless e e1 ops hwf h0 (hfit ops (by simp)) he1
        obtain ⟨hss, hm', hl, hd'⟩ := ih e1 e2 bs1 (by rw [ht]; exact hwf) (by rw [ht]; exact h0) (fun o ho => hfit o (by simp [ho])) hr
        refine ⟨hs :: hss, .cons hm hm', by simp [hl], fun j hj d hdw => ?_⟩
        cases j with
        | zero => exact hd d hdw
        | succ j => exact hd' j (by simpa using hj) d hdw
    · cases h

/-- C136. What a block of (name, value) pairs means, in every history: exactly these pairs. -/
theorem C136_pairs (limit : Nat) (t t' : SpecTable) (l : List (Octets × Octets × UInt8)) (hs : List Field)
    (h : SessionMeans limit t (l.map fun x => .header (.Literal x.1 x.2.1 x.2.2)) hs t') :
    hs.map (fun x => (x.1, x.2.1)) = l.map fun x => (x.1, x.2.1) := by
  induction l generalizing t hs with
  | nil => cases h; rfl
  | cons x l ih =>
    obtain ⟨n, v, f⟩ := x
    simp only [List.map_cons] at h ⊢
    generalize hops : (l.map fun x : Octets × Octets × UInt8 => SessionOp.header (.Literal x.1 x.2.1 x.2.2)) = ops at h ih
    cases h with
    | header hc ha hr =>
      rw [List.map_cons, ih _ _ hr]
      congr 1
      cases hc with
      | literal _ _ _ _ =>
        simp only [Rep.apply, NameRef.resolve, Option.some.injEq, Prod.mk.injEq] at ha
        rw [← ha.1]
      | bestFull _ _ _ _ i hi =>
        obtain ⟨e, h1, h2⟩ := hi.1
        subst h2
        simp only [Rep.apply, h1, Option.some.injEq, Prod.mk.injEq] at ha
        rw [← ha.1]
      | bestName _ _ _ _ _ i hi =>
        obtain ⟨e, h1, h2⟩ := hi.1
        simp only [Rep.apply, NameRef.resolve, h1, Option.map_some, Option.some.injEq, Prod.mk.injEq] at ha
        rw [← ha.1, h2]
      | bestNew _ _ _ _ _ =>
        simp only [Rep.apply, NameRef.resolve, Option.some.injEq, Prod.mk.injEq] at ha
        rw [← ha.1]

theorem literals_succeed (l : List (Octets × Octets × UInt8)) : ∀ e : EncoderState, e.table.WF →
    (∀ x ∈ l, InputFits (.Literal x.1 x.2.1 x.2.2)) →
    ∃ e', encSession (l.map fun x => .header (.Literal x.1 x.2.1 x.2.2)) e = (.ok (), e') := by
  induction l with
  | nil => intro e _ _; exact ⟨e, rfl⟩
  | cons x l ih =>
    intro e hwf hfit
    obtain ⟨rep, hc⟩ := Chosen.exists e.table hwf (.Literal x.1 x.2.1 x.2.2)
    have ha : (rep.apply 0 e.table.spec).isSome := by
      cases hc with
      | literal _ _ _ _ => rfl
      | bestFull _ _ _ _ i hi => obtain ⟨e, h1, _⟩ := hi.1; simp [Rep.apply, h1]
      | bestName _ _ _ _ _ i hi => obtain ⟨e, h1, _⟩ := hi.1; simp [Rep.apply, NameRef.resolve, h1]
      | bestNew _ _ _ _ _ => rfl
    have hf := hfit x (by simp)
    obtain ⟨e1, h1⟩ := C27_encoder_succeeds e _ rep hwf hc ha (RepFits.mono (by decide) (InputFits.rep hf hc))
    obtain ⟨_, _, _, _, _, _, _, hwf1⟩ := encode_emits 0 hwf hf h1
    obtain ⟨e2, h2⟩ := ih e1 hwf1 (fun y hy => hfit y (by simp [hy]))
    exact ⟨e2, by simp only [List.map_cons, encSession, encOp, M.bind_apply, h1, h2]⟩

/-- C136. End to end: any list of headers with readable strings and any flags, encoded by a new encoder with dynamic size 0, is encoded without
error, and every decoder delivers exactly these names and values from the octets. -/
theorem C136_end_to_end (l : List (Octets × Octets × UInt8)) (hfit : ∀ x ∈ l, InputFits (.Literal x.1 x.2.1 x.2.2)) :
    ∃ e', encSession (l.map fun x => .header (.Literal x.1 x.2.1 x.2.2)) (EncoderState.withDynamicSize 0) = (.ok (), e') ∧
      ∀ d : DecoderState, d.table.WF → ∃ k d', decode { d with buf := e'.dst } = (.ok k, d') ∧ d'.buf = [] ∧
        ∃ hs, d'.dst = d.dst ++ hs ∧ hs.map (fun x => (x.1, x.2.1)) = l.map fun x => (x.1, x.2.1) := by
  have hwf : (EncoderState.withDynamicSize 0).table.WF := Table.withDynamicSize_WF 0
  obtain ⟨e', h⟩ := literals_succeed l _ hwf hfit
  have hops : ∀ op ∈ l.map (fun x => SessionOp.header (.Literal x.1 x.2.1 x.2.2)), OpFits 0 op := by
    intro op hop
    obtain ⟨x, hx, rfl⟩ := List.mem_map.mp hop
    exact hfit x hx
  obtain ⟨_, hs, hm, hd⟩ := C136_stateless (EncoderState.withDynamicSize 0) e' _ hwf rfl hops h
  refine ⟨e', h, fun d hdw => ?_⟩
  obtain ⟨k, t, _, x⟩ := hd d hdw
  exact ⟨k, _, x, rfl, hs, rfl, C136_pairs 0 _ _ l hs hm⟩

/-- A decoder with a filled table. -/
def filledDecoder : DecoderState := (decode { DecoderState.default with buf := [0x40, 1, 0x61, 1, 0x62, 0x40, 1, 0x63, 1, 0x64] }).2

/-- Three calls with WITH_INDEXING and BEST_FORMAT, one of them the same as another; the octets mean the same to a new decoder, to one
with a filled table, and to one that has read them before. -/
example : ∃ e' : EncoderState,
    encSession ([([0x61], [0x62], 0x14), ([0x61], [0x62], 0x14), (":method".toUTF8.toList, "GET".toUTF8.toList, 0x14)].map
      fun x : Octets × Octets × UInt8 => .header (.Literal x.1 x.2.1 x.2.2)) (EncoderState.withDynamicSize 0) = (.ok (), e') ∧
    e'.dst = [0x40, 1, 0x61, 1, 0x62, 0x40, 1, 0x61, 1, 0x62, 0x82] ∧ filledDecoder.table.dynamicLen = 2 ∧
    ((decode { filledDecoder with buf := e'.dst, dst := [] }).2.dst.map fun x => (x.1, x.2.1)) =
      [([0x61], [0x62]), ([0x61], [0x62]), (":method".toUTF8.toList, "GET".toUTF8.toList)] ∧
    (decode { filledDecoder with buf := e'.dst, dst := [] }).2.dst = (decode { DecoderState.default with buf := e'.dst }).2.dst ∧
    (decode { (decode { filledDecoder with buf := e'.dst }).2 with buf := e'.dst, dst := [] }).2.dst =
      (decode { DecoderState.default with buf := e'.dst }).2.dst :=
  ⟨{ EncoderState.withDynamicSize 0 with dst := [0x40, 1, 0x61, 1, 0x62, 0x40, 1, 0x61, 1, 0x62, 0x82] },
    Prod.ext (by decide +kernel) (by decide +kernel), by decide +kernel, by decide +kernel, by decide +kernel, by decide +kernel, by decide +kernel⟩

/-- Size 0 is needed: with the default size, the second block of the same headers is an index that another decoder reads differently, or
not at all. -/
example : ∃ (b1 b2 : Bytes) (e' : EncoderState),
    encBlocks [[.header (.Literal [0x61] [0x62] 0x14)], [.header (.Literal [0x61] [0x62] 0x14)]] EncoderState.default = some ([b1, b2], e') ∧
    decBlocks [b1, b2] DecoderState.default ≠ none ∧ decBlocks [b2] DecoderState.default = none :=
  ⟨[0x40, 1, 0x61, 1, 0x62], [0xBE], _, rfl, by decide +kernel, by decide +kernel⟩

end Verif.Props
