import Verif.Props.HpackLimit
import Verif.Props.HpackLifetime
import Verif.Props.HpackSession
/-! Property theorem C123: encoder and decoder whose dynamic tables differ in size. -/
namespace Verif.Props
open Verif Verif.Spec Verif.Hpack

/-- The table `b` has at least the room of `a`, and every entry of `a` under the same index; behind these it may have more, older ones. -/
def Covered (a b : SpecTable) : Prop := a.max ≤ b.max ∧ ∃ older, b.entries = a.entries ++ older

theorem Covered.refl (a : SpecTable) : Covered a a := ⟨Nat.le_refl _, [], (List.append_nil _).symm⟩

theorem keepFitting_within {m m' : Nat} (hm : m ≤ m') : ∀ (l older : List (Octets × Octets)),
    ∃ r, keepFitting m' (l ++ older) = keepFitting m l ++ r := by
  intro l
  induction l generalizing m m' with
  | nil => intro older; exact ⟨_, rfl⟩
  | cons e l ih =>
    intro older
    simp only [List.cons_append, keepFitting]
    by_cases h : entrySize e ≤ m
    · rw [if_pos h, if_pos (Nat.le_trans h hm)]
      obtain ⟨r, hr⟩ := ih (Nat.sub_le_sub_right hm (entrySize e)) older
      exact ⟨r, by rw [hr, List.cons_append]⟩
    · rw [if_neg h]; exact ⟨_, rfl⟩

theorem Covered.addr {a b : SpecTable} (h : Covered a b) {i : Nat} {e : Octets × Octets} (ha : a.addr i = some e) : b.addr i = some e := by
  obtain ⟨_, older, ho⟩ := h
  unfold SpecTable.addr at ha ⊢
  by_cases h0 : i = 0
  · rw [if_pos h0] at ha; cases ha
  · rw [if_neg h0] at ha ⊢
    by_cases h1 : i ≤ 61
    · rw [if_pos h1] at ha ⊢; exact ha
    · rw [if_neg h1] at ha ⊢
      rw [ho, List.getElem?_append_left]
      · exact ha
      · exact (List.getElem?_eq_some_iff.mp ha).1

theorem Covered.insert {a b : SpecTable} (h : Covered a b) (e : Octets × Octets) : Covered (a.insert e) (b.insert e) := by
  obtain ⟨hm, older, ho⟩ := h
  refine ⟨by rw [(insert_keep a e).2, (insert_keep b e).2]; exact hm, ?_⟩
  rw [(insert_keep a e).1, (insert_keep b e).1, ho]
  exact keepFitting_within hm (e :: a.entries) older

theorem Covered.resize {a b : SpecTable} (h : Covered a b) (n : Nat) : Covered (a.resize n) (b.resize n) := by
  obtain ⟨_, older, ho⟩ := h
  refine ⟨Nat.le_refl _, ?_⟩
  show ∃ older, keepFitting n b.entries = keepFitting n a.entries ++ older
  rw [ho]
  exact keepFitting_within (Nat.le_refl _) _ _

theorem Covered.apply {a b : SpecTable} (h : Covered a b) {l l' : Nat} (hl : l ≤ l') {r : Rep} {hd : Option Field} {a' : SpecTable}
    (ha : r.apply l a = some (hd, a')) : ∃ b', r.apply l' b = some (hd, b') ∧ Covered a' b' := by
  cases r with
  | indexed i =>
    simp only [Rep.apply] at ha ⊢
    cases hc : a.addr i with
    | none => rw [hc] at ha; cases ha
    | some e =>
      obtain ⟨n, v⟩ := e
      rw [hc] at ha
      rw [h.addr hc]
      simp only [Option.some.injEq, Prod.mk.injEq] at ha ⊢
      obtain ⟨rfl, rfl⟩ := ha
      exact ⟨b, ⟨rfl, rfl⟩, h⟩
  | literal m nm v =>
    simp only [Rep.apply] at ha ⊢
    cases hc : nm.resolve a with
    | none => rw [hc] at ha; cases ha
    | some n =>
      have hb : nm.resolve b = some n := by
        cases nm with
        | new _ => exact hc
        | index i =>
          simp only [NameRef.resolve, Option.map_eq_some_iff] at hc ⊢
          obtain ⟨e, h1, h2⟩ := hc
          exact ⟨e, h.addr h1, h2⟩
      rw [hc] at ha
      rw [hb]
      simp only [Option.some.injEq, Prod.mk.injEq] at ha ⊢
      obtain ⟨rfl, rfl⟩ := ha
      refine ⟨_, ⟨rfl, rfl⟩, ?_⟩
      by_cases hm : m = .incremental
      · rw [if_pos hm, if_pos hm]; exact h.insert _
      · rw [if_neg hm, if_neg hm]; exact h
  | sizeUpdate n =>
    simp only [Rep.apply] at ha ⊢
    by_cases hn : n ≤ l
    · rw [if_pos hn] at ha
      rw [if_pos (Nat.le_trans hn hl)]
      simp only [Option.some.injEq, Prod.mk.injEq] at ha ⊢
      obtain ⟨rfl, rfl⟩ := ha
      exact ⟨_, ⟨rfl, rfl⟩, h.resize n⟩
    · rw [if_neg hn] at ha; cases ha

theorem Covered.applyAll {l l' : Nat} (hl : l ≤ l') : ∀ (rs : List Rep) {a b : SpecTable} {hs : List Field} {a' : SpecTable}, Covered a b →
    applyAll l a rs = some (hs, a') → ∃ b', applyAll l' b rs = some (hs, b') ∧ Covered a' b' := by
  intro rs
  induction rs with
  | nil =>
    intro a b hs a' h ha
    simp only [Spec.applyAll, Option.some.injEq, Prod.mk.injEq] at ha ⊢
    obtain ⟨rfl, rfl⟩ := ha
    exact ⟨b, ⟨rfl, rfl⟩, h⟩
  | cons r rs ih =>
    intro a b hs a' h ha
    simp only [Spec.applyAll] at ha ⊢
    cases h1 : r.apply l a with
    | none => simp [h1] at ha
    | some q =>
      obtain ⟨hd, a1⟩ := q
      obtain ⟨b1, h2, h3⟩ := h.apply hl h1
      rw [h1] at ha
      rw [h2]
      simp only at ha ⊢
      cases h4 : Spec.applyAll l a1 rs with
      | none => simp [h4] at ha
      | some q2 =>
        obtain ⟨hs2, a2⟩ := q2
        obtain ⟨b2, h5, h6⟩ := ih h3 h4
        rw [h4] at ha
        rw [h5]
        simp only [Option.some.injEq, Prod.mk.injEq] at ha ⊢
        obtain ⟨rfl, rfl⟩ := ha
        exact ⟨b2, ⟨rfl, rfl⟩, h6⟩

theorem Covered.block {a b : SpecTable} (h : Covered a b) {l l' : Nat} (hl : l ≤ l') {pads : List (List Bool)} {bs : Octets}
    {ws : List (Rep × Octets)} {hs : List Field} {a' : SpecTable} (ha : Block pads l a bs ws hs a') :
    ∃ b', Block pads l' b bs ws hs b' ∧ Covered a' b' := by
  obtain ⟨b', h1, h2⟩ := Covered.applyAll hl _ h ha.2.2
  exact ⟨b', ⟨ha.1, ha.2.1, h1⟩, h2⟩

theorem Covered.isSome {a b : SpecTable} (h : Covered a b) {i : Nat} (ha : (a.addr i).isSome) : (b.addr i).isSome := by
  obtain ⟨e, he⟩ := Option.isSome_iff_exists.mp ha
  rw [h.addr he]; rfl

theorem Covered.defect {a b : SpecTable} (h : Covered a b) {l l' : Nat} {pads : List (List Bool)} {bs : Octets} {e : DecoderError}
    (hd : RepDefect pads l a bs e) (h1 : e ≠ .InvalidIndex) (h2 : e ≠ .InvalidMaxDynamicSize) : RepDefect pads l' b bs e := by
  cases hd with
  | intTooLong h => exact .intTooLong h
  | index _ _ => exact absurd rfl h1
  | nameIndex m _ _ _ => exact absurd rfl h1
  | size _ _ => exact absurd rfl h2
  | valueAfterIndex m h0 hw hi hr => exact .valueAfterIndex m h0 hw (h.isSome hi) hr
  | name m hw hr => exact .name m hw hr
  | value m hw h2 hr => exact .value m hw h2 hr

theorem Covered.cut {a b : SpecTable} (h : Covered a b) {pads : List (List Bool)} {bs : Octets} (hc : RepCut pads a bs) : RepCut pads b bs := by
  rcases hc with hc | ⟨m, i, b1, r, h0, h1, h2⟩ | hc | hc
  · exact .inl hc
  · exact .inr (.inl ⟨m, i, b1, r, h0, h.isSome h1, h2⟩)
  · exact .inr (.inr (.inl hc))
  · exact .inr (.inr (.inr hc))

theorem Covered.blockEnd {a b : SpecTable} (h : Covered a b) {l l' k : Nat} {bs : Octets} {r : Res DecoderError Nat} (he : BlockEnd l a k bs r)
    (h1 : r ≠ .err .InvalidIndex) (h2 : r ≠ .err .InvalidMaxDynamicSize) : BlockEnd l' b k bs r := by
  cases he with
  | complete => exact .complete
  | defect hd => exact .defect (h.defect hd (by rintro rfl; exact h1 rfl) (by rintro rfl; exact h2 rfl))
  | cut hc => exact .cut (h.cut hc)

/-- The headers of a beginning of the input are a beginning of the headers. -/
theorem begins_with {s : DecoderState} (hwf : s.table.WF) {used rest : Bytes} {ws : List (Rep × Octets)} {hs : List Field} {t : SpecTable}
    (hb : s.buf = used ++ rest) (h : Block lenientPads s.maxDynamicSize.toNat s.table.spec used ws hs t) :
    ∃ more, (decode s).2.dst = s.dst ++ hs ++ more := by
  obtain ⟨t1, w1, w2, fuel', hf', hrun⟩ := block_steps h s s.buf.length 0 rest hwf rfl rfl hb (Nat.le_refl _)
  let x : DecoderState := { s with buf := rest, dst := s.dst ++ hs, table := t1 }
  have hx := (decodeLoop_shift fuel' x.buf.length (headerOctets ws).length 0 x w1 hf' (Nat.le_refl _)).1
  obtain ⟨_, _, hs', _, _, g3, _⟩ := (C120_verdict x (decode x).2 w1 (decode x).1).mp rfl
  refine ⟨hs', ?_⟩
  have e2 : (decode s).2 = (decode x).2 := by
    show (decodeLoop s.buf.length 0 s).2 = (decodeLoop x.buf.length 0 x).2
    rw [hrun, Nat.zero_add]
    exact hx
  rw [e2, g3]

/-- C123. Two decoders on the same octets, the second with the larger table and the higher limit: whatever the octets, the first delivers
a beginning of the headers of the second. Unless it stops with `InvalidIndex` or `InvalidMaxDynamicSize`, both return the same, deliver the
same headers and leave the same octets, and the tables are related as before. -/
theorem C123_two_decoders (s d : DecoderState) (hs : s.table.WF) (hd : d.table.WF) (ht : Covered s.table.spec d.table.spec)
    (hl : s.maxDynamicSize ≤ d.maxDynamicSize) (hb : s.buf = d.buf) :
    ∃ hdrs more, (decode s).2.dst = s.dst ++ hdrs ∧ (decode d).2.dst = d.dst ++ hdrs ++ more ∧
      ((decode s).1 ≠ .err .InvalidIndex → (decode s).1 ≠ .err .InvalidMaxDynamicSize →
        more = [] ∧ (decode d).1 = (decode s).1 ∧ (decode d).2.buf = (decode s).2.buf ∧
          Covered (decode s).2.table.spec (decode d).2.table.spec) := by
  obtain ⟨used, ws, hdrs, h1, h2, h3, h4, h5, h6, h7⟩ := (C120_verdict s (decode s).2 hs (decode s).1).mp rfl
  obtain ⟨t', g1, g2⟩ := ht.block (UInt32.le_iff_toNat_le.mp hl) h2
  have hbd : d.buf = used ++ (decode s).2.buf := by rw [← hb]; exact h1
  by_cases hr : (decode s).1 ≠ .err .InvalidIndex ∧ (decode s).1 ≠ .err .InvalidMaxDynamicSize
  · obtain ⟨T, w1, w2, _⟩ := block_steps g1 d d.buf.length 0 (decode s).2.buf hd rfl rfl hbd (Nat.le_refl _)
    have hdec : decode d = ((decode s).1, { d with buf := (decode s).2.buf, dst := d.dst ++ hdrs, table := T }) :=
      (C120_verdict d _ hd _).mpr ⟨used, ws, hdrs, hbd, by rw [← w2] at g1; exact g1, rfl, w1, rfl, rfl,
        by rw [← w2] at g2; exact g2.blockEnd h7 hr.1 hr.2⟩
    refine ⟨hdrs, [], h3, by rw [hdec, List.append_nil], fun _ _ => ⟨rfl, by rw [hdec], by rw [hdec], by rw [hdec]; rw [← w2] at g2; exact g2⟩⟩
  · obtain ⟨more, hm⟩ := begins_with hd hbd g1
    exact ⟨hdrs, more, h3, hm, fun a b => absurd ⟨a, b⟩ hr⟩

/-- C123. A decoder whose table is larger than the encoder's (or holds more): every session is decoded to the headers the calls mean, and
the tables stay related, so this goes on. -/
theorem C123_larger_decoder (e e' : EncoderState) (d : DecoderState) (ops : List SessionOp) (hwf : e.table.WF) (hd : d.table.WF)
    (ht : Covered e.table.spec d.table.spec) (hfit : ∀ op ∈ ops, OpFits d.maxDynamicSize.toNat op)
    (h : encSession ops { e with dst := [] } = (.ok (), e')) :
    ∃ hs k d', SessionMeans d.maxDynamicSize.toNat e.table.spec ops hs e'.table.spec ∧ decode { d with buf := e'.dst } = (.ok k, d') ∧
      d'.dst = d.dst ++ hs ∧ d'.buf = [] ∧ d'.table.WF ∧ Covered e'.table.spec d'.table.spec := by
  obtain ⟨hs, k, h1, h2, h3⟩ := C28_session e e' { d with table := e.table } ops hwf rfl hfit h
  obtain ⟨hdrs, more, g1, g2, g3⟩ := C123_two_decoders { d with table := e.table, buf := e'.dst } { d with buf := e'.dst } hwf hd ht
    UInt32.le_rfl rfl
  have hdec : decode { d with table := e.table, buf := e'.dst } = (.ok k, { d with buf := [], dst := d.dst ++ hs, table := e'.table }) := h2
  rw [hdec] at g1 g3
  obtain ⟨rfl, g4, g5, g6⟩ := g3 (by simp) (by simp)
  obtain rfl : hs = hdrs := List.append_cancel_left g1
  rw [List.append_nil] at g2
  obtain ⟨_, _, _, _, _, _, w, _⟩ := (C120_verdict { d with buf := e'.dst } _ hd _).mp rfl
  exact ⟨hs, k, (decode { d with buf := e'.dst }).2, h1, Prod.ext g4 rfl, g2, g5, w, g6⟩

/-- C123. In particular for a fresh encoder and a fresh decoder that was created with at least the size of the encoder. -/
theorem C123_fresh_larger (m m' : UInt32) (hm : m ≤ m') (ops : List SessionOp) (e' : EncoderState) (hfit : ∀ op ∈ ops, OpFits m'.toNat op)
    (h : encSession ops (EncoderState.withDynamicSize m) = (.ok (), e')) :
    ∃ hs k d', SessionMeans m'.toNat ⟨[], m.toNat⟩ ops hs e'.table.spec ∧
      decode { DecoderState.withDynamicSize m' with buf := e'.dst } = (.ok k, d') ∧ d'.dst = hs ∧ d'.buf = [] := by
  obtain ⟨hs, k, d', h1, h2, h3, h4, _⟩ := C123_larger_decoder (EncoderState.withDynamicSize m) e' (DecoderState.withDynamicSize m') ops
    (Table.withDynamicSize_WF m) (Table.withDynamicSize_WF m') ⟨UInt32.le_iff_toNat_le.mp hm, [], rfl⟩ hfit h
  exact ⟨hs, k, d', h1, h2, h3, h4⟩

/-- C123. A decoder whose table is smaller than the encoder's never delivers a wrong header: what it delivers is a beginning of the headers the
calls mean; it delivers all of them, unless it stops with `InvalidIndex` (or, if the encoder announced a size beyond its limit, with
`InvalidMaxDynamicSize`). -/
theorem C123_smaller_decoder (e e' : EncoderState) (d : DecoderState) (ops : List SessionOp) (hwf : e.table.WF) (hd : d.table.WF)
    (ht : Covered d.table.spec e.table.spec) (hfit : ∀ op ∈ ops, OpFits (2 ^ 32) op)
    (h : encSession ops { e with dst := [] } = (.ok (), e')) :
    ∃ hs hs' d', SessionMeans (2 ^ 32 - 1) e.table.spec ops (hs ++ hs') e'.table.spec ∧ d'.dst = d.dst ++ hs ∧
      ((∃ k, decode { d with buf := e'.dst } = (.ok k, d') ∧ hs' = [] ∧ d'.buf = [] ∧ Covered d'.table.spec e'.table.spec) ∨
       decode { d with buf := e'.dst } = (.err .InvalidIndex, d') ∨
       decode { d with buf := e'.dst } = (.err .InvalidMaxDynamicSize, d')) := by
  let x : DecoderState := { d with table := e.table, maxDynamicSize := 0xFFFFFFFF }
  have hx : x.maxDynamicSize.toNat = 2 ^ 32 - 1 := rfl
  obtain ⟨hs, k, h1, h2, h3⟩ := C28_session e e' x ops hwf rfl
    (fun op ho => by
      have := hfit op ho
      cases op with
      | header i => exact this
      | resize n => exact ⟨by rw [hx]; have := n.toNat_lt; omega, this.2⟩) h
  obtain ⟨hdrs, more, g1, g2, g3⟩ := C123_two_decoders { d with buf := e'.dst } { x with buf := e'.dst } hd hwf ht
    (UInt32.le_iff_toNat_le.mpr (by show d.maxDynamicSize.toNat ≤ 2 ^ 32 - 1; have := d.maxDynamicSize.toNat_lt; omega)) rfl
  rw [h2] at g2 g3
  have hh : hs = hdrs ++ more := by
    have : d.dst ++ hs = d.dst ++ (hdrs ++ more) := by rw [← List.append_assoc]; exact g2
    exact List.append_cancel_left this
  rw [hx, hh] at h1
  refine ⟨hdrs, more, (decode { d with buf := e'.dst }).2, h1, g1, ?_⟩
  by_cases c1 : (decode { d with buf := e'.dst }).1 = .err .InvalidIndex
  · exact .inr (.inl (Prod.ext c1 rfl))
  · by_cases c2 : (decode { d with buf := e'.dst }).1 = .err .InvalidMaxDynamicSize
    · exact .inr (.inr (Prod.ext c2 rfl))
    · obtain ⟨m1, m2, m3, m4⟩ := g3 c1 c2
      exact .inl ⟨k, Prod.ext m2.symm rfl, m1, m3.symm, m4⟩

/-! An encoder of size 80 stores `a: 1` and `b: 2`, then refers to both; the decoders have sizes 4096, 80, 40 and 0. -/

/-- The headers `a: 1` and `b: 2`, both stored, then both again by their indices. -/
def mismatchOps : List SessionOp :=
  [.header (.Literal [97] [49] 4), .header (.Literal [98] [50] 4), .header (.Indexed 62), .header (.Indexed 63)]

example : (encSession mismatchOps (EncoderState.withDynamicSize 80)).1 = .ok () ∧
    (encSession mismatchOps (EncoderState.withDynamicSize 80)).2.dst = [64, 1, 97, 1, 49, 64, 1, 98, 1, 50, 190, 191] := by decide +kernel
example : (∀ op ∈ mismatchOps, OpFits 4096 op) ∧ (80 : UInt32) ≤ 4096 := by
  refine ⟨fun op h => ?_, by decide⟩
  simp only [mismatchOps, List.mem_cons, List.not_mem_nil, or_false] at h
  rcases h with rfl | rfl | rfl | rfl <;> simp only [OpFits, InputFits] <;> decide
example : (decode { DecoderState.withDynamicSize 4096 with buf := [64, 1, 97, 1, 49, 64, 1, 98, 1, 50, 190, 191] }).2.dst =
    [([97], [49], 4), ([98], [50], 4), ([98], [50], 0), ([97], [49], 0)] := by decide +kernel
example : (decode { DecoderState.withDynamicSize 40 with buf := [64, 1, 97, 1, 49, 64, 1, 98, 1, 50, 190, 191] }).1 = .err .InvalidIndex ∧
    (decode { DecoderState.withDynamicSize 40 with buf := [64, 1, 97, 1, 49, 64, 1, 98, 1, 50, 190, 191] }).2.dst =
    [([97], [49], 4), ([98], [50], 4), ([98], [50], 0)] := by decide +kernel
example : (decode { DecoderState.withDynamicSize 0 with buf := [64, 1, 97, 1, 49, 64, 1, 98, 1, 50, 190, 191] }).1 = .err .InvalidIndex := by
  decide +kernel

end Verif.Props
