import Verif.Props.HpackMismatch
import Verif.Props.HpackUpdates
import Verif.Props.HpackLifetime
/-! Property theorem C126: getting the tables of an encoder and a decoder in step again. -/
namespace Verif.Props
open Verif Verif.Spec Verif.Hpack

/-- Calls whose octets do not refer to the dynamic table: size updates, headers or names by an index of the static table, and literals without
BEST_FORMAT. -/
def TableFree : SessionOp → Prop
  | .resize _ => True
  | .header (.Indexed i) => i.toNat ≤ 61
  | .header (.IndexedName i _ _) => i.toNat ≤ 61
  | .header (.Literal _ _ f) => f.toNat.testBit 4 = false

/-- Those of the headers that the table is to store (flag WITH_INDEXING), the newest one first. -/
def storedNewest (hs : List Field) : List (Octets × Octets) := ((hs.filter fun h => h.2.2 == 4).map fun h => (h.1, h.2.1)).reverse

theorem storedNewest_cons (h : Field) (hs : List Field) :
    storedNewest (h :: hs) = storedNewest hs ++ (if h.2.2 == 4 then [(h.1, h.2.1)] else []) := by
  unfold storedNewest
  by_cases hf : h.2.2 == 4 <;> simp [hf]

theorem static_same {t t2 : SpecTable} {i : Nat} (h : i ≤ 61) : t.addr i = t2.addr i := by
  simp only [SpecTable.addr, h, if_true]

/-- The table after a header. -/
def stepTable (t : SpecTable) (h : Field) : SpecTable := if h.2.2 == 4 then t.insert (h.1, h.2.1) else t

theorem literal_step (limit : Nat) (t : SpecTable) (m : Indexing) (name : NameRef) (v n : Octets) (h : name.resolve t = some n) :
    (Rep.literal m name v).apply limit t = some (some (n, v, m.flag), stepTable t (n, v, m.flag)) := by
  simp only [Rep.apply, h]
  cases m <;> rfl

theorem free_step {limit : Nat} {t t1 : SpecTable} {input : EncoderInput} {rep : Rep} {hdr : Field} (hf : TableFree (.header input))
    (hc : Chosen t input rep) (ha : rep.apply limit t = some (some hdr, t1)) (t2 : SpecTable) :
    Chosen t2 input rep ∧ rep.apply limit t2 = some (some hdr, stepTable t2 hdr) := by
  cases hc with
  | indexed i =>
    refine ⟨.indexed i, ?_⟩
    have e : t2.addr i.toNat = t.addr i.toNat := static_same hf
    simp only [Rep.apply, e] at ha ⊢
    cases hx : t.addr i.toNat with
    | none => rw [hx] at ha; simp at ha
    | some p =>
      rw [hx] at ha
      simp only [Option.some.injEq, Prod.mk.injEq] at ha
      rw [← ha.1]
      rfl
  | indexedName i v f =>
    refine ⟨.indexedName i v f, ?_⟩
    have e : t2.addr i.toNat = t.addr i.toNat := static_same hf
    cases hx : t.addr i.toNat with
    | none => simp [Rep.apply, NameRef.resolve, hx] at ha
    | some p =>
      rw [literal_step limit t _ _ _ p.1 (by simp [NameRef.resolve, hx])] at ha
      simp only [Option.some.injEq, Prod.mk.injEq] at ha
      rw [literal_step limit t2 _ _ _ p.1 (by simp [NameRef.resolve, e, hx]), ha.1]
  | literal n v f hb =>
    refine ⟨.literal n v f hb, ?_⟩
    rw [literal_step limit t _ _ _ n rfl] at ha
    simp only [Option.some.injEq, Prod.mk.injEq] at ha
    rw [literal_step limit t2 _ _ _ n rfl, ha.1]
  | bestFull n v f hb => exact absurd (hf.symm.trans hb) (by decide)
  | bestName n v f hb => exact absurd (hf.symm.trans hb) (by decide)
  | bestNew n v f hb => exact absurd (hf.symm.trans hb) (by decide)

theorem free_emits {limit : Nat} (ops : List SessionOp) : ∀ {e e' : EncoderState}, e.table.WF →
    (∀ op ∈ ops, OpFits limit op) → (∀ op ∈ ops, TableFree op) → encSession ops e = (.ok (), e') →
    ∃ bs ws hs, e'.dst = e.dst ++ bs ∧ e'.table.WF ∧ Block lenientPads limit e.table.spec bs ws hs e'.table.spec ∧
      ∀ t2, ∃ t2', Block lenientPads limit t2 bs ws hs t2' ∧ SessionMeans limit t2 ops hs t2' ∧
        ((∀ op ∈ ops, ∃ input, op = .header input) → t2' = hs.foldl stepTable t2) := by
  induction ops with
  | nil =>
    intro e e' hwf _ _ h
    simp only [encSession, M.pure_apply, Prod.mk.injEq, true_and] at h
    subst h
    exact ⟨[], [], [], by simp, hwf, block_nil _ _, fun t2 => ⟨t2, block_nil _ _, .nil _, fun _ => rfl⟩⟩
  | cons op ops ih =>
    intro e e' hwf hfit hfree h
    simp only [encSession, M.bind_apply] at h
    rcases h1 : encOp op e with ⟨r, e1⟩
    rw [h1] at h
    cases r with
    | ok u =>
      simp only at h
      cases op with
      | header input =>
        obtain ⟨rep, bs, hdr, hc, hd, hw, ha, hwf1⟩ := encode_emits limit hwf (hfit (.header input) (by simp) : InputFits input) h1
        obtain ⟨bs', ws, hs, hd', hwf', hb, hall⟩ := ih hwf1 (fun o ho => hfit o (by simp [ho])) (fun o ho => hfree o (by simp [ho])) h
        refine ⟨bs ++ bs', _, _, by rw [hd', hd, List.append_assoc], hwf', block_cons hw ha hb, fun t2 => ?_⟩
        obtain ⟨c2, a2⟩ := free_step (hfree (.header input) (by simp)) hc ha t2
        obtain ⟨t2', b2, m2, f2⟩ := hall (stepTable t2 hdr)
        exact ⟨t2', block_cons hw a2 b2, .header c2 a2 m2, fun ho => f2 fun o h => ho o (by simp [h])⟩
      | resize n =>
        have hn : n.toNat ≤ limit ∧ n.toNat < 2 ^ 28 + 31 := hfit (.resize n) (by simp)
        obtain ⟨bs, t', hwf1, hsp, he, _, hw, _⟩ := encUpdate_spec e hwf n
        have : e1 = { e with dst := e.dst ++ bs, table := t' } := by
          have := h1.symm.trans (show encOp (.resize n) e = _ from he)
          simpa using this
        subst this
        obtain ⟨bs', ws, hs, hd', hwf', hb, hall⟩ := ih hwf1 (fun o ho => hfit o (by simp [ho])) (fun o ho => hfree o (by simp [ho])) h
        simp only [hsp] at hb hd'
        have key : ∀ t2 t2' : SpecTable, Block lenientPads limit (t2.resize n.toNat) bs' ws hs t2' →
            Block lenientPads limit t2 (bs ++ bs') ((.sizeUpdate n.toNat, bs) :: ws) hs t2' := by
          intro t2 t2' hb2
          have := block_cons (rep := .sizeUpdate n.toNat) (hdr := none) (t := t2) (limit := limit)
            ⟨false, false, hw hn.2⟩ (by simp [Rep.apply, hn.1]) hb2
          simpa using this
        refine ⟨bs ++ bs', (.sizeUpdate n.toNat, bs) :: ws, hs, by rw [hd', List.append_assoc], hwf', key _ _ hb, fun t2 => ?_⟩
        obtain ⟨t2', b2, m2, f2⟩ := hall (t2.resize n.toNat)
        refine ⟨t2', key _ _ b2, .resize hn.1 m2, fun ho => ?_⟩
        obtain ⟨i, hi⟩ := ho (.resize n) (by simp)
        exact absurd hi (by simp)
    | err e => simp at h
    | panic => simp at h
    | hang => simp at h

/-- C126. Calls that do not refer to the dynamic table are understood by every decoder, whatever its table holds: the headers are those that the
calls mean. -/
theorem C126_table_free (e e' : EncoderState) (d : DecoderState) (ops : List SessionOp) (hwf : e.table.WF) (hd : d.table.WF)
    (hfree : ∀ op ∈ ops, TableFree op) (hfit : ∀ op ∈ ops, OpFits d.maxDynamicSize.toNat op)
    (h : encSession ops { e with dst := [] } = (.ok (), e')) :
    ∃ hs k t', SessionMeans d.maxDynamicSize.toNat e.table.spec ops hs e'.table.spec ∧
      decode { d with buf := e'.dst } = (.ok k, { d with buf := [], dst := d.dst ++ hs, table := t' }) ∧
      SessionMeans d.maxDynamicSize.toNat d.table.spec ops hs t'.spec ∧ t'.WF := by
  obtain ⟨bs, ws, hs, hb, hwf', hblk, hall⟩ := free_emits ops (e := { e with dst := [] }) hwf hfit hfree h
  simp only [List.nil_append] at hb
  subst hb
  obtain ⟨t1, b1, m1, _⟩ := hall e.table.spec
  obtain ⟨t2, b2, m2, _⟩ := hall d.table.spec
  have : t1 = e'.table.spec := by
    have := b1.2.2.symm.trans hblk.2.2
    simpa using this
  subst this
  obtain ⟨t', w1, w2, w3⟩ := decode_block (s := { d with buf := e'.dst }) hd b2
  subst w2
  exact ⟨hs, _, t', m1, w3, m2, w1⟩

theorem session_dst {ops : List SessionOp} {e1 e' : EncoderState} (h : encSession ops e1 = (.ok (), e')) :
    ∃ f, encSession ops { e1 with dst := [] } = (.ok (), f) ∧ f.table = e'.table ∧ e'.dst = e1.dst ++ f.dst := by
  have hA := encSession_appends ops { e1 with dst := [] } e1.dst
  have he : ({ e1 with dst := e1.dst ++ [] } : EncoderState) = e1 := by rw [List.append_nil]
  rw [show ({ ({ e1 with dst := [] } : EncoderState) with dst := e1.dst ++ ({ e1 with dst := [] } : EncoderState).dst } : EncoderState) = e1 from he, h] at hA
  simp only [Prod.mk.injEq] at hA
  refine ⟨(encSession ops { e1 with dst := [] }).2, Prod.ext hA.1.symm rfl, ?_, ?_⟩
  · have := congrArg EncoderState.table hA.2; exact this.symm
  · have := congrArg EncoderState.dst hA.2; exact this

/-- Once the tables are equal, C28 applies to all that follows. -/
theorem then_session {e1 e' : EncoderState} {d : DecoderState} {ops : List SessionOp} {hs1 : List Field} {k1 : Nat} (hd : d.table.WF)
    (hwf1 : e1.table.WF) (h1 : decode { d with buf := e1.dst } = (.ok k1, { d with buf := [], dst := d.dst ++ hs1, table := e1.table }))
    (hfit : ∀ op ∈ ops, OpFits d.maxDynamicSize.toNat op) (h2 : encSession ops e1 = (.ok (), e')) :
    ∃ hs k, SessionMeans d.maxDynamicSize.toNat e1.table.spec ops hs e'.table.spec ∧
      decode { d with buf := e'.dst } = (.ok k, { d with buf := [], dst := d.dst ++ hs1 ++ hs, table := e'.table }) := by
  obtain ⟨f, hf, ft, fd⟩ := session_dst h2
  obtain ⟨hs, k, m, hdec, _⟩ := C28_session e1 f { d with buf := [], dst := d.dst ++ hs1, table := e1.table } ops hwf1 rfl hfit hf
  obtain ⟨p1, p2⟩ := C34_pieces d _ hd e1.dst f.dst k1 h1
  rw [hdec] at p1 p2
  refine ⟨hs, k1 + k, by rw [← ft]; exact m, ?_⟩
  rw [fd]
  refine Prod.ext p2 (p1.trans ?_)
  rw [ft]

/-- C126. Reset: however the tables of an encoder and a decoder have come apart, after a size update to 0 and one to a size that the
decoder allows they are equal, and everything sent afterwards is decoded to the headers that the calls mean. -/
theorem C126_reset (e e' : EncoderState) (d : DecoderState) (n : UInt32) (ops : List SessionOp) (hwf : e.table.WF) (hd : d.table.WF)
    (hn : OpFits d.maxDynamicSize.toNat (.resize n)) (hfit : ∀ op ∈ ops, OpFits d.maxDynamicSize.toNat op)
    (h : encSession (.resize 0 :: .resize n :: ops) { e with dst := [] } = (.ok (), e')) :
    ∃ hs k, SessionMeans d.maxDynamicSize.toNat ⟨[], n.toNat⟩ ops hs e'.table.spec ∧
      decode { d with buf := e'.dst } = (.ok k, { d with buf := [], dst := d.dst ++ hs, table := e'.table }) := by
  obtain ⟨e1, h1, h2⟩ := (encSession_append [.resize 0, .resize n] ops _ _).mp h
  have hf0 : ∀ op ∈ [SessionOp.resize 0, .resize n], OpFits d.maxDynamicSize.toNat op := by
    intro op ho
    simp only [List.mem_cons, List.not_mem_nil, or_false] at ho
    rcases ho with rfl | rfl
    · exact ⟨Nat.zero_le _, by decide⟩
    · exact hn
  have hfree : ∀ op ∈ [SessionOp.resize 0, .resize n], TableFree op := by
    intro op ho
    simp only [List.mem_cons, List.not_mem_nil, or_false] at ho
    rcases ho with rfl | rfl <;> trivial
  obtain ⟨hs1, k1, t', m1, d1, m2, w⟩ := C126_table_free e e1 d _ hwf hd hfree hf0 h1
  have only : ∀ {t t2 : SpecTable} {hs : List Field}, SessionMeans d.maxDynamicSize.toNat t [.resize 0, .resize n] hs t2 →
      hs = [] ∧ t2 = ⟨[], n.toNat⟩ := by
    intro t t2 hs hm
    cases hm with
    | resize _ hm => cases hm with
      | resize _ hm => cases hm with
        | nil =>
          refine ⟨rfl, ?_⟩
          simp only [SpecTable.resize, SpecTable.mk.injEq, and_true]
          rw [keepFitting_twice]
          cases t.entries with
          | nil => rfl
          | cons x l =>
            rw [keepFitting, if_neg]
            simp only [entrySize, UInt32.toNat_zero]
            omega
  obtain ⟨rfl, e1s⟩ := only m1
  obtain ⟨_, t's⟩ := only m2
  have hwf1 : e1.table.WF := by
    obtain ⟨_, _, _, _, w, _⟩ := free_emits (limit := d.maxDynamicSize.toNat) _ (e := { e with dst := [] }) hwf hf0 hfree h1
    exact w
  obtain rfl : t' = e1.table := Table.WF.ext w hwf1 (t's.trans e1s.symm)
  obtain ⟨hs, k, m, hdec⟩ := then_session hd hwf1 d1 hfit h2
  rw [e1s] at m
  exact ⟨hs, k, m, by rw [hdec, List.append_nil]⟩

theorem keepFitting_cons_keep (m : Nat) (h : Octets × Octets) (l : List (Octets × Octets)) :
    keepFitting m (h :: keepFitting m l) = keepFitting m (h :: l) := by
  simp only [keepFitting]
  split
  · rw [keepFitting_twice, Nat.min_eq_right (Nat.sub_le _ _)]
  · rfl

theorem keepFitting_append_keep (m : Nat) (a l : List (Octets × Octets)) : keepFitting m (a ++ keepFitting m l) = keepFitting m (a ++ l) := by
  induction a with
  | nil => rw [List.nil_append, keepFitting_twice, Nat.min_self]; rfl
  | cons h a ih =>
    rw [List.cons_append, List.cons_append, ← keepFitting_cons_keep, ih, keepFitting_cons_keep]

theorem foldl_step (hs : List Field) : ∀ t : SpecTable, tableSize t.entries ≤ t.max →
    hs.foldl stepTable t = ⟨keepFitting t.max (storedNewest hs ++ t.entries), t.max⟩ := by
  induction hs with
  | nil =>
    intro t ht
    show t = _
    rw [show storedNewest [] ++ t.entries = t.entries from rfl, keepFitting_of_le ht]
  | cons h hs ih =>
    intro t ht
    rw [List.foldl_cons, storedNewest_cons]
    by_cases hf : h.2.2 == 4
    · have hst : stepTable t h = t.insert (h.1, h.2.1) := by simp [stepTable, hf]
      obtain ⟨i1, i2⟩ := insert_keep t (h.1, h.2.1)
      rw [hst, ih _ (by rw [i1, i2]; exact keepFitting_size _ _), i1, i2, if_pos hf, keepFitting_append_keep, List.append_assoc]
      rfl
    · have hst : stepTable t h = t := by simp [stepTable, hf]
      rw [hst, ih t ht, if_neg hf, List.append_nil]

theorem keepFitting_full (m : Nat) (a x : List (Octets × Octets)) (h : m < tableSize a + 32) : keepFitting m (a ++ x) = keepFitting m a := by
  induction a generalizing m with
  | nil =>
    cases x with
    | nil => rfl
    | cons e x =>
      have : ¬ entrySize e ≤ m := by
        simp only [tableSize_nil] at h
        unfold entrySize; omega
      simp only [List.nil_append, keepFitting, if_neg this]
  | cons e a ih =>
    simp only [List.cons_append, keepFitting]
    split
    · rw [ih]
      rw [tableSize_cons] at h
      omega
    · rfl

/-- C126. The tables also heal without a reset: if both have the same maximal size, it is enough to send stored headers, without reference to the
table, whose sizes sum up to more than the maximal size less 32. All of them are understood, afterwards the tables are equal, and everything sent then is
decoded to the headers that the calls mean. -/
theorem C126_heals (e e1 e' : EncoderState) (d : DecoderState) (lits : List EncoderInput) (ops : List SessionOp) (hwf : e.table.WF) (hd : d.table.WF)
    (hmax : d.getMaxDynamicSize = e.getMaxDynamicSize) (hfree : ∀ i ∈ lits, TableFree (.header i))
    (hfit : ∀ op ∈ lits.map .header ++ ops, OpFits d.maxDynamicSize.toNat op)
    (h1 : encSession (lits.map .header) { e with dst := [] } = (.ok (), e1)) (h2 : encSession ops e1 = (.ok (), e')) :
    ∃ hs1, SessionMeans d.maxDynamicSize.toNat e.table.spec (lits.map .header) hs1 e1.table.spec ∧
      (e.getMaxDynamicSize.toNat < tableSize (storedNewest hs1) + 32 →
        ∃ hs k, SessionMeans d.maxDynamicSize.toNat e1.table.spec ops hs e'.table.spec ∧
          decode { d with buf := e'.dst } = (.ok k, { d with buf := [], dst := d.dst ++ hs1 ++ hs, table := e'.table })) := by
  have hf0 : ∀ op ∈ lits.map SessionOp.header, TableFree op := by
    intro op ho
    obtain ⟨i, hi, rfl⟩ := List.mem_map.mp ho
    exact hfree i hi
  have hh : ∀ op ∈ lits.map SessionOp.header, ∃ input, op = .header input := by
    intro op ho
    obtain ⟨i, _, rfl⟩ := List.mem_map.mp ho
    exact ⟨i, rfl⟩
  obtain ⟨bs, ws, hs1, hb, hwf1, hblk, hall⟩ := free_emits (limit := d.maxDynamicSize.toNat) _ (e := { e with dst := [] }) hwf
    (fun op ho => hfit op (List.mem_append_left _ ho)) hf0 h1
  simp only [List.nil_append] at hb
  subst hb
  obtain ⟨t1, b1, m1, f1⟩ := hall e.table.spec
  obtain ⟨t2, b2, m2, f2⟩ := hall d.table.spec
  have ht1 : t1 = e1.table.spec := by
    have := b1.2.2.symm.trans hblk.2.2
    simpa using this
  subst ht1
  refine ⟨hs1, m1, fun hfull => ?_⟩
  have g1 := (f1 hh).trans (foldl_step hs1 _ (by have := hwf.2; exact this))
  have g2 := (f2 hh).trans (foldl_step hs1 _ (by have := hd.2; exact this))
  have hm : d.table.spec.max = e.table.spec.max := congrArg UInt32.toNat hmax
  have hfull' : e.table.spec.max < tableSize (storedNewest hs1) + 32 := hfull
  rw [keepFitting_full _ _ _ hfull'] at g1
  rw [hm, keepFitting_full _ _ _ hfull', ← g1] at g2
  obtain ⟨t', w1, w2, w3⟩ := decode_block (s := { d with buf := e1.dst }) hd b2
  obtain rfl : t' = e1.table := Table.WF.ext w1 hwf1 (w2.trans g2)
  exact then_session hd hwf1 w3 (fun op ho => hfit op (List.mem_append_right _ ho)) h2

/-! Tables apart: the encoder holds a: b, the decoder c: d. Index 62 is then taken for the wrong header; after a reset it is not. -/
example :
    let e : EncoderState := { table := Table.ofEntries [([0x61], [0x62])] 4096, dst := [] }
    let d : DecoderState := { DecoderState.default with table := Table.ofEntries [([0x63], [0x64])] 4096 }
    e.table.WF ∧ d.table.WF ∧ OpFits d.maxDynamicSize.toNat (.resize 4096) ∧
      (encSession [.header (.Indexed 62)] e).2.dst = [0xbe] ∧ (decode { d with buf := [0xbe] }).2.dst = [([0x63], [0x64], 0)] ∧
      (encSession [.resize 0, .resize 4096, .header (.Literal [0x61] [0x62] 0x14), .header (.Indexed 62)] e).1 = .ok () ∧
      (decode { d with buf := (encSession [.resize 0, .resize 4096, .header (.Literal [0x61] [0x62] 0x14), .header (.Indexed 62)] e).2.dst }).2.dst =
        [([0x61], [0x62], 4), ([0x61], [0x62], 0)] := by
  refine ⟨⟨by unfold Dynamic.Acc; decide +kernel, by decide +kernel⟩, ⟨by unfold Dynamic.Acc; decide +kernel, by decide +kernel⟩, ⟨by decide, by decide⟩, ?_⟩
  refine ⟨?_, ?_, ?_, ?_⟩ <;> decide +kernel

/-! Healing: two stored literals of 34 octets fill a table of 99 octets up to 31, and the tables are equal. In a table of 100 octets the rest has
room for an entry without name and value, so the tables can still differ: the number 32 cannot be made smaller. -/
example :
    let lits : List SessionOp := [.header (.Literal [0x61] [0x62] 0x4), .header (.Literal [0x63] [0x64] 0x4)]
    let after (m : UInt32) : Table × Table :=
      let e : EncoderState := { table := Table.ofEntries [([], [])] m, dst := [] }
      let d : DecoderState := { DecoderState.default with table := Table.withDynamicSize m }
      let e1 := (encSession lits e).2
      (e1.table, (decode { d with buf := e1.dst }).2.table)
    (∀ op ∈ lits, TableFree op) ∧ tableSize [([0x61], [0x62]), ([0x63], [0x64])] = 68 ∧
      (after 99).1.dynamicLen = 2 ∧ (after 99).2.dynamicLen = 2 ∧ (after 100).1.dynamicLen = 3 ∧ (after 100).2.dynamicLen = 2 := by
  refine ⟨?_, by decide +kernel, ?_⟩
  · intro op h
    simp only [List.mem_cons, List.not_mem_nil, or_false] at h
    rcases h with rfl | rfl <;> (show Nat.testBit _ 4 = false) <;> decide
  · decide +kernel

end Verif.Props
