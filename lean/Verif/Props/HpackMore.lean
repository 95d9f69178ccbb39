import Verif.Props.HpackSession
/-! Property theorems C18 (API level), C29, C30, C35, C36, C38, C39 (decoder), reachability of the table invariant. -/
namespace Verif.Props
open Verif Verif.Spec Verif.Hpack
open Verif.Huffman (Speed)

/-- One encoder call read back by a synchronised decoder. -/
theorem encode_then_decode {e e' : EncoderState} {d : DecoderState} {input : EncoderInput} (hwf : e.table.WF)
    (hsync : d.table = e.table) (hfit : InputFits input) (h : encode input { e with dst := [] } = (.ok (), e')) :
    ∃ rep hdr k, Chosen e.table.spec input rep ∧
      rep.apply d.maxDynamicSize.toNat e.table.spec = some (some hdr, e'.table.spec) ∧
      decode { d with buf := e'.dst } = (.ok k, { d with buf := [], dst := d.dst ++ [hdr], table := e'.table }) := by
  obtain ⟨rep, bs, hdr, hc, hd, hw, ha, hwf'⟩ :=
    encode_emits d.maxDynamicSize.toNat (e := { e with dst := [] }) hwf hfit h
  simp only [List.nil_append] at hd
  subst hd
  have hb := block_cons hw ha (block_nil _ _)
  simp only [List.append_nil] at hb
  obtain ⟨t', h1, h2, h3⟩ := decode_block (s := { d with buf := e'.dst }) (by simp only; rw [hsync]; exact hwf)
    (by simpa only [hsync] using hb)
  exact ⟨rep, hdr, _, hc, ha, by rw [h3, Table.WF.ext h1 hwf' h2]; rfl⟩

/-- C29. Name and value survive for every flag octet and every table; the flag reported is the kind of literal asked
for, or none when BEST_FORMAT found the whole header in the table. -/
theorem C29_name_value (e e' : EncoderState) (d : DecoderState) (n v : Bytes) (f : UInt8) (hwf : e.table.WF)
    (hsync : d.table = e.table) (hfit : InputFits (.Literal n v f))
    (h : encode (.Literal n v f) { e with dst := [] } = (.ok (), e')) :
    ∃ flag k, decode { d with buf := e'.dst } =
        (.ok k, { d with buf := [], dst := d.dst ++ [(n, v, flag)], table := e'.table }) ∧
      (f.toNat.testBit 4 = true → (∃ j, e.table.spec.addr j = some (n, v)) → flag = 0) ∧
      ((f.toNat.testBit 4 = false ∨ ∀ j, e.table.spec.addr j ≠ some (n, v)) → flag = (flagMode f).flag) := by
  obtain ⟨rep, hdr, k, hc, ha, hd⟩ := encode_then_decode hwf hsync hfit h
  cases hc with
  | literal _ _ _ hf =>
    simp only [Rep.apply, NameRef.resolve, Option.some.injEq, Prod.mk.injEq] at ha
    obtain ⟨rfl, _⟩ := ha
    exact ⟨_, k, hd, by simp [hf], fun _ => rfl⟩
  | bestFull _ _ _ hf i hl =>
    obtain ⟨⟨x, hx, rfl⟩, _⟩ := hl
    simp only [Rep.apply, hx, Option.some.injEq, Prod.mk.injEq] at ha
    obtain ⟨rfl, _⟩ := ha
    exact ⟨0, k, hd, fun _ _ => rfl, fun h => by rcases h with h | h; (· simp [hf] at h); exact absurd hx (h i)⟩
  | bestName _ _ _ hf hn i hl =>
    obtain ⟨⟨x, hx, hx1⟩, _⟩ := hl
    simp only [Rep.apply, NameRef.resolve, hx, Option.map_some, Option.some.injEq, Prod.mk.injEq] at ha
    obtain ⟨rfl, _⟩ := ha
    rw [hx1] at hd
    exact ⟨_, k, hd, fun _ ⟨j, hj⟩ => absurd hj (hn j), fun _ => rfl⟩
  | bestNew _ _ _ hf hn =>
    simp only [Rep.apply, NameRef.resolve, Option.some.injEq, Prod.mk.injEq] at ha
    obtain ⟨rfl, _⟩ := ha
    exact ⟨_, k, hd, fun _ ⟨j, hj⟩ => absurd rfl (hn j _ hj), fun _ => rfl⟩

/-- C29. Inputs that refer to the table: the decoded name is that of the entry, the value is the given one or that of
the entry. -/
theorem C29_indexed (e e' : EncoderState) (d : DecoderState) (i : UInt32) (hwf : e.table.WF) (hsync : d.table = e.table)
    (h : encode (.Indexed i) { e with dst := [] } = (.ok (), e')) :
    ∃ n v k, e.table.get i = some (n, v) ∧ decode { d with buf := e'.dst } =
        (.ok k, { d with buf := [], dst := d.dst ++ [(n, v, 0)], table := e.table }) ∧ e'.table.spec = e.table.spec := by
  have hwf' : e'.table.WF := by
    rcases C40_encode_failures { e with dst := [] } hwf (.Indexed i) with ⟨s, hs, hw⟩ | ⟨hs, _⟩ | ⟨s, hs, _⟩
    · rw [h] at hs; simp only [Prod.mk.injEq, true_and] at hs; rw [hs]; exact hw
    · rw [h] at hs; simp at hs
    · rw [h] at hs; simp at hs
  obtain ⟨rep, hdr, k, hc, ha, hd⟩ := encode_then_decode hwf hsync (show InputFits (.Indexed i) from trivial) h
  cases hc with
  | indexed _ =>
    simp only [Rep.apply] at ha
    split at ha
    · rename_i n v hx
      simp only [Option.some.injEq, Prod.mk.injEq] at ha
      obtain ⟨rfl, ht⟩ := ha
      have := Table.WF.ext hwf hwf' ht
      exact ⟨n, v, k, by rw [Table.get_spec, hx], by rw [hd, ← this], ht.symm⟩
    · simp at ha

theorem C29_indexed_name (e e' : EncoderState) (d : DecoderState) (i : UInt32) (v : Bytes) (f : UInt8) (hwf : e.table.WF)
    (hsync : d.table = e.table) (hfit : InputFits (.IndexedName i v f))
    (h : encode (.IndexedName i v f) { e with dst := [] } = (.ok (), e')) :
    ∃ n w k, e.table.get i = some (n, w) ∧ decode { d with buf := e'.dst } =
        (.ok k, { d with buf := [], dst := d.dst ++ [(n, v, (flagMode f).flag)], table := e'.table }) := by
  obtain ⟨rep, hdr, k, hc, ha, hd⟩ := encode_then_decode hwf hsync hfit h
  cases hc with
  | indexedName _ _ _ =>
    simp only [Rep.apply, NameRef.resolve] at ha
    cases hx : e.table.spec.addr i.toNat with
    | none => simp [hx] at ha
    | some p =>
      obtain ⟨n, w⟩ := p
      simp only [hx, Option.map_some, Option.some.injEq, Prod.mk.injEq] at ha
      obtain ⟨rfl, ht⟩ := ha
      exact ⟨n, w, k, by rw [Table.get_spec, hx], hd⟩

/-- A case of C29: ":method" "GET" with BEST_FORMAT and WITH_INDEXING. -/
example : encode (.Literal [58, 109] [71] 0x14) EncoderState.default =
    (.ok (), { table := ⟨⟨[([58, 109], [71])], 35, 4096⟩⟩, dst := [0x40, 2, 58, 109, 1, 71] }) := by decide +kernel

/-- C30, full statement: a header marked as sensitive is decoded with that mark and enters no table. -/
def SensitiveKept : Prop :=
  ∀ (e e' : EncoderState) (d : DecoderState) (n v : Bytes) (f : UInt8), e.table.WF → d.table = e.table →
    InputFits (.Literal n v f) → f.toNat.testBit 3 = true → f.toNat.testBit 2 = false →
    encode (.Literal n v f) { e with dst := [] } = (.ok (), e') →
    ∃ k, decode { d with buf := e'.dst } =
      (.ok k, { d with buf := [], dst := d.dst ++ [(n, v, 0x8)], table := d.table })

/-- C30 is false of the code: ":method" "GET" with NEVER_INDEXED and BEST_FORMAT comes out without the mark. -/
theorem C30_sensitive_kept_false : ¬ SensitiveKept := by
  intro h
  obtain ⟨k, hk⟩ := h EncoderState.default { table := Table.default, dst := [0x82] } DecoderState.default
    [58, 109, 101, 116, 104, 111, 100] [71, 69, 84] 0x18 (Table.withDynamicSize_WF 4096) rfl
    ⟨by decide, by decide⟩ (by decide) (by decide) (by decide +kernel)
  have hd : decode { DecoderState.default with buf := [0x82] } =
      (.ok 1, { DecoderState.default with dst := [([58, 109, 101, 116, 104, 111, 100], [71, 69, 84], 0)] }) := by
    decide +kernel
  rw [hd] at hk
  simp [DecoderState.default] at hk

/-- C30. It holds unless BEST_FORMAT finds the whole header in the table. -/
theorem C30_sensitive_kept (e e' : EncoderState) (d : DecoderState) (n v : Bytes) (f : UInt8)
    (hwf : e.table.WF) (hsync : d.table = e.table) (hfit : InputFits (.Literal n v f)) (h8 : f.toNat.testBit 3 = true)
    (h4 : f.toNat.testBit 2 = false) (hno : f.toNat.testBit 4 = false ∨ ∀ j, e.table.spec.addr j ≠ some (n, v))
    (h : encode (.Literal n v f) { e with dst := [] } = (.ok (), e')) :
    ∃ k, decode { d with buf := e'.dst } =
      (.ok k, { d with buf := [], dst := d.dst ++ [(n, v, 0x8)], table := e'.table }) := by
  obtain ⟨flag, k, hd, _, hflag⟩ := C29_name_value e e' d n v f hwf hsync hfit h
  have : (flagMode f).flag = 8 := by simp [flagMode, h4, h8, Indexing.flag]
  rw [hflag hno, this] at hd
  exact ⟨k, hd⟩

/-- C30. Exactly when the mark survives: the header comes out with the mark if and only if BEST_FORMAT was not asked for or the
header was not in the table as a whole. -/
theorem C30_sensitive_iff (e e' : EncoderState) (d : DecoderState) (n v : Bytes) (f : UInt8) (hwf : e.table.WF)
    (hsync : d.table = e.table) (hfit : InputFits (.Literal n v f)) (h8 : f.toNat.testBit 3 = true)
    (h4 : f.toNat.testBit 2 = false) (h : encode (.Literal n v f) { e with dst := [] } = (.ok (), e')) :
    (decode { d with buf := e'.dst }).2.dst = d.dst ++ [(n, v, 0x8)] ↔
      (f.toNat.testBit 4 = false ∨ ∀ j, e.table.spec.addr j ≠ some (n, v)) := by
  obtain ⟨flag, k, hd, hfull, hflag⟩ := C29_name_value e e' d n v f hwf hsync hfit h
  have hm : (flagMode f).flag = 8 := by simp [flagMode, h4, h8, Indexing.flag]
  rw [hd]
  simp only [List.append_cancel_left_eq, List.cons.injEq, Prod.mk.injEq, true_and, and_true]
  constructor
  · intro hf
    apply Classical.byContradiction
    intro hno
    simp only [not_or, Bool.not_eq_false, Classical.not_forall, Classical.not_not] at hno
    rw [hfull hno.1 hno.2] at hf
    cases hf
  · intro ho
    rw [hflag ho, hm]

/-- C30. A header without WITH_INDEXING never changes the encoder's table (nor, by C28, the decoder's). -/
theorem C30_not_stored (e e' : EncoderState) (input : EncoderInput) (hwf : e.table.WF)
    (h4 : (flagsOf input).toNat.testBit 2 = false) (h : encode input e = (.ok (), e')) : e'.table = e.table := by
  obtain ⟨rep, bs, hdr, hc, _, _, ha, hwf'⟩ := C27_encoder_refines e e' input hwf h
  refine Table.WF.ext hwf' hwf ?_
  have ha := ha 0
  have hmode : ∀ f : UInt8, f.toNat.testBit 2 = false → flagMode f ≠ .incremental := by
    intro f hf; simp only [flagMode, hf]; split <;> simp_all <;> split <;> simp
  cases hc <;> simp only [Rep.apply] at ha <;> simp only [flagsOf] at h4 <;> split at ha <;>
    simp only [Option.some.injEq, Prod.mk.injEq, reduceCtorEq] at ha
  all_goals first
    | exact ha.2.symm
    | (rw [if_neg (hmode _ h4)] at ha; exact ha.2.symm)

/-! ### The limit for the table size -/

/-- C35. A size update above the limit is rejected, nothing changes. -/
theorem C35_update_rejected (s : DecoderState) (hwf : s.table.WF) (n : Nat) (bs rest : Bytes) (hb : s.buf = bs ++ rest)
    (hw : RepWire lenientPads 5 (.sizeUpdate n) bs) (hn : s.maxDynamicSize.toNat < n) :
    decode s = (.err .InvalidMaxDynamicSize, s) := by
  have h := decodeOne_wire hwf hb hw
  rw [show Rep.apply s.maxDynamicSize.toNat s.table.spec (.sizeUpdate n) = none by
    simp only [Rep.apply]; rw [if_neg (by omega)]] at h
  have hpos := RepWire.pos hw
  refine decode_fail hwf ?_ h (by simp)
  rw [hb]; intro hh
  rw [List.append_eq_nil_iff] at hh
  rw [hh.1] at hpos
  simp at hpos

example : IntWireLim 5 5 32 4097 [0x3f, 0xe2, 0x1f] := ⟨Or.inr ⟨[0xe2, 0x1f], show _ ∧ _ from ⟨by decide, (by decide : (0x1f : UInt8).toNat < 128)⟩, by decide, rfl⟩, by decide⟩

/-- One use of a decoder: new input, decoded with `decode` or with `decode_exact` and some capacity, or a new limit. -/
inductive DecOp where
  | decode (bytes : Bytes)
  | decodeExact (cap : Nat) (bytes : Bytes)
  | setLimit (n : UInt32)

/-- The state after one use, whatever its verdict. -/
def DecOp.run (s : DecoderState) : DecOp → DecoderState
  | .decode bs => (Hpack.decode { s with buf := bs }).2
  | .decodeExact cap bs => (Hpack.decodeExact cap { s with buf := bs }).2
  | .setLimit n => s.setMaxDynamicSize n

theorem applyAll_max {limit : Nat} (rs : List Rep) : ∀ {t t' : SpecTable} {hs : List Field},
    applyAll limit t rs = some (hs, t') → t'.max = t.max ∨ t'.max ≤ limit := by
  induction rs with
  | nil => intro t t' hs h; simp only [applyAll, Option.some.injEq, Prod.mk.injEq] at h; exact Or.inl (by rw [h.2])
  | cons r rs ih =>
    intro t t' hs h
    simp only [applyAll] at h
    cases hr : r.apply limit t with
    | none => simp [hr] at h
    | some p =>
      obtain ⟨hd, t1⟩ := p
      simp only [hr] at h
      have h1 : t1.max = t.max ∨ t1.max ≤ limit := by
        cases r with
        | indexed i => simp only [Rep.apply] at hr; split at hr <;> simp at hr; exact Or.inl (by rw [hr.2])
        | literal m nm v =>
          simp only [Rep.apply] at hr
          split at hr
          · simp only [Option.some.injEq, Prod.mk.injEq] at hr
            refine Or.inl ?_
            rw [← hr.2]
            split
            · simp only [SpecTable.insert]; split <;> rfl
            · rfl
          · simp at hr
        | sizeUpdate n =>
          simp only [Rep.apply] at hr
          split at hr
          · simp only [Option.some.injEq, Prod.mk.injEq] at hr
            rw [← hr.2]
            exact Or.inr (by assumption)
          · simp at hr
      cases hh : applyAll limit t1 rs with
      | none => simp [hh] at h
      | some q =>
        obtain ⟨hs', t2⟩ := q
        simp only [hh, Option.some.injEq, Prod.mk.injEq] at h
        rcases ih hh with h2 | h2
        · rw [← h.2, h2]; exact h1
        · rw [← h.2]; exact Or.inr h2

theorem Reads.max {s s' : DecoderState} {ws : List (Rep × Octets)} {hs : List Field} (h : Reads s s' ws hs) :
    s'.table.spec.max = s.table.spec.max ∨ s'.table.spec.max ≤ s.maxDynamicSize.toNat := by
  obtain ⟨⟨_, _, _, _, ha⟩, _⟩ := h
  exact applyAll_max _ ha

/-- What one use preserves. -/
theorem DecOp.inv (B : Nat) (s : DecoderState) (op : DecOp) (hwf : s.table.WF) (h1 : s.table.spec.max ≤ B)
    (h2 : s.maxDynamicSize.toNat ≤ B) (h3 : ∀ n, op = .setLimit n → n.toNat ≤ B) :
    (op.run s).table.WF ∧ (op.run s).table.spec.max ≤ B ∧ (op.run s).maxDynamicSize.toNat ≤ B := by
  have key : ∀ {a b : DecoderState} {ws hs}, Reads a b ws hs → a.table.spec.max ≤ B → a.maxDynamicSize.toNat ≤ B →
      b.table.WF ∧ b.table.spec.max ≤ B ∧ b.maxDynamicSize.toNat ≤ B := by
    intro a b ws hs hr ha hb
    refine ⟨hr.wf, ?_, by rw [hr.limit]; exact hb⟩
    rcases Reads.max hr with h | h <;> omega
  cases op with
  | decode bs =>
    obtain ⟨s', ws, hs, r, hd, hr, _⟩ := decode_spec { s with buf := bs } hwf
    simp only [DecOp.run, hd]
    exact key hr h1 h2
  | decodeExact cap bs =>
    obtain ⟨s', ws, hs, r, hd, hr, _⟩ := decodeExactLoop_spec cap 0 { s with buf := bs } hwf
    simp only [DecOp.run, Hpack.decodeExact, hd]
    exact key hr h1 h2
  | setLimit n => exact ⟨hwf, h1, h3 n rfl⟩

/-- C35. After any history of decoding (successful or not) and limit changes, the table occupies no more than the
largest limit in force so far. -/
theorem C35_history_bound (m : UInt32) (ops : List DecOp) (B : Nat) (hm : m.toNat ≤ B)
    (hops : ∀ n, DecOp.setLimit n ∈ ops → n.toNat ≤ B) :
    let s := ops.foldl DecOp.run (DecoderState.withDynamicSize m)
    tableSize s.table.spec.entries ≤ B ∧ s.table.dynamicSize.toNat ≤ B ∧ s.getMaxDynamicSize.toNat ≤ B ∧ s.table.WF := by
  have key : ∀ (ops : List DecOp) (s : DecoderState), s.table.WF → s.table.spec.max ≤ B → s.maxDynamicSize.toNat ≤ B →
      (∀ n, DecOp.setLimit n ∈ ops → n.toNat ≤ B) →
      (ops.foldl DecOp.run s).table.WF ∧ (ops.foldl DecOp.run s).table.spec.max ≤ B := by
    intro ops
    induction ops with
    | nil => intro s h1 h2 h3 _; exact ⟨h1, h2⟩
    | cons op ops ih =>
      intro s h1 h2 h3 h4
      obtain ⟨a, b, c⟩ := DecOp.inv B s op h1 h2 h3 (fun n hn => h4 n (by simp [hn]))
      exact ih _ a b c (fun n hn => h4 n (by simp [hn]))
  obtain ⟨h1, h2⟩ := key ops (DecoderState.withDynamicSize m) (Table.withDynamicSize_WF m) hm hm hops
  intro s
  have hsz : tableSize s.table.spec.entries ≤ s.table.spec.max := h1.2
  have hlt : s.table.spec.max < 2 ^ 32 := s.table.dynamic.maxSize.toNat_lt
  refine ⟨Nat.le_trans hsz h2, ?_, h2, h1⟩
  have h3 : s.table.dynamicSize.toNat = tableSize s.table.spec.entries := by
    rw [Table.dynamicSize, show s.table.dynamic.size = tableSize s.table.spec.entries from h1.1]
    exact ofNat32 (Nat.lt_of_le_of_lt hsz hlt)
  rw [h3]
  exact Nat.le_trans hsz h2

/-- The bound is met: a table of size 4096 after its limit was lowered to 0 still has its entries. -/
example : ([DecOp.decode [0x40, 1, 0x61, 1, 0x62], .setLimit 0].foldl DecOp.run DecoderState.default).table.spec.entries
    = [([0x61], [0x62])] := by decide +kernel

/-! ### `decode_exact` -/

/-- C36. `decode_exact` reads a block of at most `capacity` representations, adds their headers (so at most
`capacity`), leaves the rest of the buffer; it stops when the buffer is empty, when the capacity is reached, or at an
error. -/
theorem C36_capacity (s : DecoderState) (hwf : s.table.WF) (cap : Nat) :
    ∃ s' ws hs used r, decodeExact cap s = (r, s') ∧ s.buf = used ++ s'.buf ∧
      Block lenientPads s.maxDynamicSize.toNat s.table.spec used ws hs s'.table.spec ∧ ws.length ≤ cap ∧
      hs.length ≤ cap ∧ s'.dst = s.dst ++ hs ∧ s'.table.WF ∧
      (∀ k, r = .ok k → k = (headerOctets ws).length ∧ (s'.buf = [] ∨ ws.length = cap)) := by
  obtain ⟨s', ws, hs, r, h1, ⟨⟨used, hb, hblk⟩, h3, h4, h5, h6⟩, h7⟩ := decodeExactLoop_spec cap 0 s hwf
  have hlen : ∀ (rs : List Rep) (t t' : SpecTable) (hs : List Field) (limit : Nat),
      applyAll limit t rs = some (hs, t') → hs.length ≤ rs.length := by
    intro rs
    induction rs with
    | nil => intro t t' hs l h; simp only [applyAll, Option.some.injEq, Prod.mk.injEq] at h; simp [← h.1]
    | cons r rs ih =>
      intro t t' hs l h
      simp only [applyAll] at h
      split at h
      · simp at h
      · split at h
        · simp at h
        · rename_i h' t1 _ _ hs' t2 heq
          simp only [Option.some.injEq, Prod.mk.injEq] at h
          have := ih _ _ _ _ heq
          rw [← h.1]
          cases h' <;> simp <;> omega
  have hl := hlen _ _ _ _ _ hblk.2.2
  simp only [List.length_map] at hl
  refine ⟨s', ws, hs, used, r, h1, hb, hblk, ?_, ?_, h3, h4, ?_⟩
  · rcases h7 with ⟨_, h | h⟩ | ⟨_, h⟩ <;> omega
  · rcases h7 with ⟨_, h | h⟩ | ⟨_, h⟩ <;> omega
  · intro k hk
    subst hk
    rcases h7 with ⟨h, h'⟩ | ⟨h, _⟩
    · simp only [Res.ok.injEq, Nat.zero_add] at h
      exact ⟨h, h'.imp (·.1) id⟩
    · cases h

/-- C36. With capacity for all of the input it does the same as `decode`, in every respect and also on errors. -/
theorem C36_room_for_all (s : DecoderState) (hwf : s.table.WF) (cap : Nat) (h : s.buf.length ≤ cap) :
    decodeExact cap s = decode s := by
  suffices key : ∀ (cap fuel total : Nat) (s : DecoderState), s.table.WF → s.buf.length ≤ cap → s.buf.length ≤ fuel →
      decodeExactLoop cap total s = decodeLoop fuel total s from key cap s.buf.length 0 s hwf h (Nat.le_refl _)
  intro cap
  induction cap with
  | zero =>
    intro fuel total s _ hl _
    have : s.buf = [] := List.eq_nil_of_length_eq_zero (by omega)
    rw [decodeLoop_nil _ _ this, decodeExactLoop_nil _ _ this]
  | succ cap ih =>
    intro fuel total s hwf hl hf
    by_cases hne : s.buf = []
    · rw [decodeLoop_nil _ _ hne, decodeExactLoop_nil _ _ hne]
    · have hemp : s.buf.isEmpty = false := by simpa using hne
      rcases decodeOne_frame hwf hne with ⟨rep, bs, rest, hdr, t', hb, hw, ha, hwf', h'⟩ | ⟨hno, ⟨e, he, hc⟩ | ⟨he, hc⟩⟩
      · have hpos := RepWire.pos hw
        have hbl : s.buf.length = bs.length + rest.length := by rw [hb, List.length_append]
        obtain ⟨fuel, rfl⟩ : ∃ g, fuel = g + 1 := ⟨fuel - 1, by omega⟩
        have hex : decodeExact 1 { s with dst := [] } = decodeOne { s with dst := [] } := by
          rw [h' []]
          simp only [decodeExact, decodeExactLoop, M.bind_apply, M.get_apply, M.ite_apply, hemp, h' []]
          simp
        rw [decodeLoop]
        simp only [hemp, Bool.false_eq_true, if_false, hex, h' []]
        have hself := h' s.dst
        rw [show ({ s with dst := s.dst } : DecoderState) = s from rfl] at hself
        simp only [decodeExactLoop, M.bind_apply, M.get_apply, M.ite_apply, hemp, hself, Bool.false_eq_true, if_false]
        exact ih fuel _ _ hwf' (by simp only; omega) (by simp only; omega)
      · rw [decodeLoop_fail hwf hne hf (he s.dst) (by simp), decodeExact_fail hne (by omega) (he s.dst) (by simp)]
      · rw [decodeLoop_fail hwf hne hf (he s.dst) (by simp), decodeExact_fail hne (by omega) (he s.dst) (by simp)]

/-- C36. The expectation that a vector never gets more headers than its capacity is false: the whole capacity counts, not what is
free, so a full vector gets as many headers again (and grows). -/
theorem C36_full_vector_grows : ¬ ∀ (s : DecoderState) (cap k : Nat) (s' : DecoderState), s.table.WF → s.dst.length ≤ cap →
    decodeExact cap s = (.ok k, s') → s'.dst.length ≤ cap := by
  intro h
  have := h { DecoderState.default with dst := [([1], [2], 0)], buf := [0x82] } 1 1 _ (Table.withDynamicSize_WF 4096) (by decide)
    (by decide +kernel : decodeExact 1 { DecoderState.default with dst := [([1], [2], 0)], buf := [0x82] } =
      (.ok 1, { DecoderState.default with
        dst := [([1], [2], 0), ([0x3a, 0x6d, 0x65, 0x74, 0x68, 0x6f, 0x64], [0x47, 0x45, 0x54], 0)] }))
  revert this
  decide

/-- C36. The expectation that, as long as there is input, exactly as many headers are decoded as there is capacity is false too: a
size update uses up one. -/
theorem C36_updates_use_capacity : ¬ ∀ (s : DecoderState) (cap k : Nat) (s' : DecoderState), s.table.WF →
    decodeExact cap s = (.ok k, s') → s'.buf = [] ∨ s'.dst.length = s.dst.length + cap := by
  intro h
  have hd : decodeExact 1 { DecoderState.default with buf := [0x3F, 0x00, 0x82] } =
      (.ok 0, { DecoderState.default with table := Table.withDynamicSize 31, buf := [0x82] }) := by decide +kernel
  have := h { DecoderState.default with buf := [0x3F, 0x00, 0x82] } 1 0 _ (Table.withDynamicSize_WF 4096) hd
  revert this
  decide

/-- C36. Continuing where `decode_exact` stopped with `decode` is the same as decoding all at once: same verdict, same
final state, and the counts add up. -/
theorem C36_resume (s s1 : DecoderState) (hwf : s.table.WF) (cap k1 : Nat) (h : decodeExact cap s = (.ok k1, s1)) :
    (decode s).2 = (decode s1).2 ∧
    (decode s).1 = (match (decode s1).1 with | .ok k2 => .ok (k1 + k2) | r => r) := by
  obtain ⟨s', ws, hs, used, r, h1, hb, hblk, _, _, hdst, hwf1, hk⟩ := C36_capacity s hwf cap
  obtain ⟨s2, ws2, hs2, r2, h1', ⟨_, _, _, h5, h6⟩, _⟩ := decodeExactLoop_spec cap 0 s hwf
  rw [h] at h1
  rw [show decodeExactLoop cap 0 s = (.ok k1, s1) from h] at h1'
  simp only [Prod.mk.injEq] at h1 h1'
  obtain ⟨rfl, rfl⟩ := h1
  obtain ⟨_, rfl⟩ := h1'
  obtain ⟨hk, _⟩ := hk k1 rfl
  obtain ⟨t', hw', hsp', h3⟩ := decode_block (s := { s with buf := used }) hwf hblk
  have ht' : t' = s1.table := Table.WF.ext hw' hwf1 hsp'
  have := C34_pieces s _ hwf used s1.buf _ h3
  rw [← hb, ← hk] at this
  have e1 : ({ s with buf := s.buf } : DecoderState) = s := rfl
  rw [e1] at this
  have e2 : ({ s with buf := s1.buf, dst := s.dst ++ hs, table := t' } : DecoderState) = s1 := by
    obtain ⟨sp1, m1, t1, buf1, d1⟩ := s1
    simp only at hdst h5 h6 ht' ⊢
    rw [hdst, h5, h6, ht']
  simp only [e2] at this
  exact this

/-! ### Flags -/

/-- C38. The effect of one successful step, by its first octet. -/
theorem C38_flags (s s' : DecoderState) (hwf : s.table.WF) (k : Nat) (b : UInt8) (tl : Bytes) (hb : s.buf = b :: tl)
    (h : decodeExact 1 s = (.ok k, s')) :
    (128 ≤ b.toNat ∧ (∃ n v, s'.dst = s.dst ++ [(n, v, 0)]) ∧ s'.table = s.table) ∨
    (64 ≤ b.toNat ∧ b.toNat < 128 ∧ ∃ n v, s'.dst = s.dst ++ [(n, v, 4)] ∧
      s'.table.spec = s.table.spec.insert (n, v)) ∨
    (32 ≤ b.toNat ∧ b.toNat < 64 ∧ s'.dst = s.dst ∧
      ∃ m, m ≤ s.maxDynamicSize.toNat ∧ s'.table.spec = s.table.spec.resize m) ∨
    (16 ≤ b.toNat ∧ b.toNat < 32 ∧ (∃ n v, s'.dst = s.dst ++ [(n, v, 8)]) ∧ s'.table = s.table) ∨
    (b.toNat < 16 ∧ (∃ n v, s'.dst = s.dst ++ [(n, v, 0)]) ∧ s'.table = s.table) := by
  obtain ⟨rep, bs, hdr, hb', ⟨hn, hv, hw⟩, ha, hd, hwf', _, _⟩ :=
    C32_sound s s' hwf k (by rw [hb]; simp) h
  have hhead : ∀ {n hi v : Nat} {bs1 r : Bytes}, n ≤ 8 → hi % 2 ^ n = 0 → hi < 256 → IntWire n hi v bs1 →
      bs = bs1 ++ r → hiBits n b = hi := by
    intro n hi v bs1 r h8 hm hl hi' he
    obtain ⟨b0, tl0, h0, h1⟩ := IntWire.head h8 hm hl hi'
    rw [hb, he, h0] at hb'
    simp only [List.cons_append, List.cons.injEq] at hb'
    rw [hb'.1]; exact h1
  cases rep with
  | indexed i =>
    have hh := hhead (by decide) (by decide) (by decide) hw.1 (List.append_nil bs).symm
    simp only [Rep.apply] at ha
    split at ha
    · rename_i n v _
      simp only [Option.some.injEq, Prod.mk.injEq] at ha
      obtain ⟨rfl, ht⟩ := ha
      left
      refine ⟨?_, ⟨n, v, hd⟩, Table.WF.ext hwf' hwf ht.symm⟩
      simp only [hiBits] at hh; omega
    · simp at ha
  | sizeUpdate n =>
    have hh := hhead (by decide) (by decide) (by decide) hw.1 (List.append_nil bs).symm
    simp only [Rep.apply] at ha
    split at ha
    · rename_i hle
      simp only [Option.some.injEq, Prod.mk.injEq] at ha
      obtain ⟨rfl, ht⟩ := ha
      right; right; left
      refine ⟨?_, ?_, by simpa using hd, n, hle, ht.symm⟩ <;> · simp only [hiBits] at hh; omega
    · simp at ha
  | literal m nm v =>
    obtain ⟨_, h8, hm, hl⟩ := mode_props m
    have hh : hiBits m.bits b = m.pattern := by
      cases nm with
      | index i =>
        obtain ⟨_, b1, b2, h1, _, he⟩ := hw
        exact hhead h8 hm hl h1.1 he
      | new n =>
        obtain ⟨b1, b2, b3, h1, _, _, he⟩ := hw
        exact hhead h8 hm hl h1.1 he
    obtain ⟨r1, r2, r3, r4⟩ := mode_range m b hh
    simp only [Rep.apply] at ha
    split at ha
    · rename_i n _
      simp only [Option.some.injEq, Prod.mk.injEq] at ha
      obtain ⟨rfl, ht⟩ := ha
      cases m with
      | incremental =>
        right; left
        refine ⟨r2.mp rfl, r1, n, v, hd, ?_⟩
        simpa using ht.symm
      | without =>
        right; right; right; right
        exact ⟨r4.mp rfl, ⟨n, v, hd⟩, Table.WF.ext hwf' hwf (by simpa using ht.symm)⟩
      | never =>
        right; right; right; left
        exact ⟨(r3.mp rfl).1, (r3.mp rfl).2, ⟨n, v, hd⟩, Table.WF.ext hwf' hwf (by simpa using ht.symm)⟩
    · simp at ha

example : (decodeExact 1 { DecoderState.default with buf := [0x10, 1, 0x61, 1, 0x62] }).2.dst = [([0x61], [0x62], 8)] := by
  decide +kernel

/-! ### Invalid indices and integers that are too large -/

/-- C39. The decoder rejects an invalid index, as header or as name, whatever follows it, with no effect. -/
theorem C39_decoder_invalid_index (s : DecoderState) (hwf : s.table.WF) (i : Nat) (bs rest : Bytes)
    (hb : s.buf = bs ++ rest) (hn : s.table.spec.addr i = none)
    (hw : IntWireLim 5 7 128 i bs ∨ ∃ m : Indexing, 0 < i ∧ IntWireLim 5 m.bits m.pattern i bs) :
    decode s = (.err .InvalidIndex, s) := by
  have hne : s.buf ≠ [] := by
    rw [hb]; intro hh
    rw [List.append_eq_nil_iff] at hh
    rcases hw with hw | ⟨m, _, hw⟩ <;> · have := hw.1.pos; rw [hh.1] at this; simp at this
  refine decode_fail hwf hne ?_ (by simp)
  rcases hw with hw | ⟨m, hi, hw⟩
  · have h := decodeOne_wire (rep := .indexed i) hwf hb ⟨false, false, hw⟩
    simpa [Rep.apply, hn, Rep.isHeader] using h
  · obtain ⟨h1, h8, hm, hl⟩ := mode_props m
    obtain ⟨b0, tl, h0, hh⟩ := IntWire.head h8 hm hl hw.1
    have hb0 : s.buf = b0 :: (tl ++ rest) := by rw [hb, h0]; rfl
    rw [decodeOne_literal hb0 hh, decodeLiteral_eq hwf hb0 hh, hb, decodeInteger_complete rest h1 h8 hm hl hw]
    simp only
    rw [decodeName_index hi (hw.lt32 h8), hn]

/-- C39. What the invalid indices are. -/
theorem C39_invalid_indices (t : Table) (i : Nat) : t.spec.addr i = none ↔ i = 0 ∨ 61 + t.spec.entries.length < i := by
  simp only [SpecTable.addr]
  have hl := C25_static_length.1
  split
  · simp_all
  · split
    · simp only [List.getElem?_eq_none_iff]; omega
    · simp only [List.getElem?_eq_none_iff]; omega

example : decode { DecoderState.default with buf := [0x80, 0xff] } =
    (.err .InvalidIndex, { DecoderState.default with buf := [0x80, 0xff] }) := by decide +kernel

/-- C18. A table size of 2^28 + 31 or more is announced by the encoder in a form that every decoder rejects,
whatever its limit and table. -/
theorem C18_size_update_rejected (e : EncoderState) (hwf : e.table.WF) (n : UInt32) (hn : 2 ^ 28 + 31 ≤ n.toNat) :
    ∃ e', encUpdateMaxDynamicSize n { e with dst := [] } = (.ok (), e') ∧
      ∀ (d : DecoderState) (rest : Bytes), d.table.WF → d.buf = e'.dst ++ rest → decode d = (.err .IntegerOverflow, d) := by
  obtain ⟨bs, t', _, _, he, hw, _, hl⟩ := encUpdate_spec { e with dst := [] } hwf n
  refine ⟨_, he, ?_⟩
  intro d rest hd hb
  simp only [List.nil_append] at hb
  have h6 := hl hn
  rcases hw.1 with ⟨_, rfl⟩ | ⟨cs, hc, _, rfl⟩
  · simp at h6
  · simp only [List.length_cons] at h6
    have hb' : d.buf = UInt8.ofNat (32 + (2 ^ 5 - 1)) :: (cs ++ rest) := hb
    have hover : decodeInteger d.buf 5 = .err .IntegerOverflow := by
      rw [hb']
      exact decodeInteger_over (by decide) (by decide) (by decide) (by simp; omega) (hc.take 4 (by omega) rest)
    refine decode_fail hd (by rw [hb']; simp) ?_ (by simp)
    rw [decodeOne_update hb' (by decide) (by decide), decUpdate_eq d hd, hover]

/-- C18. Likewise strings of 2^28 + 127 octets or more. -/
theorem C18_string_rejected (data : Bytes) (huff : Bool) (sp : Speed) (h1 : 2 ^ 28 + 127 ≤ strLen huff data)
    (h2 : strLen huff data < 2 ^ 32) :
    ∃ bs, encodeString data huff = .ok bs ∧ ∀ rest, decodeString (bs ++ rest) sp = .err .IntegerOverflow := by
  obtain ⟨bs, he, hw, _⟩ := (encodeString_spec data huff).1 h2
  refine ⟨bs, he, ?_⟩
  intro rest
  have key : ∀ (hi n : Nat) (len r : Bytes), (hi = 0 ∨ hi = 128) → 2 ^ 28 + 127 ≤ n → IntWireLim 6 7 hi n len →
      decodeString (len ++ r) sp = .err .IntegerOverflow := by
    intro hi n len r hhi hn hl
    rcases hl.1 with ⟨hv, _⟩ | ⟨cs, hc, hv, rfl⟩
    · omega
    · have h5 : 5 ≤ cs.length := by
        apply Nat.le_of_not_lt
        intro hlt
        have := contVal_lt cs
        have : 128 ^ cs.length ≤ 128 ^ 4 := Nat.pow_le_pow_right (by decide) (by omega)
        omega
      have hover : decodeInteger (UInt8.ofNat (hi + (2 ^ 7 - 1)) :: (cs ++ r)) 7 = .err .IntegerOverflow :=
        decodeInteger_over (by decide) (by decide) (by rcases hhi with rfl | rfl <;> decide) (by simp; omega)
          (hc.take 4 (by omega) r)
      simp only [List.cons_append, decodeString, hover, Res.bind_err]
  cases huff with
  | false =>
    obtain ⟨len, hl, rfl⟩ := hw
    rw [List.append_assoc]
    exact key 0 _ len _ (Or.inl rfl) h1 hl
  | true =>
    obtain ⟨len, q, hl, ⟨t, ht, hq⟩, rfl⟩ := hw
    rw [List.append_assoc]
    refine key 128 _ len _ (Or.inr rfl) ?_ hl
    simp only [strLen, if_true] at h1
    have hql : (bytesBits q).length = 8 * q.length := Spec.bytesBits_length q
    rw [hq, List.length_append] at hql
    have : (codesOf data).length = codeLenSum data := Huffman.codesOf_length data
    omega

/-! ### The invariant holds in every reachable state -/

/-- Every encoder reached from `with_dynamic_size` by any calls, failed ones included, satisfies the table invariant
that the theorems above assume. -/
theorem encoder_reachable (m : UInt32) (ops : List SessionOp) :
    (ops.foldl (fun e op => (encOp op e).2) (EncoderState.withDynamicSize m)).table.WF := by
  suffices h : ∀ e : EncoderState, e.table.WF → (ops.foldl (fun e op => (encOp op e).2) e).table.WF from
    h _ (Table.withDynamicSize_WF m)
  induction ops with
  | nil => intro e h; exact h
  | cons op ops ih =>
    intro e h
    refine ih _ ?_
    cases op with
    | header input =>
      rcases C40_encode_failures e h input with ⟨s, hs, hw⟩ | ⟨hs, _⟩ | ⟨s, hs, hw, _⟩
      · simp only [encOp, hs]; exact hw
      · simp only [encOp, hs]; exact h
      · simp only [encOp, hs]; exact hw
    | resize n =>
      obtain ⟨_, _, h1, h2, _, _, hw⟩ := C27_size_update e h n
      simp only [encOp, h1]; exact hw

/-- The same for decoders, after any history, failures and even panics included. -/
theorem decoder_reachable (m : UInt32) (ops : List DecOp) :
    (ops.foldl DecOp.run (DecoderState.withDynamicSize m)).table.WF :=
  (C35_history_bound m ops (2 ^ 32) (Nat.le_of_lt m.toNat_lt) (fun n _ => Nat.le_of_lt n.toNat_lt)).2.2.2

/-! Concrete cases that meet the hypotheses of the theorems above. -/
/-- C30: a password with NEVER_INDEXED and BEST_FORMAT that is not in the table. -/
example : ∃ k, decode { DecoderState.default with buf := (encode (.Literal [112] [1, 2] 0x18) EncoderState.default).2.dst } =
    (.ok k, { DecoderState.default with buf := [], dst := [([112], [1, 2], 0x8)], table := (encode (.Literal [112] [1, 2] 0x18) EncoderState.default).2.table }) :=
  C30_sensitive_kept EncoderState.default _ DecoderState.default [112] [1, 2] 0x18 (Table.withDynamicSize_WF 4096) rfl (by constructor <;> decide +kernel)
    (by decide) (by decide) (.inr fun j hj => by
      have hm : (([112], [1, 2]) : Octets × Octets) ∈ Table.default.all := by
        cases j with
        | zero => simp [SpecTable.addr] at hj
        | succ j => exact List.mem_of_getElem? (by rw [← addr_eq_all]; exact hj)
      exact absurd hm (by decide +kernel)) (Prod.ext (by decide +kernel) rfl)
/-- C30: the same flags on a header of the static table: the flag is lost. -/
example : ¬ ((0x18 : UInt8).toNat.testBit 4 = false ∨ ∀ j, EncoderState.default.table.spec.addr j ≠ some ([58, 109, 101, 116, 104, 111, 100], [71, 69, 84])) :=
  fun h => absurd ((C30_sensitive_iff EncoderState.default _ DecoderState.default [58, 109, 101, 116, 104, 111, 100] [71, 69, 84] 0x18 (Table.withDynamicSize_WF 4096) rfl
    (by constructor <;> decide +kernel) (by decide) (by decide) (Prod.ext (by decide +kernel) rfl)).mpr h) (by decide +kernel)
example : (encode (.IndexedName 1 [7] 0x8) EncoderState.default).2.table = EncoderState.default.table :=
  C30_not_stored EncoderState.default _ (.IndexedName 1 [7] 0x8) (Table.withDynamicSize_WF 4096) (by decide) (Prod.ext (by decide +kernel) rfl)
/-- C36: two of three headers, then the rest. -/
example : (decode { DecoderState.default with buf := [0x82, 0x87, 0x84] }).2 =
    (decode (decodeExact 2 { DecoderState.default with buf := [0x82, 0x87, 0x84] }).2).2 ∧
    (decodeExact 2 { DecoderState.default with buf := [0x82, 0x87, 0x84] }).2.buf = [0x84] :=
  ⟨(C36_resume { DecoderState.default with buf := [0x82, 0x87, 0x84] } _ (Table.withDynamicSize_WF 4096) 2 2 (Prod.ext (by decide +kernel) rfl)).1, by decide +kernel⟩
example : decodeExact 3 { DecoderState.default with buf := [0x82, 0x87, 0x84] } = decode { DecoderState.default with buf := [0x82, 0x87, 0x84] } :=
  C36_room_for_all _ (Table.withDynamicSize_WF 4096) 3 (by decide)
/-- C18: the largest size and a string of 2^28 + 127 octets. -/
example : ∃ e', encUpdateMaxDynamicSize 4294967295 EncoderState.default = (.ok (), e') ∧
    ∀ (d : DecoderState) (rest : Bytes), d.table.WF → d.buf = e'.dst ++ rest → decode d = (.err .IntegerOverflow, d) :=
  C18_size_update_rejected EncoderState.default (Table.withDynamicSize_WF 4096) 4294967295 (by decide)
example (z : Bytes) (hz : z.length = 268435583) :
    ∃ bs, encodeString z false = .ok bs ∧ ∀ rest, decodeString (bs ++ rest) .FiveBits = .err .IntegerOverflow :=
  C18_string_rejected z false .FiveBits (by simp [strLen, hz]) (by simp [strLen, hz])

end Verif.Props
