import Verif.Props.Hpack
/-! Property theorems about histories of encoder and decoder calls (C28-C30, C35, C36, C38, C39, C18). -/
namespace Verif.Props
open Verif Verif.Spec Verif.Hpack
open Verif.Huffman (Speed)

/-! ### Sessions -/

/-- One call of the encoder: `encode` (encoder/mod.rs:141) or `update_max_dynamic_size` (393). -/
def encOp : SessionOp → M EncoderState EncoderError Unit
  | .header input => encode input
  | .resize n => encUpdateMaxDynamicSize n

/-- A history of encoder calls with one output vector; stops at the first failure. -/
def encSession : List SessionOp → M EncoderState EncoderError Unit
  | [] => pure ()
  | op :: ops => do
    encOp op
    encSession ops

theorem RepWire_lenient {lim : Nat} {hn hv : Bool} {rep : Rep} {bs : Bytes} (h : RepWireAs rfcPads lim hn hv rep bs) :
    RepWireAs lenientPads lim hn hv rep bs := by
  cases rep with
  | indexed i => exact h
  | sizeUpdate n => exact h
  | literal m nm v =>
    cases nm with
    | index i =>
      obtain ⟨h0, b1, b2, h1, h2, h3⟩ := h
      exact ⟨h0, b1, b2, h1, StrWireAs_lenient h2, h3⟩
    | new n =>
      obtain ⟨b1, b2, b3, h1, h2, h3, h4⟩ := h
      exact ⟨b1, b2, b3, h1, StrWireAs_lenient h2, StrWireAs_lenient h3, h4⟩

theorem InputFits.rep {t : SpecTable} {input : EncoderInput} {rep : Rep} (h : InputFits input)
    (hc : Chosen t input rep) : RepFits (2 ^ 28 + 127) (huffName input) (huffValue input) rep := by
  cases hc with
  | indexed i => trivial
  | indexedName i v f => exact h
  | literal n v f _ => exact h
  | bestFull n v f _ i _ => trivial
  | bestName n v f _ _ i _ => exact h.2
  | bestNew n v f _ _ => exact h

theorem RepFits.mono {l l' : Nat} {hn hv : Bool} {rep : Rep} (hl : l ≤ l') (h : RepFits l hn hv rep) :
    RepFits l' hn hv rep := by
  cases rep with
  | indexed i => trivial
  | sizeUpdate n => trivial
  | literal m nm v =>
    cases nm with
    | index i => exact Nat.lt_of_lt_of_le h hl
    | new n => exact ⟨Nat.lt_of_lt_of_le h.1 hl, Nat.lt_of_lt_of_le h.2 hl⟩

/-- A successful encoder call whose input fits emits a representation the decoder can read. -/
theorem encode_emits {e e' : EncoderState} {input : EncoderInput} (limit : Nat) (hwf : e.table.WF) (hfit : InputFits input)
    (h : encode input e = (.ok (), e')) :
    ∃ rep bs hdr, Chosen e.table.spec input rep ∧ e'.dst = e.dst ++ bs ∧ RepWire lenientPads 5 rep bs ∧
      rep.apply limit e.table.spec = some (some hdr, e'.table.spec) ∧ e'.table.WF := by
  obtain ⟨rep, hc⟩ := Chosen.exists e.table hwf input
  have hs := encode_spec e hwf input rep limit hc
  cases ha : rep.apply limit e.table.spec with
  | none => simp only [ha] at hs; rw [hs] at h; simp at h
  | some p =>
    obtain ⟨hdr, st⟩ := p
    simp only [ha] at hs
    have hhdr : ∃ h, hdr = some h := by
      cases hc <;> simp only [Rep.apply] at ha <;> split at ha <;> simp at ha <;> exact ⟨_, ha.1.symm⟩
    obtain ⟨hdr, rfl⟩ := hhdr
    have hf := InputFits.rep hfit hc
    obtain ⟨bs, t', hwf', hsp, he, _, hw⟩ := hs.1 (RepFits.mono (by decide) hf)
    rw [he] at h
    simp only [Prod.mk.injEq, true_and] at h
    subst h
    refine ⟨rep, bs, hdr, hc, rfl, ⟨_, _, RepWire_lenient (hw hf)⟩, ?_, hwf'⟩
    rw [ha, ← hsp]

theorem encSession_emits {limit : Nat} (ops : List SessionOp) : ∀ {e e' : EncoderState}, e.table.WF →
    (∀ op ∈ ops, OpFits limit op) → encSession ops e = (.ok (), e') →
    ∃ bs ws hs, e'.dst = e.dst ++ bs ∧ Block lenientPads limit e.table.spec bs ws hs e'.table.spec ∧ e'.table.WF ∧
      SessionMeans limit e.table.spec ops hs e'.table.spec := by
  induction ops with
  | nil =>
    intro e e' hwf _ h
    simp only [encSession, M.pure_apply, Prod.mk.injEq, true_and] at h
    subst h
    exact ⟨[], [], [], by simp, block_nil _ _, hwf, .nil _⟩
  | cons op ops ih =>
    intro e e' hwf hfit h
    simp only [encSession, M.bind_apply] at h
    rcases h1 : encOp op e with ⟨r, e1⟩
    rw [h1] at h
    cases r with
    | ok u =>
      simp only at h
      cases op with
      | header input =>
        obtain ⟨rep, bs, hdr, hc, hd, hw, ha, hwf1⟩ := encode_emits limit hwf (hfit (.header input) (by simp) : InputFits input) h1
        obtain ⟨bs', ws, hs, hd', hb, hwf', hm⟩ := ih hwf1 (fun o ho => hfit o (by simp [ho])) h
        exact ⟨bs ++ bs', _, _, by rw [hd', hd, List.append_assoc], block_cons hw ha hb, hwf', .header hc ha hm⟩
      | resize n =>
        have hn : n.toNat ≤ limit ∧ n.toNat < 2 ^ 28 + 31 := hfit (.resize n) (by simp)
        obtain ⟨bs, t', hwf1, hsp, he, _, hw, _⟩ := encUpdate_spec e hwf n
        have : e1 = { e with dst := e.dst ++ bs, table := t' } := by
          have := h1.symm.trans (show encOp (.resize n) e = _ from he)
          simpa using this
        subst this
        obtain ⟨bs', ws, hs, hd', hb, hwf', hm⟩ := ih hwf1 (fun o ho => hfit o (by simp [ho])) h
        simp only [hsp] at hb hm hd'
        refine ⟨bs ++ bs', (.sizeUpdate n.toNat, bs) :: ws, hs, by rw [hd', List.append_assoc], ?_, hwf', .resize hn.1 hm⟩
        have := block_cons (rep := .sizeUpdate n.toNat) (hdr := none) (t := e.table.spec) (limit := limit)
          ⟨false, false, hw hn.2⟩ (by simp [Rep.apply, hn.1]) hb
        simpa using this
    | err e => simp at h
    | panic => simp at h
    | hang => simp at h

/-- C28. Whole session at once, from any synchronised states (equal tables): the decoder yields the headers the calls
mean, in order, consumes everything, and the tables are equal again. -/
theorem C28_session (e e' : EncoderState) (d : DecoderState) (ops : List SessionOp) (hwf : e.table.WF)
    (hsync : d.table = e.table) (hfit : ∀ op ∈ ops, OpFits d.maxDynamicSize.toNat op)
    (h : encSession ops { e with dst := [] } = (.ok (), e')) :
    ∃ hs k, SessionMeans d.maxDynamicSize.toNat e.table.spec ops hs e'.table.spec ∧
      decode { d with buf := e'.dst } = (.ok k, { d with buf := [], dst := d.dst ++ hs, table := e'.table }) ∧
      e'.table.WF := by
  obtain ⟨bs, ws, hs, hd, hb, hwf', hm⟩ := encSession_emits ops (e := { e with dst := [] }) hwf hfit h
  simp only [List.nil_append] at hd
  subst hd
  obtain ⟨t', h1, h2, h3⟩ := decode_block (s := { d with buf := e'.dst }) (by simp only; rw [hsync]; exact hwf)
    (by simpa only [hsync] using hb)
  exact ⟨hs, _, hm, by rw [h3, Table.WF.ext h1 hwf' h2], hwf'⟩

/-- C28. The same for a fresh encoder and a fresh decoder of the same size, as one statement about bytes. -/
theorem C28_session_fresh (m : UInt32) (ops : List SessionOp) (e' : EncoderState)
    (hfit : ∀ op ∈ ops, OpFits m.toNat op)
    (h : encSession ops (EncoderState.withDynamicSize m) = (.ok (), e')) :
    ∃ hs k, SessionMeans m.toNat ⟨[], m.toNat⟩ ops hs e'.table.spec ∧
      decode { DecoderState.withDynamicSize m with buf := e'.dst } =
        (.ok k, { DecoderState.withDynamicSize m with dst := hs, table := e'.table }) := by
  obtain ⟨hs, k, h1, h2, _⟩ := C28_session (EncoderState.withDynamicSize m) e' (DecoderState.withDynamicSize m) ops
    (Table.withDynamicSize_WF m) rfl hfit h
  exact ⟨hs, k, h1, h2⟩

/-- A stored header, its repetition by index, a size change. -/
example (e' : EncoderState)
    (h : encSession [.header (.Literal [97] [98] 0x14), .header (.Indexed 62), .resize 100] (EncoderState.withDynamicSize 4096) = (.ok (), e')) :
    ∃ k, (decode { DecoderState.withDynamicSize 4096 with buf := e'.dst }).1 = .ok k := by
  obtain ⟨hs, k, _, h⟩ := C28_session_fresh 4096 _ e' (by
    intro op h
    simp only [List.mem_cons, List.not_mem_nil, or_false] at h
    rcases h with rfl | rfl | rfl
    · constructor <;> decide +kernel
    · trivial
    · exact ⟨by decide, by decide⟩) h
  exact ⟨k, congrArg Prod.fst h⟩
example : (encSession [.header (.Literal [97] [98] 0x14), .header (.Indexed 62), .resize 100] (EncoderState.withDynamicSize 4096)).1 = .ok () := by
  decide +kernel

/-- The meaning of a session is unique. -/
theorem C28_meaning_unique (limit : Nat) (t t1 t2 : SpecTable) (ops : List SessionOp) (hs1 hs2 : List Field)
    (h1 : SessionMeans limit t ops hs1 t1) (h2 : SessionMeans limit t ops hs2 t2) : hs1 = hs2 ∧ t1 = t2 := by
  induction h1 generalizing hs2 t2 with
  | nil t => cases h2; exact ⟨rfl, rfl⟩
  | header hc ha hr ih =>
    cases h2 with
    | header hc' ha' hr' =>
      obtain rfl := Chosen.unique hc hc'
      rw [ha] at ha'
      simp only [Option.some.injEq, Prod.mk.injEq] at ha'
      obtain ⟨rfl, rfl⟩ := ha'
      obtain ⟨rfl, rfl⟩ := ih _ _ hr'
      exact ⟨rfl, rfl⟩
  | resize hn hr ih =>
    cases h2 with
    | resize hn' hr' => exact ih _ _ hr'

/-- Transport of a history in several blocks: each block is encoded into an empty vector and decoded on its own. -/
def relay : List (List SessionOp) → EncoderState → DecoderState → Option (EncoderState × DecoderState)
  | [], e, d => some (e, d)
  | ops :: rest, e, d =>
    match encSession ops { e with dst := [] } with
    | (.ok (), e') =>
      match decode { d with buf := e'.dst } with
      | (.ok _, d') => relay rest e' d'
      | _ => none
    | _ => none

theorem encSession_append (a b : List SessionOp) (e e' : EncoderState) :
    encSession (a ++ b) e = (.ok (), e') ↔
      ∃ e1, encSession a e = (.ok (), e1) ∧ encSession b e1 = (.ok (), e') := by
  induction a generalizing e with
  | nil => simp [encSession]
  | cons op a ih =>
    simp only [List.cons_append, encSession, M.bind_apply]
    rcases encOp op e with ⟨r, e1⟩
    cases r with
    | ok u => exact ih e1
    | err e => simp
    | panic => simp
    | hang => simp

theorem SessionMeans.append {limit : Nat} {t t1 t2 : SpecTable} {a b : List SessionOp} {hs hs' : List Field}
    (h : SessionMeans limit t a hs t1) (h' : SessionMeans limit t1 b hs' t2) :
    SessionMeans limit t (a ++ b) (hs ++ hs') t2 := by
  induction h with
  | nil t => exact h'
  | header hc ha hr ih => exact .header hc ha (ih h')
  | resize hn hr ih => exact .resize hn (ih h')

/-! The output vector is only appended to. -/

/-- A call of the encoder that only appends to the output, and does not depend on what it holds. -/
def Appends {α : Type} (m : M EncoderState EncoderError α) : Prop :=
  ∀ (s : EncoderState) (d : Bytes), m { s with dst := d ++ s.dst } = ((m s).1, { (m s).2 with dst := d ++ (m s).2.dst })

theorem Appends.bind {α β : Type} {m : M EncoderState EncoderError α} {f : α → M EncoderState EncoderError β}
    (hm : Appends m) (hf : ∀ a, Appends (f a)) : Appends (m >>= f) := by
  intro s d
  simp only [M.bind_apply, hm s d]
  rcases m s with ⟨r, s'⟩
  cases r with
  | ok a => exact hf a s' d
  | err e => rfl
  | panic => rfl
  | hang => rfl

/-- A read of the table only. -/
theorem Appends.get_bind {β : Type} {f : EncoderState → M EncoderState EncoderError β}
    (hf : ∀ s, Appends (f s)) (hd : ∀ s d, f { s with dst := d ++ s.dst } = f s) : Appends (M.get >>= f) := by
  intro s d
  simp only [M.bind_apply, M.get_apply, hd]
  exact hf s s d

theorem Appends.throw {α : Type} (e : EncoderError) : Appends (α := α) (M.throw e) := fun _ _ => rfl
theorem Appends.hang {α : Type} : Appends (α := α) M.hang := fun _ _ => rfl
theorem Appends.lift {α : Type} (r : Res EncoderError α) : Appends (M.lift r) := fun _ _ => rfl
theorem Appends.push (bs : Bytes) : Appends (M.modify fun s => { s with dst := s.dst ++ bs }) := by
  intro s d; simp
theorem Appends.table (t : Table) : Appends (M.modify fun s => { s with table := t }) := fun _ _ => rfl
theorem Appends.pushBytes (r : Res EncoderError Bytes) : Appends (pushBytes r) :=
  (Appends.lift r).bind fun bs => Appends.push bs
theorem Appends.encInsert (n v : Bytes) : Appends (encInsert n v) :=
  .get_bind (fun _ => (Appends.lift _).bind fun t => Appends.table t) (fun _ _ => rfl)
theorem Appends.ite {α : Type} (c : Prop) [Decidable c] {x y : M EncoderState EncoderError α} (hx : Appends x)
    (hy : Appends y) : Appends (if c then x else y) := by split <;> assumption

theorem encodeIndexed_appends (i : UInt32) : Appends (encodeIndexed i) := by
  refine .get_bind (fun s => ?_) (fun _ _ => rfl)
  split
  · exact .throw _
  · exact .pushBytes _

theorem encodeIndexedName_appends (i : UInt32) (v : Bytes) (f : UInt8) : Appends (encodeIndexedName i v f) := by
  refine .get_bind (fun s => ?_) (fun _ _ => rfl)
  split
  · exact .throw _
  · exact .bind (.ite _ (.bind (.encInsert _ _) fun _ => .pushBytes _) (.ite _ (.pushBytes _) (.pushBytes _)))
      fun _ => .pushBytes _

theorem encodeLiteral_appends (n v : Bytes) (f : UInt8) : Appends (encodeLiteral n v f) :=
  .bind (.ite _ (.bind (.push _) fun _ => .encInsert _ _) (.ite _ (.push _) (.push _)))
    fun _ => .bind (.pushBytes _) fun _ => .pushBytes _

/-- C63. `encode` only appends to the output: its verdict, its table and the octets it appends do not depend on what
the output holds. -/
theorem C63_encode_appends (input : EncoderInput) (s : EncoderState) (d : Bytes) :
    encode input { s with dst := d ++ s.dst } =
      ((encode input s).1, { (encode input s).2 with dst := d ++ (encode input s).2.dst }) := by
  suffices h : Appends (encode input) from h s d
  unfold encode
  split
  · exact encodeIndexed_appends _
  · exact encodeIndexedName_appends _ _ _
  · refine .ite _ (.get_bind (fun s => ?_) (fun _ _ => rfl)) (encodeLiteral_appends _ _ _)
    split
    · exact .hang
    · exact encodeIndexed_appends _
    · exact encodeIndexedName_appends _ _ _
    · exact encodeLiteral_appends _ _ _

/-- C63. The same for a size update. -/
theorem C63_update_appends (n : UInt32) (s : EncoderState) (d : Bytes) :
    encUpdateMaxDynamicSize n { s with dst := d ++ s.dst } =
      ((encUpdateMaxDynamicSize n s).1,
        { (encUpdateMaxDynamicSize n s).2 with dst := d ++ (encUpdateMaxDynamicSize n s).2.dst }) := by
  suffices h : Appends (encUpdateMaxDynamicSize n) from h s d
  exact .get_bind (fun s => .bind (.lift _) fun _ => .bind (.table _) fun _ => .pushBytes _) (fun _ _ => rfl)

theorem encSession_appends (ops : List SessionOp) : Appends (encSession ops) := by
  induction ops with
  | nil => intro s d; rfl
  | cons op ops ih =>
    refine .bind ?_ fun _ => ih
    cases op with
    | header input => exact C63_encode_appends input
    | resize n => exact C63_update_appends n

/-- C28. The same when the history is cut into blocks in any way (in particular call by call), each block encoded into
an empty vector and decoded on its own. -/
theorem C28_call_by_call (blocks : List (List SessionOp)) : ∀ (e e2 : EncoderState) (d : DecoderState), e.table.WF →
    d.table = e.table → d.buf = [] → (∀ ops ∈ blocks, ∀ op ∈ ops, OpFits d.maxDynamicSize.toNat op) →
    encSession blocks.flatten e = (.ok (), e2) →
    ∃ e' hs, relay blocks e d = some (e', { d with dst := d.dst ++ hs, table := e2.table }) ∧ e'.table = e2.table ∧
      SessionMeans d.maxDynamicSize.toNat e.table.spec blocks.flatten hs e2.table.spec := by
  induction blocks with
  | nil =>
    intro e e2 d hwf hsync hb _ h
    simp only [List.flatten_nil, encSession, M.pure_apply, Prod.mk.injEq, true_and] at h
    subst h
    refine ⟨e, [], ?_, rfl, .nil _⟩
    simp only [relay, Option.some.injEq, Prod.mk.injEq, true_and, List.append_nil]
    obtain ⟨sp, m, t, buf, dst⟩ := d
    simp only at hsync ⊢
    rw [hsync]
  | cons ops rest ih =>
    intro e e2 d hwf hsync hb hfit h
    rw [List.flatten_cons, encSession_append] at h
    obtain ⟨ea, ha, hrest⟩ := h
    -- the block, encoded into an empty vector
    have hfr := encSession_appends ops { e with dst := [] } e.dst
    simp only [List.append_nil] at hfr
    rw [show ({ e with dst := e.dst } : EncoderState) = e from rfl, ha] at hfr
    rcases h1 : encSession ops { e with dst := [] } with ⟨r, e1⟩
    rw [h1] at hfr
    simp only [Prod.mk.injEq] at hfr
    obtain ⟨rfl, rfl⟩ := hfr
    obtain ⟨hs, k, hm, hd, hwf1⟩ := C28_session e e1 d ops hwf hsync (hfit ops (by simp)) h1
    -- the rest, likewise
    have hfr2 := encSession_appends rest.flatten e1 e.dst
    rw [hrest] at hfr2
    rcases h2 : encSession rest.flatten e1 with ⟨r2, e3⟩
    rw [h2] at hfr2
    simp only [Prod.mk.injEq] at hfr2
    obtain ⟨rfl, rfl⟩ := hfr2
    obtain ⟨e', hs', h2, h3, h4⟩ := ih e1 e3 { d with buf := [], dst := d.dst ++ hs, table := e1.table } hwf1 rfl rfl
      (fun o ho => hfit o (by simp [ho])) h2
    refine ⟨e', hs ++ hs', ?_, h3, ?_⟩
    · simp only [relay, h1, hd]
      rw [h2]
      simp only [Option.some.injEq, Prod.mk.injEq, true_and, List.append_assoc]
      obtain ⟨sp, m, t, buf, dst⟩ := d
      simp only at hb ⊢
      rw [hb]
    · simp only [List.flatten_cons]
      exact SessionMeans.append hm h4

/-- A session with a new header, its repetition by index 62, a size change and a never-indexed header. -/
example : (encSession [.header (.Literal [97] [98] 0x17), .header (.Indexed 62), .resize 100,
    .header (.IndexedName 62 [99] 0x8)] (EncoderState.withDynamicSize 4096)).1 = .ok () := by decide +kernel

example : ∀ op ∈ [SessionOp.header (.Indexed 62), .resize 100], OpFits 4096 op := by
  intro op h
  simp only [List.mem_cons, List.not_mem_nil, or_false] at h
  rcases h with rfl | rfl
  · trivial
  · exact ⟨by decide, by decide⟩

end Verif.Props
