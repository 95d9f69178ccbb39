import Verif.Props.HpackSecrets
/-! Property theorem C117: which blocks of a connection may be lost, repeated or reordered. -/
namespace Verif.Props
open Verif Verif.Spec Verif.Hpack

/-- A user that encodes each block into an empty vector, one block after the other: the octets of the blocks, if every call succeeds.
User code around /repo/hpack/src/encoder/mod.rs:141-173 and 393-400. -/
def encBlocks : List (List SessionOp) → EncoderState → Option (List Bytes × EncoderState)
  | [], e => some ([], e)
  | ops :: rest, e =>
    match encSession ops { e with dst := [] } with
    | (.ok (), e1) => (encBlocks rest e1).map fun r => (e1.dst :: r.1, r.2)
    | _ => none

/-- A user that decodes each block that arrives on its own, and stops at the first error.
User code around /repo/hpack/src/decoder/mod.rs:100-128. -/
def decBlocks : List Bytes → DecoderState → Option DecoderState
  | [], d => some d
  | b :: bs, d =>
    match decode { d with buf := b } with
    | (.ok _, d1) => decBlocks bs d1
    | _ => none

/-- Every call of the block encodes a header without WITH_INDEXING. -/
def storesNothing (ops : List SessionOp) : Bool := ops.all isUnstored

/-- How many of the first `i` blocks store something (or resize the table). -/
def storing : List (List SessionOp) → Nat → Nat
  | ops :: rest, i + 1 => (if storesNothing ops then 0 else 1) + storing rest i
  | _, _ => 0

/-- The arrival of the blocks with the indices `js`: every block arrives after exactly the storing blocks that were sent before it, each
once and in order; blocks that store nothing may be missing, arrive several times and in any order between two storing blocks. `c` and
`c'` are the numbers of storing blocks that have arrived at the beginning and at the end. -/
inductive Arrival (blocks : List (List SessionOp)) : Nat → List Nat → Nat → Prop where
  | nil (c : Nat) : Arrival blocks c [] c
  | cons {c j c' : Nat} {js : List Nat} (hj : j < blocks.length) (hc : storing blocks j = c)
      (h : Arrival blocks (storing blocks (j + 1)) js c') : Arrival blocks c (j :: js) c'

/-- What each block means. -/
inductive BlocksMean (limit : Nat) : SpecTable → List (List SessionOp) → List (List Field) → SpecTable → Prop where
  | nil (t : SpecTable) : BlocksMean limit t [] [] t
  | cons {t t1 t2 : SpecTable} {ops : List SessionOp} {rest : List (List SessionOp)} {hs : List Field} {hss : List (List Field)}
      (h : SessionMeans limit t ops hs t1) (hr : BlocksMean limit t1 rest hss t2) : BlocksMean limit t (ops :: rest) (hs :: hss) t2

theorem keeps_session {ops : List SessionOp} (h : storesNothing ops = true) : KeepsTable (encSession ops) := by
  induction ops with
  | nil => exact fun _ => rfl
  | cons op ops ih =>
    simp only [storesNothing, List.all_cons, Bool.and_eq_true] at h
    exact .bind (keeps_unstored op h.1) fun _ => ih h.2

/-- The tables of the encoder before each block and at the end. -/
theorem encBlocks_tables (blocks : List (List SessionOp)) : ∀ (e e' : EncoderState) (bs : List Bytes) (d : DecoderState), e.table.WF →
    (∀ ops ∈ blocks, ∀ op ∈ ops, OpFits d.maxDynamicSize.toNat op) → encBlocks blocks e = some (bs, e') →
    ∃ (hss : List (List Field)) (T : Nat → Table), BlocksMean d.maxDynamicSize.toNat e.table.spec blocks hss e'.table.spec ∧
      T 0 = e.table ∧ T (storing blocks blocks.length) = e'.table ∧
      ∀ j, j < blocks.length → ∀ (d1 : DecoderState), d1.maxDynamicSize = d.maxDynamicSize → d1.table = T (storing blocks j) →
        ∃ k, decode { d1 with buf := bs.getD j [] } =
          (.ok k, { d1 with buf := [], dst := d1.dst ++ hss.getD j [], table := T (storing blocks (j + 1)) }) := by
  induction blocks with
  | nil =>
    intro e e' bs d _ _ h
    simp only [encBlocks, Option.some.injEq, Prod.mk.injEq] at h
    obtain ⟨rfl, rfl⟩ := h
    exact ⟨[], fun _ => e.table, .nil _, rfl, rfl, fun j hj => absurd hj (by simp)⟩
  | cons ops rest ih =>
    intro e e' bs d hwf hfit h
    simp only [encBlocks] at h
    split at h
    · rename_i e1 he1
      cases hr : encBlocks rest e1 with
      | none => rw [hr] at h; cases h
      | some r =>
        obtain ⟨bs1, e2⟩ := r
        rw [hr] at h
        simp only [Option.map_some, Option.some.injEq, Prod.mk.injEq] at h
        obtain ⟨rfl, rfl⟩ := h
        have one : ∀ d1 : DecoderState, d1.maxDynamicSize = d.maxDynamicSize → d1.table = e.table →
            ∃ hs k, SessionMeans d1.maxDynamicSize.toNat e.table.spec ops hs e1.table.spec ∧
              decode { d1 with buf := e1.dst } = (.ok k, { d1 with buf := [], dst := d1.dst ++ hs, table := e1.table }) ∧ e1.table.WF :=
          fun d1 hm hs => C28_session e e1 d1 ops hwf hs (by rw [hm]; exact hfit ops (by simp)) he1
        obtain ⟨hs, _, hmean, _, hwf1⟩ := one { d with table := e.table } rfl rfl
        simp only at hmean
        obtain ⟨hss, T, h1, h2, h3, h4⟩ := ih e1 e2 bs1 d hwf1 (fun o ho => hfit o (by simp [ho])) hr
        have first : ∀ d1 : DecoderState, d1.maxDynamicSize = d.maxDynamicSize → d1.table = e.table →
            ∃ k, decode { d1 with buf := e1.dst } = (.ok k, { d1 with buf := [], dst := d1.dst ++ hs, table := e1.table }) := by
          intro d1 hm ht
          obtain ⟨hs', k, hmean', hdec, _⟩ := one d1 hm ht
          rw [hm] at hmean'
          obtain ⟨rfl, _⟩ := C28_meaning_unique _ _ _ _ _ _ _ hmean hmean'
          exact ⟨k, hdec⟩
        cases hst : storesNothing ops with
        | true =>
          have hkeep : e1.table = e.table := by
            have hk := keeps_session hst { e with dst := [] }
            rw [he1] at hk
            exact hk
          refine ⟨hs :: hss, T, .cons hmean h1, by rw [h2, hkeep], ?_, ?_⟩
          · simpa [storing, hst] using h3
          · intro j hj d1 hm ht
            cases j with
            | zero =>
              obtain ⟨k, hk⟩ := first d1 hm (by rw [ht]; simp [storing, h2, hkeep])
              refine ⟨k, ?_⟩
              have : T (storing (ops :: rest) (0 + 1)) = e1.table := by
                cases rest <;> simpa [storing, hst] using h2
              rw [this]
              exact hk
            | succ j =>
              simp only [storing, hst, if_true, Nat.zero_add] at ht ⊢
              exact h4 j (by simpa using hj) d1 hm ht
        | false =>
          refine ⟨hs :: hss, fun n => match n with | 0 => e.table | n + 1 => T n, .cons hmean h1, rfl, ?_, ?_⟩
          · simp only [List.length_cons, storing, hst, Bool.false_eq_true, if_false, Nat.add_comm 1]
            exact h3
          · intro j hj d1 hm ht
            cases j with
            | zero =>
              obtain ⟨k, hk⟩ := first d1 hm (by rw [ht]; simp [storing])
              refine ⟨k, ?_⟩
              have h0 : storing rest 0 = 0 := by cases rest <;> rfl
              simp only [storing, hst, Bool.false_eq_true, if_false, h0]
              rw [h2]
              exact hk
            | succ j =>
              simp only [storing, hst, Bool.false_eq_true, if_false, Nat.add_comm 1] at ht ⊢
              exact h4 j (by simpa using hj) d1 hm ht
    · cases h

/-- C117. Blocks that store nothing may be lost, repeated and reordered between the storing blocks: the decoder delivers, for every
block that arrives, exactly the headers that block means, in the order of arrival, and its table ends up as the encoder's if all
storing blocks have arrived. -/
theorem C117_loss (blocks : List (List SessionOp)) (e e' : EncoderState) (bs : List Bytes) (d : DecoderState) (hwf : e.table.WF)
    (hsync : d.table = e.table) (hbuf : d.buf = []) (hfit : ∀ ops ∈ blocks, ∀ op ∈ ops, OpFits d.maxDynamicSize.toNat op)
    (h : encBlocks blocks e = some (bs, e')) :
    ∃ hss, BlocksMean d.maxDynamicSize.toNat e.table.spec blocks hss e'.table.spec ∧
      ∀ js c, Arrival blocks 0 js c →
        ∃ t, decBlocks (js.map fun j => bs.getD j []) d =
            some { d with dst := d.dst ++ (js.map fun j => hss.getD j []).flatten, table := t } ∧
          (c = storing blocks blocks.length → t = e'.table) := by
  obtain ⟨hss, T, h1, h2, h3, h4⟩ := encBlocks_tables blocks e e' bs d hwf hfit h
  refine ⟨hss, h1, fun js c ha => ?_⟩
  suffices hgen : ∀ (js : List Nat) (c0 c : Nat), Arrival blocks c0 js c → ∀ d1 : DecoderState, d1.maxDynamicSize = d.maxDynamicSize →
      d1.buf = [] → d1.table = T c0 →
      decBlocks (js.map fun j => bs.getD j []) d1 =
        some { d1 with dst := d1.dst ++ (js.map fun j => hss.getD j []).flatten, table := T c } by
    exact ⟨T c, hgen js 0 c ha d rfl hbuf (by rw [hsync, h2]), fun hc => by rw [hc, h3]⟩
  intro js c0 c ha
  induction ha with
  | nil c0 =>
    intro d1 _ _ ht
    simp only [List.map_nil, decBlocks, List.flatten_nil, List.append_nil, Option.some.injEq]
    rw [← ht]
  | @cons c0 j c' js hj hc ha ih =>
    intro d1 hm hb ht
    obtain ⟨k, hk⟩ := h4 j hj d1 hm (by rw [ht, hc])
    simp only [List.map_cons, decBlocks, hk]
    refine (ih { d1 with buf := [], dst := d1.dst ++ hss.getD j [], table := T (storing blocks (j + 1)) } hm rfl rfl).trans ?_
    simp only [List.flatten_cons, List.append_assoc, hb]

/-- What the decoder has delivered, if there was no error. -/
def delivered (bs : List Bytes) : Option (List (Bytes × Bytes × UInt8)) := (decBlocks bs DecoderState.default).map (·.dst)

/-- Three blocks: a: b and c: d, both to be stored, and the index `i`. -/
def threeBlocks (i : UInt32) : List (List SessionOp) :=
  [[.header (.Literal [0x61] [0x62] 0x4)], [.header (.Literal [0x63] [0x64] 0x4)], [.header (.Indexed i)]]

/-- C117, the other side: the loss, the repetition and a change of the order of storing blocks are not noticed. The encoder sends
a: b and c: d, both to be stored, and then one of them again, as an index; the decoder reports no error and delivers the other one. -/
theorem C117_lost_store : ∃ (b1 b2 b3 b3' : Bytes) (e e' : EncoderState),
    encBlocks (threeBlocks 62) EncoderState.default = some ([b1, b2, b3], e) ∧
    encBlocks (threeBlocks 63) EncoderState.default = some ([b1, b2, b3'], e') ∧
    delivered [b1, b2, b3] = some [([0x61], [0x62], 0x4), ([0x63], [0x64], 0x4), ([0x63], [0x64], 0x0)] ∧
    delivered [b1, b3] = some [([0x61], [0x62], 0x4), ([0x61], [0x62], 0x0)] ∧
    delivered [b1, b2, b3'] = some [([0x61], [0x62], 0x4), ([0x63], [0x64], 0x4), ([0x61], [0x62], 0x0)] ∧
    delivered [b1, b2, b2, b3'] =
      some [([0x61], [0x62], 0x4), ([0x63], [0x64], 0x4), ([0x63], [0x64], 0x4), ([0x63], [0x64], 0x0)] ∧
    delivered [b2, b1, b3] = some [([0x63], [0x64], 0x4), ([0x61], [0x62], 0x4), ([0x61], [0x62], 0x0)] := by
  refine ⟨[0x40, 1, 0x61, 1, 0x62], [0x40, 1, 0x63, 1, 0x64], [0xBE], [0xBF], _, _, rfl, rfl, ?_, ?_, ?_, ?_, ?_⟩ <;>
  decide +kernel

/-- A connection with two blocks that store nothing between two storing blocks: the first of the two is lost, the second arrives twice. -/
example : ∃ (bs : List Bytes) (e' : EncoderState),
    let blocks : List (List SessionOp) := [[.header (.Literal [0x61] [0x62] 0x4)], [.header (.Literal [0x70] [0x71] 0x8)],
      [.header (.Indexed 62)], [.header (.Literal [0x63] [0x64] 0x4)]]
    encBlocks blocks EncoderState.default = some (bs, e') ∧ Arrival blocks 0 [0, 2, 2, 3] 2 ∧ storing blocks blocks.length = 2 ∧
      delivered ([0, 2, 2, 3].map fun j => bs.getD j []) =
        some [([0x61], [0x62], 0x4), ([0x61], [0x62], 0x0), ([0x61], [0x62], 0x0), ([0x63], [0x64], 0x4)] := by
  refine ⟨[[0x40, 1, 0x61, 1, 0x62], [0x10, 1, 0x70, 1, 0x71], [0xBE], [0x40, 1, 0x63, 1, 0x64]], _, rfl, ?_, by decide +kernel,
    by decide +kernel⟩
  exact .cons (by decide) (by decide +kernel) (.cons (by decide) (by decide +kernel) (.cons (by decide) (by decide +kernel)
    (.cons (by decide) (by decide +kernel) (.nil _))))

end Verif.Props
