import Verif.Props.HpackMore
import Verif.Lemmas.HpackLen
/-! Property theorems C68, C75, C79 - C82, C85, C86. -/
namespace Verif.Props
open Verif Verif.Spec Verif.Hpack
open Verif.Huffman (Speed)

/-! ### Size of the output -/

/-- C86. A successful call of the encoder appends exactly as many octets as the chosen representation needs. -/
theorem C86_output_size (s s' : EncoderState) (hwf : s.table.WF) (input : EncoderInput) (rep : Rep)
    (hc : Chosen s.table.spec input rep) (h : encode input s = (.ok (), s')) :
    s'.dst.length = s.dst.length + repOctets (huffName input) (huffValue input) rep := encode_length hwf hc h

/-- C86. This is the shortest: no octets of the same representation (with the same choice of Huffman coding), whatever the
padding, are fewer. -/
theorem C86_shortest (s s' : EncoderState) (hwf : s.table.WF) (input : EncoderInput) (rep : Rep) (hc : Chosen s.table.spec input rep)
    (h : encode input s = (.ok (), s')) (pads : List (List Bool)) (lim : Nat) (bs : Octets)
    (hw : RepWireAs pads lim (huffName input) (huffValue input) rep bs) : s'.dst.length ≤ s.dst.length + bs.length := by
  rw [encode_length hwf hc h]
  exact Nat.add_le_add_left (repOctets_le hw) _

/-- C86. And it is a wire form itself, so it is one of the shortest. -/
theorem C86_reached (s s' : EncoderState) (hwf : s.table.WF) (input : EncoderInput) (rep : Rep) (hc : Chosen s.table.spec input rep)
    (h : encode input s = (.ok (), s')) (hf : RepFits (2 ^ 28 + 127) (huffName input) (huffValue input) rep) :
    ∃ bs, s'.dst = s.dst ++ bs ∧ RepWireAs rfcPads 5 (huffName input) (huffValue input) rep bs := by
  have hs := encode_spec s hwf input rep 0 hc
  cases ha : rep.apply 0 s.table.spec with
  | none => simp only [ha] at hs; rw [hs] at h; simp at h
  | some p =>
    obtain ⟨hdr, st⟩ := p
    simp only [ha] at hs
    obtain ⟨bs, t', _, _, he, _, hw⟩ := hs.1 (RepFits.mono (by decide) hf)
    rw [he] at h
    simp only [Prod.mk.injEq, true_and] at h
    subst h
    exact ⟨bs, rfl, hw hf⟩

/-- C86. Size updates likewise. -/
theorem C86_update_size (s s' : EncoderState) (n : UInt32) (h : encUpdateMaxDynamicSize n s = (.ok (), s')) :
    s'.dst.length = s.dst.length + repOctets false false (.sizeUpdate n.toNat) ∧
      ∀ pads lim bs, RepWireAs pads lim false false (.sizeUpdate n.toNat) bs → s'.dst.length ≤ s.dst.length + bs.length := by
  suffices h' : s'.dst.length = s.dst.length + repOctets false false (.sizeUpdate n.toNat) from
    ⟨h', fun _ _ _ hw => by rw [h']; exact Nat.add_le_add_left (repOctets_le hw) _⟩
  unfold encUpdateMaxDynamicSize at h
  obtain ⟨_, _, h1, h⟩ := Hpack.M.bind_inv h
  obtain ⟨_, _, h2, h⟩ := Hpack.M.bind_inv h
  obtain ⟨_, _, h3, h⟩ := Hpack.M.bind_inv h
  simp only [M.get_apply, Prod.mk.injEq] at h1
  simp only [M.lift_apply, Prod.mk.injEq] at h2
  simp only [M.modify_apply, Prod.mk.injEq, true_and] at h3
  obtain ⟨bs, h4, rfl⟩ := pushBytes_inv h
  rw [← h3, ← h2.2, ← h1.2, List.length_append, encodeInteger_length (by decide) (by decide) h4]
  rfl

example : encode (.Literal [0x61] [0x62] 0x4) EncoderState.default =
    (.ok (), { table := ⟨⟨[([0x61], [0x62])], 34, 4096⟩⟩, dst := [0x40, 1, 0x61, 1, 0x62] }) ∧
    repOctets false false (.literal .incremental (.new [0x61]) [0x62]) = 5 := by
  refine ⟨by decide +kernel, ?_⟩
  simp [repOctets, strOctets, intLen, strLen]

/-! ### BEST_FORMAT -/

theorem groups_mono {a b : Nat} (hab : a ≤ b) : groups a ≤ groups b := by
  obtain ⟨k, hk⟩ : ∃ k, groups b = k + 1 := ⟨groups b - 1, by have := groups_pos b; omega⟩
  rw [hk, groups_le]
  exact Nat.lt_of_le_of_lt hab ((groups_le k b).mp (by omega))

theorem intLen_small {n v : Nat} (h4 : 4 ≤ n) (hv : v ≤ 16398) : intLen n v ≤ 3 := by
  have hp : 2 ^ 4 ≤ 2 ^ n := Nat.pow_le_pow_right (by decide) h4
  unfold intLen
  split
  · omega
  · have : groups (v - (2 ^ n - 1)) ≤ 1 + 1 := (groups_le 1 _).mpr (by omega)
    omega

theorem intLen_pos (n v : Nat) : 1 ≤ intLen n v := by unfold intLen; split <;> omega

/-- A non-empty string takes at least two octets. -/
theorem strOctets_two (huff : Bool) {n : Octets} (h : n ≠ []) : 2 ≤ strOctets huff n := by
  have h1 := intLen_pos 7 (strLen huff n)
  have h2 : 1 ≤ strLen huff n := by
    have hl : 1 ≤ n.length := by cases n with | nil => exact absurd rfl h | cons a l => simp
    have := Huffman.codeLenSum_bounds n
    unfold strLen
    split <;> omega
  unfold strOctets
  omega

theorem addr_le {t : SpecTable} {i : Nat} {e : Octets × Octets} (h : t.addr i = some e) : i ≤ 61 + t.entries.length := by
  unfold SpecTable.addr at h
  split at h
  · cases h
  · split at h
    · omega
    · have := (List.getElem?_eq_some_iff.mp h).1
      omega

/-- C79. BEST_FORMAT never makes a header longer, if its name is not empty and the table has at most 16337 entries (so
always with tables of up to 522784 octets): whenever the call without the flag succeeds, the call with it does, with no more
octets. -/
theorem C79_best_not_longer (s s1 : EncoderState) (hwf : s.table.WF) (n v : Bytes) (f : UInt8) (hn : n ≠ [])
    (hl : s.table.dynamicLen ≤ 16337) (hf : f.toNat.testBit 4 = false)
    (h1 : encode (.Literal n v f) s = (.ok (), s1)) :
    ∃ s2, encode (.Literal n v (f ||| 0x10)) s = (.ok (), s2) ∧ s2.dst.length ≤ s1.dst.length := by
  have hbits : ∀ f : UInt8, (f ||| 0x10).toNat.testBit 0 = f.toNat.testBit 0 ∧ (f ||| 0x10).toNat.testBit 1 = f.toNat.testBit 1 ∧
      (f ||| 0x10).toNat.testBit 4 = true ∧ flagMode (f ||| 0x10) = flagMode f := forall_u8 (by decide +kernel)
  obtain ⟨b0, b1, b4, bm⟩ := hbits f
  have hc1 : Chosen s.table.spec (.Literal n v f) (.literal (flagMode f) (.new n) v) := .literal n v f hf
  have l1 := encode_length hwf hc1 h1
  obtain ⟨rep, hc2⟩ := Chosen.exists s.table hwf (.Literal n v (f ||| 0x10))
  have hfit1 : RepFits (2 ^ 32) (f.toNat.testBit 0) (f.toNat.testBit 1) (.literal (flagMode f) (.new n) v) := by
    have hs := encode_spec s hwf _ _ 0 hc1
    simp only [Rep.apply, NameRef.resolve] at hs
    apply Classical.byContradiction
    intro hno
    obtain ⟨_, _, _, _, he, _⟩ := hs.2 hno
    rw [h1] at he; simp at he
  have hfit2 : RepFits (2 ^ 32) (huffName (.Literal n v (f ||| 0x10))) (huffValue (.Literal n v (f ||| 0x10))) rep := by
    simp only [huffName, huffValue, flagsOf, b0, b1]
    cases hc2 with
    | literal _ _ _ h => rw [b4] at h; cases h
    | bestFull _ _ _ _ i h => trivial
    | bestName _ _ _ _ _ i h => exact hfit1.2
    | bestNew _ _ _ _ h => exact hfit1
  have hs := encode_spec s hwf _ rep 0 hc2
  have happ : ∃ x, rep.apply 0 s.table.spec = some x := by
    cases hc2 with
    | literal _ _ _ h => exact ⟨_, rfl⟩
    | bestFull _ _ _ _ i h => obtain ⟨⟨e, he, _⟩, _⟩ := h; simp only [Rep.apply, he]; exact ⟨_, rfl⟩
    | bestName _ _ _ _ _ i h => obtain ⟨⟨e, he, _⟩, _⟩ := h; simp only [Rep.apply, NameRef.resolve, he, Option.map_some]; exact ⟨_, rfl⟩
    | bestNew _ _ _ _ h => exact ⟨_, rfl⟩
  obtain ⟨x, hx⟩ := happ
  rw [hx] at hs
  obtain ⟨bs, t', _, _, he, _, _⟩ := hs.1 hfit2
  refine ⟨_, he, ?_⟩
  have l2 := encode_length hwf hc2 he
  rw [l1, l2]
  refine Nat.add_le_add_left ?_ _
  simp only [huffName, huffValue, flagsOf, b0, b1]
  have hnm := strOctets_two (f.toNat.testBit 0) hn
  have hlen : s.table.spec.entries.length ≤ 16337 := hl
  cases hc2 with
  | literal _ _ _ h => rw [b4] at h; cases h
  | bestFull _ _ _ _ i h =>
    obtain ⟨⟨e, he, _⟩, _⟩ := h
    have := addr_le he
    have := intLen_small (n := 7) (v := i) (by decide) (by omega)
    simp only [repOctets]
    omega
  | bestName _ _ _ _ _ i h =>
    obtain ⟨⟨e, he, _⟩, _⟩ := h
    have := addr_le he
    have := intLen_small (n := (flagMode (f ||| 0x10)).bits) (v := i) (by cases flagMode (f ||| 0x10) <;> decide) (by omega)
    simp only [repOctets]
    omega
  | bestNew _ _ _ _ h => simp only [repOctets]; omega

example : (encode (.Literal [0x61] [0x62] 0) EncoderState.default).2.dst = [0, 1, 0x61, 1, 0x62] := by decide +kernel
/-- ":path" "/x": 10 octets without the flag, 4 with it. -/
example : (encode (.Literal [58, 112, 97, 116, 104] [47, 120] 0x0) EncoderState.default).2.dst.length = 10 ∧
    (encode (.Literal [58, 112, 97, 116, 104] [47, 120] 0x10) EncoderState.default).2.dst = [4, 2, 47, 120] := by decide +kernel

/-- C79: the condition on the name is needed. With an empty name at index 143 the flag costs one octet more. -/
theorem C79_empty_name :
    let s : EncoderState := { table := Table.ofEntries (List.replicate 81 ([0x61], []) ++ [([], [])]) 4096, dst := [] }
    s.table.WF ∧ (encode (.Literal [] [0x62] 0) s).2.dst.length = 4 ∧ (encode (.Literal [] [0x62] 0x10) s).2.dst.length = 5 := by
  refine ⟨⟨rfl, ?_⟩, ?_, ?_⟩ <;> decide +kernel

/-- C85. A header stored by the encoder is cheap the next time: if it was sent as a literal with indexing and fits the table,
then sending it again with BEST_FORMAT (and any other flags) appends one octet and leaves the encoder's table as it is. -/
theorem C85_repeat_one_octet (s s1 : EncoderState) (hwf : s.table.WF) (n v : Bytes) (f g : UInt8)
    (hf : f.toNat.testBit 2 = true) (hsent : f.toNat.testBit 4 = false ∨ ∀ j, s.table.spec.addr j ≠ some (n, v))
    (hfit : n.length + v.length + 32 ≤ s.getMaxDynamicSize.toNat) (hg : g.toNat.testBit 4 = true)
    (h1 : encode (.Literal n v f) s = (.ok (), s1)) :
    ∃ b, encode (.Literal n v g) s1 = (.ok (), { s1 with dst := s1.dst ++ [b] }) := by
  obtain ⟨rep, bs, hdr, hc, _, _, ha, hwf1⟩ := C27_encoder_refines s s1 _ hwf h1
  have ha := ha 0
  have hm : flagMode f = .incremental := by rw [flagMode, if_pos hf]
  have ht : s1.table.spec = s.table.spec.insert (n, v) := by
    cases hc with
    | literal _ _ _ h =>
      simp only [Rep.apply, NameRef.resolve, hm, if_true, Option.some.injEq, Prod.mk.injEq] at ha
      exact ha.2.symm
    | bestFull _ _ _ hb i h =>
      obtain ⟨⟨e, he, rfl⟩, _⟩ := h
      rcases hsent with hs | hs
      · rw [hs] at hb; cases hb
      · exact absurd he (hs i)
    | bestName _ _ _ _ _ i h =>
      obtain ⟨⟨e, he, he1⟩, _⟩ := h
      simp only [Rep.apply, NameRef.resolve, he, Option.map_some, hm, if_true, Option.some.injEq, Prod.mk.injEq] at ha
      rw [← ha.2, he1]
    | bestNew _ _ _ _ h =>
      simp only [Rep.apply, NameRef.resolve, hm, if_true, Option.some.injEq, Prod.mk.injEq] at ha
      exact ha.2.symm
  have h62 : s1.table.spec.addr 62 = some (n, v) := by
    rw [ht]
    have : entrySize (n, v) ≤ s.table.spec.max := hfit
    rw [SpecTable.insert, if_pos this]
    rfl
  obtain ⟨rep2, hc2⟩ := Chosen.exists s1.table hwf1 (.Literal n v g)
  cases hc2 with
  | literal _ _ _ h => rw [hg] at h; cases h
  | bestName _ _ _ _ hno i h => exact absurd h62 (hno 62)
  | bestNew _ _ _ _ h => exact absurd rfl (h 62 _ h62)
  | bestFull _ _ _ _ i h =>
    have hi : i ≤ 62 := by
      apply Nat.le_of_not_lt
      intro hlt
      exact h.2 62 hlt _ h62 rfl
    have hc2 : Chosen s1.table.spec (.Literal n v g) (.indexed i) := .bestFull n v g hg i h
    have hs := encode_spec s1 hwf1 _ _ 0 hc2
    obtain ⟨⟨e, he, _⟩, _⟩ := h
    simp only [Rep.apply, he] at hs
    obtain ⟨bs, t', hwf', hsp, hen, _, _⟩ := hs.1 trivial
    have hl := encode_length hwf1 hc2 hen
    simp only [List.length_append, repOctets] at hl
    have : intLen 7 i = 1 := by unfold intLen; rw [if_pos (by omega)]
    obtain ⟨b, rfl⟩ : ∃ b, bs = [b] := List.length_eq_one_iff.mp (by omega)
    refine ⟨b, ?_⟩
    rw [hen, Table.WF.ext hwf' hwf1 hsp]

example : (encode (.Literal [0x61] [0x62] 0x10) (encode (.Literal [0x61] [0x62] 0x4) EncoderState.default).2).2.dst
    = [0x40, 1, 0x61, 1, 0x62] ++ [0xBE] := by decide +kernel

/-! ### The public methods behind `encode` -/

/-- C82. `encode_indexed`, `encode_indexed_name` and `encode_literal`, called directly, do what `encode` does with the
corresponding input, in every state and also when they fail; `encode_literal` ignores BEST_FORMAT. -/
theorem C82_methods (s : EncoderState) :
    (∀ i, encodeIndexed i s = encode (.ofIndex i) s) ∧
    (∀ i v f, encodeIndexedName i v f s = encode (.ofIndexedName (i, v, f)) s) ∧
    (∀ n v f, encodeLiteral n v f s = encode (.ofLiteral (n, v, f &&& 0xEF)) s) := by
  refine ⟨fun _ => rfl, fun _ _ _ => rfl, fun n v f => ?_⟩
  have hb : ∀ f : UInt8, ((f &&& 0xEF) &&& 0x10 = 0x10) = False ∧ ((f &&& 0xEF) &&& 0x4 = 0x4) = (f &&& 0x4 = 0x4) ∧
      ((f &&& 0xEF) &&& 0x8 = 0x8) = (f &&& 0x8 = 0x8) ∧ ((f &&& 0xEF) &&& 0x1 = 0x1) = (f &&& 0x1 = 0x1) ∧
      ((f &&& 0xEF) &&& 0x2 = 0x2) = (f &&& 0x2 = 0x2) := by
    intro f
    have : ∀ f : UInt8, ¬ ((f &&& 0xEF) &&& 0x10 = 0x10) ∧ (((f &&& 0xEF) &&& 0x4 = 0x4) ↔ (f &&& 0x4 = 0x4)) ∧
      (((f &&& 0xEF) &&& 0x8 = 0x8) ↔ (f &&& 0x8 = 0x8)) ∧ (((f &&& 0xEF) &&& 0x1 = 0x1) ↔ (f &&& 0x1 = 0x1)) ∧
      (((f &&& 0xEF) &&& 0x2 = 0x2) ↔ (f &&& 0x2 = 0x2)) := forall_u8 (by decide +kernel)
    obtain ⟨a, b, c, d, e⟩ := this f
    exact ⟨eq_false a, propext b, propext c, propext d, propext e⟩
  obtain ⟨a, b, c, d, e⟩ := hb f
  unfold EncoderInput.ofLiteral encode
  simp only [a, if_false]
  unfold encodeLiteral
  simp only [b, c, d, e]

/-! ### Defaults -/

/-- C68. `Encoder::default()` and `Decoder::default()` have tables of 4096 octets and understand each other: whatever headers
and size updates (of at most 4096) the encoder is given, the decoder delivers the headers and ends with the same table. -/
theorem C68_defaults (ops : List SessionOp) (e' : EncoderState) (hfit : ∀ op ∈ ops, OpFits 4096 op)
    (h : encSession ops EncoderState.default = (.ok (), e')) :
    EncoderState.default.getMaxDynamicSize = 4096 ∧ DecoderState.default.getMaxDynamicSize = 4096 ∧
    ∃ hs k, SessionMeans 4096 ⟨[], 4096⟩ ops hs e'.table.spec ∧
      decode { DecoderState.default with buf := e'.dst } = (.ok k, { DecoderState.default with dst := hs, table := e'.table }) := by
  refine ⟨rfl, rfl, ?_⟩
  obtain ⟨hs, k, h1, h2, _⟩ := C28_session EncoderState.default e' DecoderState.default ops (Table.withDynamicSize_WF 4096) rfl hfit h
  exact ⟨hs, k, h1, h2⟩

/-- C68. The default decoder accepts size updates up to 4096 and rejects others. -/
theorem C68_default_limit (n : Nat) (bs : Bytes) (hw : RepWire lenientPads 5 (.sizeUpdate n) bs) :
    (n ≤ 4096 → ∃ t, decode { DecoderState.default with buf := bs } = (.ok 0, { DecoderState.default with table := t }) ∧
      t.maxDynamicSize.toNat = n) ∧
    (4096 < n → decode { DecoderState.default with buf := bs } = (.err .InvalidMaxDynamicSize, { DecoderState.default with buf := bs })) := by
  constructor
  · intro hn
    have hb := block_cons (limit := 4096) (t := ⟨[], 4096⟩) hw (by simp only [Rep.apply, if_pos hn]; rfl) (block_nil _ _)
    simp only [List.append_nil] at hb
    obtain ⟨t', h1, h2, h3⟩ := decode_block (s := { DecoderState.default with buf := bs }) (Table.withDynamicSize_WF 4096) hb
    refine ⟨t', ?_, ?_⟩
    · rw [h3]; rfl
    · show t'.spec.max = n
      rw [h2]; rfl
  · intro hn
    exact C35_update_rejected { DecoderState.default with buf := bs } (Table.withDynamicSize_WF 4096) n bs [] (by simp) hw hn

example : decode { DecoderState.default with buf := [0x3f, 0xe1, 0x1f] } = (.ok 0, DecoderState.default) := by decide +kernel

/-! ### `max_dynamic_size` of the decoder -/

/-- The size after a sequence of representations: the last size update, if there is any. -/
def lastUpdate : Nat → List Rep → Nat
  | m, [] => m
  | _, .sizeUpdate n :: rs => lastUpdate n rs
  | m, _ :: rs => lastUpdate m rs

theorem applyAll_last {limit : Nat} (rs : List Rep) : ∀ {t t' : SpecTable} {hs : List Field},
    applyAll limit t rs = some (hs, t') → t'.max = lastUpdate t.max rs := by
  induction rs with
  | nil => intro t t' hs h; simp only [applyAll, Option.some.injEq, Prod.mk.injEq] at h; rw [h.2]; rfl
  | cons r rs ih =>
    intro t t' hs h
    simp only [applyAll] at h
    split at h
    · cases h
    · rename_i hd t1 hr
      split at h
      · cases h
      · rename_i hs' t2 hh
        simp only [Option.some.injEq, Prod.mk.injEq] at h
        rw [← h.2, ih hh]
        cases r with
        | indexed i =>
          simp only [Rep.apply] at hr
          split at hr <;> simp only [Option.some.injEq, Prod.mk.injEq, reduceCtorEq] at hr
          rw [← hr.2]; rfl
        | literal m nm v =>
          simp only [Rep.apply] at hr
          split at hr
          · simp only [Option.some.injEq, Prod.mk.injEq] at hr
            rw [← hr.2]
            simp only [lastUpdate]
            congr 1
            split
            · simp only [SpecTable.insert]; split <;> rfl
            · rfl
          · cases hr
        | sizeUpdate n =>
          simp only [Rep.apply] at hr
          split at hr
          · simp only [Option.some.injEq, Prod.mk.injEq] at hr
            rw [← hr.2]; rfl
          · cases hr

/-- C80. `Decoder::max_dynamic_size` reports the size of the table in force: the last size update decoded, or else what it
reported before (also when decoding fails); setting the limit does not change it. -/
theorem C80_reported_size (s : DecoderState) (hwf : s.table.WF) :
    (∃ used ws hs, s.buf = used ++ (decode s).2.buf ∧
      Block lenientPads s.maxDynamicSize.toNat s.table.spec used ws hs (decode s).2.table.spec ∧
      (decode s).2.getMaxDynamicSize.toNat = lastUpdate s.getMaxDynamicSize.toNat (ws.map (·.1))) ∧
    (∀ n, (s.setMaxDynamicSize n).getMaxDynamicSize = s.getMaxDynamicSize) := by
  refine ⟨?_, fun _ => rfl⟩
  obtain ⟨s', ws, hs, r, hd, ⟨⟨used, hb, hblk⟩, _⟩, _⟩ := decode_spec s hwf
  rw [hd]
  exact ⟨used, ws, hs, hb, hblk, applyAll_last _ hblk.2.2⟩

/-- C80. So it is not the limit, contrary to its documentation. -/
theorem C80_not_the_limit :
    ((DecoderState.default).setMaxDynamicSize 100).getMaxDynamicSize = 4096 ∧
    ∀ m n, ((DecoderState.withDynamicSize m).setMaxDynamicSize n).getMaxDynamicSize = m := ⟨rfl, fun _ _ => rfl⟩

/-! ### `decode_exact` in a loop -/

/-- A loop of `decode_exact` calls with the given capacities, counting octets, `?` after each. -/
def exactAll : List Nat → M DecoderState DecoderError Nat
  | [] => pure 0
  | c :: cs => do
    let a ← decodeExact c
    let b ← exactAll cs
    pure (a + b)

theorem decodeExactLoop_add (a b : Nat) : ∀ (total : Nat) (s : DecoderState),
    decodeExactLoop (a + b) total s = (decodeExactLoop a total >>= fun k => decodeExactLoop b k) s := by
  induction a with
  | zero => intro total s; rw [Nat.zero_add]; rfl
  | succ a ih =>
    intro total s
    rw [show a + 1 + b = a + b + 1 by omega]
    by_cases hne : s.buf = []
    · rw [decodeExactLoop_nil _ _ hne, M.bind_of_ok (decodeExactLoop_nil _ _ hne), decodeExactLoop_nil _ _ hne]
    · have hemp : s.buf.isEmpty = false := by simpa using hne
      simp only [decodeExactLoop, M.bind_apply, M.get_apply, M.ite_apply, hemp, Bool.false_eq_true, if_false]
      split
      · rename_i k s1 hk
        rw [ih, M.bind_apply]
      all_goals rfl

theorem decodeExactLoop_total (c : Nat) : ∀ (total : Nat) (s : DecoderState),
    decodeExactLoop c total s = (decodeExactLoop c 0 >>= fun k => pure (total + k)) s := by
  induction c with
  | zero => intro total s; rfl
  | succ c ih =>
    intro total s
    by_cases hne : s.buf = []
    · rw [decodeExactLoop_nil _ _ hne, M.bind_of_ok (decodeExactLoop_nil _ _ hne)]; rfl
    · have hemp : s.buf.isEmpty = false := by simpa using hne
      simp only [decodeExactLoop, M.bind_apply, M.get_apply, M.ite_apply, hemp, Bool.false_eq_true, if_false]
      split
      · rename_i k s1 hk
        rw [ih (total + k), ih (0 + k)]
        simp only [M.bind_apply]
        split <;> simp [Nat.add_assoc]
      all_goals rfl

theorem exactAll_eq (cs : List Nat) : ∀ s, exactAll cs s = decodeExactLoop cs.sum 0 s := by
  induction cs with
  | nil => intro s; rfl
  | cons c cs ih =>
    intro s
    rw [List.sum_cons, decodeExactLoop_add]
    simp only [exactAll, M.bind_apply, decodeExact]
    split
    · rename_i k s1 hk
      rw [decodeExactLoop_total, ih s1, M.bind_apply]
    all_goals rfl

/-- C81. Decoding with `decode_exact` in a loop, with any capacities that are in total enough (at most the length of the input;
zero capacities do no harm), is `decode`: same headers, same table, same rest of the buffer, same verdict, same count. -/
theorem C81_exact_loop (s : DecoderState) (hwf : s.table.WF) (cs : List Nat) (h : s.buf.length ≤ cs.sum) :
    exactAll cs s = decode s := by
  rw [exactAll_eq]
  exact C36_room_for_all s hwf cs.sum h

example : exactAll [1, 0, 1, 1] { DecoderState.default with buf := [0x82, 0x87, 0x84] } =
    decode { DecoderState.default with buf := [0x82, 0x87, 0x84] } := by decide +kernel

/-! ### Bound on the output of the decoder -/

/-- Octets of the names and values of headers. -/
def headerSize (hs : List Field) : Nat := (hs.map fun h => h.1.length + h.2.1.length).sum

theorem static_bound : ∀ e ∈ rfcStatic, e.1.length + e.2.length ≤ 28 := by decide +kernel

theorem le_tableSize {e : Octets × Octets} {l : List (Octets × Octets)} (h : e ∈ l) : entrySize e ≤ tableSize l := by
  induction l with
  | nil => cases h
  | cons a l ih =>
    simp only [tableSize, List.map_cons, List.sum_cons] at ih ⊢
    rcases List.mem_cons.mp h with rfl | h
    · omega
    · have := ih h; omega

theorem addr_bound {t : SpecTable} {M : Nat} (h : tableSize t.entries ≤ M) {i : Nat} {e : Octets × Octets}
    (he : t.addr i = some e) : e.1.length + e.2.length ≤ max 28 (M - 32) := by
  unfold SpecTable.addr at he
  split at he
  · cases he
  · split at he
    · have := static_bound e (List.mem_of_getElem? he)
      omega
    · have hm := List.mem_of_getElem? he
      have : entrySize e ≤ tableSize t.entries := le_tableSize hm
      unfold entrySize at this
      omega

theorem strWire_bound {pads : List (List Bool)} {lim : Nat} {huff : Bool} {s bs : Octets} (h : StrWireAs pads lim huff s bs) :
    5 * s.length ≤ 8 * bs.length := by
  cases huff with
  | false =>
    obtain ⟨len, _, rfl⟩ := h
    rw [List.length_append]; omega
  | true =>
    obtain ⟨len, q, _, ⟨t, _, hq⟩, rfl⟩ := h
    have hql : (bytesBits q).length = 8 * q.length := Spec.bytesBits_length q
    rw [hq, List.length_append] at hql
    have : (codesOf s).length = codeLenSum s := Huffman.codesOf_length s
    have := Huffman.codeLenSum_bounds s
    rw [List.length_append]
    omega

theorem rep_bound {pads : List (List Bool)} {lim limit M : Nat} {rep : Rep} {bs : Octets} {t t' : SpecTable} {h : Option Field}
    (hw : RepWire pads lim rep bs) (ht : tableSize t.entries ≤ t.max) (hM : t.max ≤ M) (hL : limit ≤ M)
    (ha : rep.apply limit t = some (h, t')) :
    (5 * headerSize h.toList ≤ 5 * (h.toList.length * max 28 (M - 32)) + 8 * bs.length) ∧ h.toList.length ≤ 1 ∧
    tableSize t'.entries ≤ t'.max ∧ t'.max ≤ M := by
  obtain ⟨hn, hv, hw⟩ := hw
  have htM := Nat.le_trans ht hM
  cases rep with
  | indexed i =>
    simp only [Rep.apply] at ha
    split at ha
    · rename_i n v hx
      simp only [Option.some.injEq, Prod.mk.injEq] at ha
      obtain ⟨rfl, rfl⟩ := ha
      have := addr_bound htM hx
      simp only [headerSize, Option.toList_some, List.map_cons, List.map_nil, List.sum_cons, List.sum_nil, List.length_singleton]
      simp only at this
      refine ⟨by omega, by omega, ht, hM⟩
    · cases ha
  | sizeUpdate n =>
    simp only [Rep.apply] at ha
    split at ha
    · rename_i hle
      simp only [Option.some.injEq, Prod.mk.injEq] at ha
      obtain ⟨rfl, rfl⟩ := ha
      refine ⟨by simp [headerSize], by simp, keepFitting_size _ _, ?_⟩
      exact Nat.le_trans hle hL
    · cases ha
  | literal m nm v =>
    simp only [Rep.apply] at ha
    split at ha
    · rename_i n hres
      simp only [Option.some.injEq, Prod.mk.injEq] at ha
      obtain ⟨rfl, rfl⟩ := ha
      have hsize : 5 * (n.length + v.length) ≤ 5 * max 28 (M - 32) + 8 * bs.length := by
        cases nm with
        | index i =>
          obtain ⟨_, b1, b2, _, h2, rfl⟩ := hw
          have := strWire_bound h2
          simp only [NameRef.resolve, Option.map_eq_some_iff] at hres
          obtain ⟨e, he, rfl⟩ := hres
          have := addr_bound htM he
          rw [List.length_append]
          omega
        | new n' =>
          obtain ⟨b1, b2, b3, _, h2, h3, rfl⟩ := hw
          have := strWire_bound h2
          have := strWire_bound h3
          simp only [NameRef.resolve, Option.some.injEq] at hres
          subst hres
          simp only [List.length_append]
          omega
      refine ⟨?_, by simp, ?_, ?_⟩
      · simp only [headerSize, Option.toList_some, List.map_cons, List.map_nil, List.sum_cons, List.sum_nil, List.length_singleton]
        omega
      · split
        · simp only [SpecTable.insert]
          split
          · rename_i hle
            have := keepFitting_size (t.max - entrySize (n, v)) t.entries
            simp only [tableSize, List.map_cons, List.sum_cons] at this ⊢
            omega
          · simp [tableSize]
        · exact ht
      · split
        · simp only [SpecTable.insert]
          split <;> exact hM
        · exact hM
    · cases ha

theorem block_bound {pads : List (List Bool)} {limit M : Nat} (hL : limit ≤ M) (ws : List (Rep × Octets)) :
    ∀ {t t' : SpecTable} {hs : List Field}, (∀ w ∈ ws, RepWire pads 5 w.1 w.2) → tableSize t.entries ≤ t.max → t.max ≤ M →
    applyAll limit t (ws.map (·.1)) = some (hs, t') →
    hs.length ≤ (wireOf ws).length ∧ 5 * headerSize hs ≤ 5 * (hs.length * max 28 (M - 32)) + 8 * (wireOf ws).length := by
  induction ws with
  | nil =>
    intro t t' hs _ _ _ h
    simp only [List.map_nil, applyAll, Option.some.injEq, Prod.mk.injEq] at h
    rw [← h.1]
    simp [headerSize]
  | cons w ws ih =>
    intro t t' hs hw ht hM h
    simp only [List.map_cons, applyAll] at h
    split at h
    · cases h
    · rename_i hd t1 hr
      split at h
      · cases h
      · rename_i hs' t2 hh
        simp only [Option.some.injEq, Prod.mk.injEq] at h
        have hw0 := hw w List.mem_cons_self
        obtain ⟨b1, b2, b3, b4⟩ := rep_bound hw0 ht hM hL hr
        obtain ⟨i1, i2⟩ := ih (fun w hm => hw w (List.mem_cons_of_mem _ hm)) b3 b4 hh
        have hpos := RepWire.pos hw0
        rw [← h.1]
        have e1 : (wireOf (w :: ws)).length = w.2.length + (wireOf ws).length := by simp [wireOf]
        have e2 : headerSize (hd.toList ++ hs') = headerSize hd.toList + headerSize hs' := by simp [headerSize]
        rw [e1, e2, List.length_append]
        refine ⟨by omega, ?_⟩
        rw [Nat.add_mul]
        omega

/-- C75. Bound on decompression: decoding (successful or not) delivers at most one header per octet of input consumed, and
headers with names and values of at most `max 28 (M - 32)` octets per header plus 8/5 octets per octet of input, where `M`
bounds the table size and the limit. -/
theorem C75_output_bound (s : DecoderState) (hwf : s.table.WF) (M : Nat) (h1 : s.getMaxDynamicSize.toNat ≤ M)
    (h2 : s.maxDynamicSize.toNat ≤ M) :
    ∃ used hs, s.buf = used ++ (decode s).2.buf ∧ (decode s).2.dst = s.dst ++ hs ∧ hs.length ≤ used.length ∧
      5 * headerSize hs ≤ 5 * (hs.length * max 28 (M - 32)) + 8 * used.length := by
  obtain ⟨s', ws, hs, r, hd, ⟨⟨used, hb, hw, hu, ha⟩, hdst, _⟩, _⟩ := decode_spec s hwf
  rw [hd]
  obtain ⟨b1, b2⟩ := block_bound (M := M) h2 ws hw hwf.2 h1 ha
  rw [← hu] at b1 b2
  exact ⟨used, hs, hb, hdst, b1, b2⟩

/-- An amplification of this kind: an entry of 3 octets stored once, then sent with one octet each. -/
example : headerSize (decode { DecoderState.default with buf := [0x40, 1, 0x61, 2, 0x62, 0x63, 0xBE, 0xBE] }).2.dst = 9 := by
  decide +kernel

end Verif.Props
