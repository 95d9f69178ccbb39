import Verif.Hpack.NativeCodec
import Verif.Props.Native
import Verif.Props.HpackExtra
import Verif.Lemmas.HpackBlock
/-! Property theorems C105, continued: the whole HPACK encoder and decoder. -/
namespace Verif.Props
open Verif Verif.Spec Verif.Hpack

theorem addOn_eq (chk : Bool) {w : Nat} {ε : Type} {a b : Nat} (h : a + b < 2 ^ w) : addOn chk w (ε := ε) a b = .ok (a + b) := by
  rw [addOn, if_neg (fun c => absurd c.2 (by omega)), Nat.mod_eq_of_lt h]

theorem tableInsertOn_eq (chk : Bool) {w : Nat} {ε : Type} {t : Table} (h : t.WF) {n v : Bytes}
    (hf : t.dynamic.maxSize.toNat + (n.length + v.length + 32) < 2 ^ w) : t.insertOn chk w (ε := ε) n v = t.insert (ε := ε) n v := by
  have hs : t.dynamic.size = tableSize t.dynamic.inner := h.1
  have h2 := h.2
  rw [Table.insertOn, Table.insert, C105_table_insert chk w t.dynamic h.1 n v (by omega)]
  cases t.dynamic.insert (ε := ε) n v <;> rfl

theorem tableResizeOn_eq (chk : Bool) (w : Nat) {ε : Type} {t : Table} (h : t.WF) (m : UInt32) :
    t.updateMaxDynamicSizeOn chk w (ε := ε) m = t.updateMaxDynamicSize (ε := ε) m := by
  rw [Table.updateMaxDynamicSizeOn, Table.updateMaxDynamicSize, C105_table_resize chk w t.dynamic h.1 m]
  cases t.dynamic.updateMaxSize (ε := ε) m <;> rfl

theorem decodeString_bound {buf s : Bytes} {sp : Huffman.Speed} {t : Nat} (h : decodeString buf sp = .ok (s, t)) :
    5 * s.length ≤ 8 * buf.length ∧ t ≤ buf.length := by
  obtain ⟨bs, rest, hb, ⟨huff, hw⟩, ht⟩ := decodeString_sound h
  have := strWire_bound hw
  have hl : buf.length = bs.length + rest.length := by rw [hb, List.length_append]
  omega

theorem get_bound {t : Table} (h : t.WF) {i : UInt32} {e : Entry} (he : t.get i = some e) :
    e.1.length + e.2.length ≤ t.dynamic.maxSize.toNat + 28 := by
  rw [Table.get_spec] at he
  have hts : tableSize t.spec.entries ≤ t.dynamic.maxSize.toNat := by
    exact h.2
  have := addr_bound hts he
  omega

/-- Everything the decoder can store fits into a pointer-sized number: twice the larger of the table's maximum and the protocol limit,
and four times the length of the input. -/
structure Fits64 (w K : Nat) (s : DecoderState) : Prop where
  wf : s.table.WF
  tab : s.table.dynamic.maxSize.toNat ≤ K
  lim : s.maxDynamicSize.toNat ≤ K
  fit : 2 * K + 4 * s.buf.length + 64 < 2 ^ w

theorem decodeOneOn_eq (chk : Bool) {w K : Nat} (hw : 32 ≤ w) {s : DecoderState} (h : Fits64 w K s) : decodeOneOn chk w s = decodeOne s := by
  obtain ⟨hwf, htab, hlim, hfit⟩ := h
  have lit : decodeLiteralOn chk w s = decodeLiteral s := by
    unfold decodeLiteralOn decodeLiteral
    simp only [M.bind_apply, M.get_apply, C105_decode_integer, C105_decode_string chk w hw]
    cases hb : s.buf with
    | nil => rfl
    | cons b0 tl =>
      simp only [M.bind_apply, M.lift_apply]
      cases hd : decodeInteger (b0 :: tl) (if b0 &&& 64 = 64 then 6 else 4) with
      | ok p =>
        obtain ⟨i, t1⟩ := p
        simp only
        have ht1 : t1 ≤ s.buf.length := by
          obtain ⟨_, us, rest, hbuf, _, ht, _⟩ := decodeInteger_sound (by split <;> decide) (by split <;> decide) hd
          rw [hb, ht, hbuf, List.length_append]; omega
        have hname : decodeNameOn chk w s i t1 = decodeName s i t1 ∧ ∀ n t2, decodeName s i t1 = .ok (n, t2) → t2 ≤ s.buf.length ∧
            n.length ≤ K + 28 + 2 * s.buf.length := by
          unfold decodeNameOn decodeName
          by_cases hi : i = 0
          · simp only [if_pos hi, C105_decode_string chk w hw]
            cases hs : decodeString (s.buf.drop t1) s.speed with
            | ok q =>
              obtain ⟨n, k⟩ := q
              have := decodeString_bound hs
              rw [List.length_drop] at this
              simp only [addOn_eq chk (show t1 + k < 2 ^ w by omega), Res.bind_ok]
              refine ⟨trivial, fun n' t2 h => ?_⟩
              simp only [Res.ok.injEq, Prod.mk.injEq] at h
              obtain ⟨rfl, rfl⟩ := h
              omega
            | err e => exact ⟨rfl, fun _ _ h => by cases h⟩
            | panic => exact ⟨rfl, fun _ _ h => by cases h⟩
            | hang => exact ⟨rfl, fun _ _ h => by cases h⟩
          · simp only [if_neg hi]
            refine ⟨rfl, fun n t2 h => ?_⟩
            cases hg : s.table.get (UInt32.ofNat i) with
            | none => simp only [hg] at h; cases h
            | some e =>
              simp only [hg, Res.ok.injEq, Prod.mk.injEq] at h
              obtain ⟨rfl, rfl⟩ := h
              have := get_bound hwf hg
              omega
        rw [hname.1]
        cases hn : decodeName s i t1 with
        | ok q =>
          obtain ⟨name, t2⟩ := q
          obtain ⟨h2, hnl⟩ := hname.2 _ _ hn
          simp only
          rw [← hb]
          cases hs : decodeString (s.buf.drop t2) s.speed with
          | ok r =>
            obtain ⟨value, t3⟩ := r
            have := decodeString_bound hs
            rw [List.length_drop] at this
            simp only [addOn_eq chk (show t2 + t3 < 2 ^ w by omega), M.bind_apply, M.lift_apply,
              tableInsertOn_eq chk hwf (n := name) (v := value) (w := w) (by omega)]
          | err e => rfl
          | panic => rfl
          | hang => rfl
        | err e => rfl
        | panic => rfl
        | hang => rfl
      | err e => rfl
      | panic => rfl
      | hang => rfl
  have upd : decUpdateMaxDynamicSizeOn chk w s = decUpdateMaxDynamicSize s := by
    unfold decUpdateMaxDynamicSizeOn decUpdateMaxDynamicSize
    simp only [M.bind_apply, M.get_apply, C105_decode_integer, M.lift_apply]
    cases hd : decodeInteger s.buf 5 with
    | ok p =>
      simp only [M.ite_apply, M.bind_apply, M.lift_apply, tableResizeOn_eq chk w hwf]
    | err e => rfl
    | panic => rfl
    | hang => rfl
  have idx : decodeIndexedOn chk s = decodeIndexed s := by
    unfold decodeIndexedOn decodeIndexed
    simp only [C105_decode_integer]
    refine congrFun (congrArg (fun k => M.get >>= k) (funext fun s => congrArg (fun k => M.lift (decodeInteger s.buf 7) >>= k) (funext fun p => ?_))) s
    cases s.table.get (UInt32.ofNat p.1) <;> rfl
  unfold decodeOneOn decodeOne
  simp only [M.bind_apply, M.get_apply]
  cases hb : s.buf with
  | nil => rfl
  | cons b0 tl => simp only [M.ite_apply, M.bind_apply, lit, upd, idx]

theorem fits_step {w K : Nat} {s : DecoderState} (h : Fits64 w K s) (hne : s.buf ≠ []) {n : Nat} {s' : DecoderState}
    (ho : decodeOne s = (.ok n, s')) : Fits64 w K s' ∧ n + s'.buf.length ≤ s.buf.length := by
  rcases decodeOne_cases h.wf hne with ⟨rep, bs, rest, hdr, t', hb, hw, ha, hwf', h'⟩ | ⟨_, ⟨e, he, _⟩ | ⟨he, _⟩⟩
  · rw [ho] at h'
    simp only [Prod.mk.injEq, Res.ok.injEq] at h'
    obtain ⟨rfl, rfl⟩ := h'
    have hts : tableSize s.table.spec.entries ≤ s.table.spec.max := h.wf.2
    obtain ⟨_, _, _, hM⟩ := rep_bound hw hts h.tab h.lim ha
    have hl : s.buf.length = bs.length + rest.length := by rw [hb, List.length_append]
    refine ⟨⟨hwf', hM, h.lim, ?_⟩, ?_⟩
    · have := h.fit
      simp only [DecoderState.step]
      omega
    · simp only [DecoderState.step]
      split <;> omega
  · rw [ho] at he; cases he
  · rw [ho] at he; cases he

theorem decodeExactLoopOn_eq (chk : Bool) {w K : Nat} (hw : 32 ≤ w) : ∀ (limit total : Nat) (s : DecoderState), Fits64 w K s →
    total + s.buf.length < 2 ^ w → decodeExactLoopOn chk w limit total s = decodeExactLoop limit total s ∧
    ∀ n s', decodeExactLoop limit total s = (.ok n, s') → Fits64 w K s' ∧ n + s'.buf.length ≤ total + s.buf.length := by
  intro limit
  induction limit with
  | zero =>
    intro total s h _
    refine ⟨rfl, fun n s' e => ?_⟩
    simp only [decodeExactLoop, M.pure_apply, Prod.mk.injEq, Res.ok.injEq] at e
    obtain ⟨rfl, rfl⟩ := e
    exact ⟨h, Nat.le_refl _⟩
  | succ limit ih =>
    intro total s h ht
    rw [decodeExactLoopOn, decodeExactLoop]
    simp only [M.bind_apply, M.get_apply, M.ite_apply]
    by_cases he : s.buf.isEmpty = true
    · simp only [if_pos he]
      refine ⟨trivial, fun n s' e => ?_⟩
      simp only [M.pure_apply, Prod.mk.injEq, Res.ok.injEq] at e
      obtain ⟨rfl, rfl⟩ := e
      exact ⟨h, Nat.le_refl _⟩
    · have hne : s.buf ≠ [] := by simpa using he
      simp only [if_neg he, decodeOneOn_eq chk hw h]
      cases ho : decodeOne s with
      | mk r s1 =>
        cases r with
        | ok k =>
          obtain ⟨h1, h2⟩ := fits_step h hne ho
          simp only [M.lift_apply, M.bind_apply, addOn_eq chk (show total + k < 2 ^ w by omega)]
          obtain ⟨h3, h4⟩ := ih (total + k) s1 h1 (by omega)
          refine ⟨h3, fun n s' e => ?_⟩
          obtain ⟨h5, h6⟩ := h4 n s' e
          exact ⟨h5, by omega⟩
        | err e => exact ⟨rfl, fun _ _ h => by cases h⟩
        | panic => exact ⟨rfl, fun _ _ h => by cases h⟩
        | hang => exact ⟨rfl, fun _ _ h => by cases h⟩

theorem decodeLoopOn_eq (chk : Bool) {w K : Nat} (hw : 32 ≤ w) : ∀ (fuel total : Nat) (s : DecoderState), Fits64 w K s →
    total + s.buf.length < 2 ^ w → decodeLoopOn chk w fuel total s = decodeLoop fuel total s := by
  intro fuel
  induction fuel with
  | zero => intro total s _ _; unfold decodeLoopOn decodeLoop; rfl
  | succ fuel ih =>
    intro total s h ht
    have h0 : Fits64 w K { s with dst := [] } := ⟨h.wf, h.tab, h.lim, h.fit⟩
    obtain ⟨h1, h2⟩ := decodeExactLoopOn_eq chk hw 1 0 { s with dst := [] } h0 (by simp only; omega)
    have h1' : decodeExactOn chk w 1 { s with dst := [] } = decodeExact 1 { s with dst := [] } := h1
    unfold decodeLoopOn decodeLoop
    by_cases he : s.buf.isEmpty = true
    · simp only [if_pos he]
    · simp only [if_neg he, h1']
      cases ho : decodeExact 1 { s with dst := [] } with
      | mk r s1 =>
        cases r with
        | ok k =>
          obtain ⟨h3, h4⟩ := h2 k s1 ho
          simp only at h4
          simp only [addOn_eq chk (show total + k < 2 ^ w by omega)]
          exact ih (total + k) { s1 with dst := s.dst ++ s1.dst } ⟨h3.wf, h3.tab, h3.lim, h3.fit⟩ (by simp only; omega)
        | err e => rfl
        | panic => rfl
        | hang => rfl

/-- C105. The whole HPACK decoder: `decode` gives the same result (also the same panics), the same state and the same headers with and
without overflow checks, on any target whose `usize` has at least 32 bits, if twice the larger of the table's maximum and the
protocol limit and four times the input fit into a `usize` (on 64 bits: always, below inputs of 2^61 octets). -/
theorem C105_hpack_decode (chk : Bool) (w : Nat) (hw : 32 ≤ w) (s : DecoderState) (hwf : s.table.WF)
    (hfit : 2 * max s.table.maxDynamicSize.toNat s.maxDynamicSize.toNat + 4 * s.buf.length + 64 < 2 ^ w) :
    decodeOn chk w s = decode s :=
  decodeLoopOn_eq chk hw s.buf.length 0 s ⟨hwf, Nat.le_max_left _ _, Nat.le_max_right _ _, hfit⟩ (by omega)

example : decodeOn true 32 { DecoderState.default with buf := [0x82, 0x84] } = decode { DecoderState.default with buf := [0x82, 0x84] } :=
  C105_hpack_decode true 32 (by decide) _ (Table.withDynamicSize_WF 4096) (by decide)

/-- C105. `decode_exact`, for any capacity. -/
theorem C105_hpack_decode_exact (chk : Bool) (w : Nat) (hw : 32 ≤ w) (s : DecoderState) (hwf : s.table.WF) (cap : Nat)
    (hfit : 2 * max s.table.maxDynamicSize.toNat s.maxDynamicSize.toNat + 4 * s.buf.length + 64 < 2 ^ w) :
    decodeExactOn chk w cap s = decodeExact cap s :=
  (decodeExactLoopOn_eq chk hw cap 0 s ⟨hwf, Nat.le_max_left _ _, Nat.le_max_right _ _, hfit⟩ (by omega)).1

example : decodeExactOn false 64 1 { DecoderState.default with buf := [0x82, 0x84] } = decodeExact 1 { DecoderState.default with buf := [0x82, 0x84] } :=
  C105_hpack_decode_exact false 64 (by decide) _ (Table.withDynamicSize_WF 4096) 1 (by decide)

/-- How many octets of names and values an input brings along. -/
def inputSize : EncoderInput → Nat
  | .Indexed _ => 0
  | .IndexedName _ v _ => v.length
  | .Literal n v _ => n.length + v.length

theorem encInsertOn_eq (chk : Bool) {w : Nat} {s : EncoderState} (h : s.table.WF) {n v : Bytes}
    (hf : s.table.dynamic.maxSize.toNat + (n.length + v.length + 32) < 2 ^ w) : encInsertOn chk w n v s = encInsert n v s := by
  unfold encInsertOn encInsert
  simp only [M.bind_apply, M.get_apply, M.lift_apply, tableInsertOn_eq chk h hf]

theorem encodeIndexedNameOn_eq (chk : Bool) {w : Nat} {s : EncoderState} (h : s.table.WF) (i : UInt32) (v : Bytes) (f : UInt8)
    (hf : 2 * s.table.dynamic.maxSize.toNat + v.length + 64 < 2 ^ w) : encodeIndexedNameOn chk w i v f s = encodeIndexedName i v f s := by
  unfold encodeIndexedNameOn encodeIndexedName
  simp only [M.bind_apply, M.get_apply]
  cases hg : s.table.get i with
  | none => rfl
  | some e =>
    have := get_bound h hg
    simp only [M.bind_apply, M.ite_apply, encInsertOn_eq chk h (n := e.1) (v := v) (w := w) (by omega), C105_encode_string]

theorem encodeLiteralOn_eq (chk : Bool) {w : Nat} {s : EncoderState} (h : s.table.WF) (n v : Bytes) (f : UInt8)
    (hf : s.table.dynamic.maxSize.toNat + n.length + v.length + 64 < 2 ^ w) : encodeLiteralOn chk w n v f s = encodeLiteral n v f s := by
  unfold encodeLiteralOn encodeLiteral
  have : ∀ d, encInsertOn chk w n v { s with dst := d } = encInsert n v { s with dst := d } :=
    fun d => encInsertOn_eq chk (s := { s with dst := d }) h (by simp only; omega)
  simp only [M.bind_apply, M.ite_apply, M.modify_apply, this, C105_encode_string]

/-- C105. The whole HPACK encoder. -/
theorem C105_hpack_encode (chk : Bool) (w : Nat) (s : EncoderState) (hwf : s.table.WF) (input : EncoderInput)
    (hfit : 2 * s.table.maxDynamicSize.toNat + inputSize input + 64 < 2 ^ w) : encodeOn chk w input s = encode input s := by
  simp only [Table.maxDynamicSize] at hfit
  cases input with
  | Indexed i => rfl
  | IndexedName i v f => exact encodeIndexedNameOn_eq chk hwf i v f hfit
  | Literal n v f =>
    simp only [inputSize] at hfit
    have hl := encodeLiteralOn_eq chk hwf n v f (w := w) (by omega)
    unfold encodeOn encode
    simp only [M.ite_apply]
    split
    · simp only [M.bind_apply, M.get_apply]
      cases s.table.find n v with
      | none => rfl
      | some o =>
        cases o with
        | none => exact hl
        | some p =>
          obtain ⟨i, b⟩ := p
          cases b with
          | true => rfl
          | false => exact encodeIndexedNameOn_eq chk hwf _ v f (by omega)
    · exact hl

/-- C105. `Encoder::update_max_dynamic_size`. -/
theorem C105_hpack_encode_resize (chk : Bool) (w : Nat) (s : EncoderState) (hwf : s.table.WF) (n : UInt32) :
    encUpdateMaxDynamicSizeOn chk w n s = encUpdateMaxDynamicSize n s := by
  unfold encUpdateMaxDynamicSizeOn encUpdateMaxDynamicSize
  simp only [M.bind_apply, M.get_apply, M.lift_apply, tableResizeOn_eq chk w hwf]

/-! Concrete cases: a literal with incremental indexing in a release build on 32 bits, decoded and encoded. -/
example : Table.default.WF := Table.withDynamicSize_WF 4096
example : 2 * max (4096 : UInt32).toNat (4096 : UInt32).toNat + 4 * 5 + 64 < 2 ^ 32 := by decide
example : decodeOn false 32 { DecoderState.default with buf := [0x40, 1, 97, 1, 98] } =
    (.ok 5, { DecoderState.default with buf := [], dst := [([97], [98], 4)], table := ⟨⟨[([97], [98])], 34, 4096⟩⟩ }) := by decide +kernel
example : encodeOn false 32 (.Literal [97] [98] 4) EncoderState.default =
    (.ok (), { table := ⟨⟨[([97], [98])], 34, 4096⟩⟩, dst := [0x40, 1, 97, 1, 98] }) := by decide +kernel

/-- C105. What the condition is for: on a 16-bit `usize` (which is outside of the theorems) two stored headers whose sizes together exceed it make the
size of the table wrap in a release build, and panic in a debug build. -/
example : (Hpack.Dynamic.mk [([97], [98])] 65530 0xFFFFFFFF).insertOn (ε := Unit) false 16 [99] [100] =
      .ok ⟨[([99], [100]), ([97], [98])], 28, 0xFFFFFFFF⟩ ∧
    (Hpack.Dynamic.mk [([97], [98])] 65530 0xFFFFFFFF).insertOn (ε := Unit) true 16 [99] [100] = .panic := by decide +kernel

end Verif.Props
