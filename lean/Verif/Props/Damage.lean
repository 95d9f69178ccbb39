import Verif.Props.HuffStream
import Verif.Props.HpackStream
import Verif.Props.HpackLoss
import Verif.Props.ProtosVerdict
/-! Property theorem C141: what changed octets can do to decoded data. -/
namespace Verif.Props
open Verif Verif.Spec

/-! ### Huffman -/

/-- C141. Everything before the first changed bit comes out unchanged: if two inputs agree in the first `k` bits, every beginning of the text
of the one whose codes end within these bits is a beginning of the text of the other, whether or not either call succeeds, at any speed. -/
theorem C141_huffman_before (src src' : Bytes) (sp sp' : Huffman.Speed) (k : Nat)
    (h : (bytesBits src).take k = (bytesBits src').take k) (a b : Bytes) (ha : (Huffman.decode src [] sp).2 = a ++ b) (hk : codeLenSum a ≤ k) :
    ∃ b', (Huffman.decode src' [] sp').2 = a ++ b' := by
  obtain ⟨s, r, h1, _, h3, _⟩ := C13_decode_outcome src [] sp
  rw [h3, List.nil_append] at ha
  subst ha
  rw [codesOf_append, List.append_assoc] at h1
  have hl : (codesOf a).length = codeLenSum a := Huffman.codesOf_length a
  have e : (bytesBits src').take (codeLenSum a) = codesOf a := by
    have := congrArg (List.take (codeLenSum a)) h
    rw [List.take_take, List.take_take, Nat.min_eq_left hk] at this
    rw [← this, h1, ← hl, List.take_left']
    rfl
  obtain ⟨s', r', g1, g2⟩ := huff_greedy ((bytesBits src').drop (codeLenSum a))
  refine ⟨s', ?_⟩
  have := C13_appends_decoded src' [] (a ++ s') r' sp' ?_ g2
  · simpa using this
  · rw [codesOf_append, List.append_assoc, ← g1]
    conv => lhs; rw [← List.take_append_drop (codeLenSum a) (bytesBits src'), e]

theorem lenientPads_short : ∀ t ∈ lenientPads, t.length ≤ 7 := by decide

/-- C141. Damage that is not noticed at all is in the padding: if two inputs of the same length are decoded to the same text, they are equal
but for the last octet, and there in the bits of all codes. -/
theorem C141_huffman_unnoticed (src src' s : Bytes) (sp sp' : Huffman.Speed) (hl : src.length = src'.length)
    (h : Huffman.decode src [] sp = (.ok (), s)) (h' : Huffman.decode src' [] sp' = (.ok (), s)) :
    src.dropLast = src'.dropLast ∧ (bytesBits src).take (codeLenSum s) = (bytesBits src').take (codeLenSum s) ∧
      8 * src.length ≤ codeLenSum s + 7 := by
  obtain ⟨t, ht, e⟩ := (C06_accept_iff_listed src [] s sp).mp h
  obtain ⟨t', ht', e'⟩ := (C06_accept_iff_listed src' [] s sp').mp h'
  have hs : (codesOf s).length = codeLenSum s := Huffman.codesOf_length s
  have l := congrArg List.length e
  have l' := congrArg List.length e'
  rw [bytesBits_length, List.length_append] at l l'
  have := lenientPads_short t ht
  have e2 : (bytesBits src).take (codeLenSum s) = (bytesBits src').take (codeLenSum s) := by
    rw [e, e', ← hs, List.take_left' rfl, List.take_left' rfl]
  refine ⟨?_, e2, by omega⟩
  apply bytesBits_inj
  have take8 : ∀ x : Bytes, bytesBits x.dropLast = (bytesBits x).take (8 * (x.length - 1)) := by
    intro x
    rcases List.eq_nil_or_concat x with rfl | ⟨y, b, rfl⟩
    · rfl
    · rw [List.concat_eq_append, List.dropLast_concat, bytesBits_append, List.length_append, List.length_singleton, Nat.add_sub_cancel,
        ← bytesBits_length y, List.take_left' rfl]
  rw [take8, take8, hl]
  have := congrArg (List.take (8 * (src'.length - 1))) e2
  rw [List.take_take, List.take_take, Nat.min_eq_left (by omega)] at this
  exact this

/-- C141. For what `encode` writes: any octets of this length whose first octets are damaged, in one bit or in many, are refused or give
another text. -/
theorem C141_huffman_noticed (s src' : Bytes) (sp : Huffman.Speed) (hl : src'.length = (Huffman.encode s []).2.length)
    (hd : src'.dropLast ≠ (Huffman.encode s []).2.dropLast) : Huffman.decode src' [] sp ≠ (.ok (), s) := by
  intro h
  obtain ⟨q, e1, e2⟩ := C01_round_trip s [] [] sp
  rw [e1] at hl hd
  exact hd (C141_huffman_unnoticed src' q s sp sp hl h e2).1

/-- The hypotheses are met: "www" with one bit of the first octet changed is another text of four characters; "a" with one bit
of the padding changed is still "a". -/
example : (Huffman.encode [119, 119, 119] []).2 = [241, 227, 199] ∧ Huffman.decode [177, 227, 199] [] .FiveBits = (.ok (), [114, 56, 111, 98]) ∧
    (Huffman.encode [97] []).2 = [31] ∧ Huffman.decode [27] [] .FiveBits = (.ok (), [97]) := by
  decide +kernel

/-! ### HPACK -/

/-- C141. Two inputs with a common beginning `p`: the headers that a decoder delivers for `p` alone come first for both, and the rest of what
is delivered is about the octets from the representation on in which the inputs differ. -/
theorem C141_hpack_before (s : Hpack.DecoderState) (hwf : s.table.WF) (p x y : Bytes) :
    ∃ hs hx hy, (Hpack.decode { s with buf := p }).2.dst = s.dst ++ hs ∧
      (Hpack.decode { s with buf := p ++ x }).2.dst = s.dst ++ hs ++ hx ∧ (Hpack.decode { s with buf := p ++ y }).2.dst = s.dst ++ hs ++ hy := by
  obtain ⟨hs, hx, h1, h2⟩ := C87_prefix { s with buf := p } hwf x
  obtain ⟨hs', hy, h1', h2'⟩ := C87_prefix { s with buf := p } hwf y
  have : hs = hs' := by
    have := h1.symm.trans h1'
    exact List.append_cancel_left this
  subst this
  exact ⟨hs, hx, hy, h1, h2, h2'⟩

/-- C141. Damage in the value of a header that is not stored, sent as a plain string, changes this value and nothing else: all other headers, the
table and the success of the call are the same. (`before`, `after`: the other representations of the block.) -/
theorem C141_hpack_value (s : Hpack.DecoderState) (hwf : s.table.WF) (before after : List (Rep × Octets)) (m : Indexing) (hm : m ≠ .incremental)
    (name : NameRef) (head v v' : Octets) (hv : v'.length = v.length) (hn : Bool) (hw : RepWireAs lenientPads 5 hn false (.literal m name v) (head ++ v))
    (hs : List (Octets × Octets × UInt8)) (t2 : SpecTable)
    (h : Block lenientPads s.maxDynamicSize.toNat s.table.spec s.buf (before ++ (.literal m name v, head ++ v) :: after) hs t2) :
    ∃ h1 n h2, hs = h1 ++ (n, v, m.flag) :: h2 ∧
      (∃ k s', Hpack.decode s = (.ok k, s') ∧ s'.buf = [] ∧ s'.dst = s.dst ++ (h1 ++ (n, v, m.flag) :: h2) ∧ s'.table.spec = t2) ∧
      ∃ k s', Hpack.decode { s with buf := wireOf before ++ ((head ++ v') ++ wireOf after) } = (.ok k, s') ∧ s'.buf = [] ∧
        s'.dst = s.dst ++ (h1 ++ (n, v', m.flag) :: h2) ∧ s'.table.spec = t2 := by
  obtain ⟨g1, g2, g3⟩ := h
  have hw' : RepWireAs lenientPads 5 hn false (.literal m name v') (head ++ v') := by
    cases name with
    | index i =>
      obtain ⟨hi, b1, b2, w1, ⟨len, wl, rfl⟩, e⟩ := hw
      refine ⟨hi, b1, len ++ v', w1, ⟨len, hv ▸ wl, rfl⟩, ?_⟩
      rw [← List.append_assoc] at e ⊢
      rw [List.append_cancel_right e]
    | new nm =>
      obtain ⟨b1, b2, b3, w1, w2, ⟨len, wl, rfl⟩, e⟩ := hw
      refine ⟨b1, b2, len ++ v', w1, w2, ⟨len, hv ▸ wl, rfl⟩, ?_⟩
      rw [← List.append_assoc, ← List.append_assoc] at e ⊢
      rw [List.append_cancel_right e]
  obtain ⟨h1, n, h2, e1, e2⟩ : ∃ h1 n h2, hs = h1 ++ (n, v, m.flag) :: h2 ∧
      applyAll s.maxDynamicSize.toNat s.table.spec ((before ++ (.literal m name v', head ++ v') :: after).map (·.1)) =
        some (h1 ++ (n, v', m.flag) :: h2, t2) := by
    clear g1 g2 hw hw'
    generalize s.table.spec = t at g3
    induction before generalizing t hs with
    | nil =>
      simp only [List.nil_append, List.map_cons, applyAll, Rep.apply, if_neg hm] at g3 ⊢
      cases hr : name.resolve t with
      | none => rw [hr] at g3; cases g3
      | some n =>
        rw [hr] at g3
        simp only at g3 ⊢
        cases ha : applyAll s.maxDynamicSize.toNat t (after.map (·.1)) with
        | none => rw [ha] at g3; cases g3
        | some r =>
          rw [ha] at g3
          obtain ⟨hs2, t'⟩ := r
          simp only [Option.some.injEq, Prod.mk.injEq, Option.toList] at g3
          obtain ⟨rfl, rfl⟩ := g3
          exact ⟨[], n, hs2, rfl, rfl⟩
    | cons w before ih =>
      simp only [List.cons_append, List.map_cons, applyAll] at g3 ⊢
      cases hr : w.1.apply s.maxDynamicSize.toNat t with
      | none => rw [hr] at g3; cases g3
      | some r =>
        obtain ⟨hd, t'⟩ := r
        rw [hr] at g3
        simp only at g3 ⊢
        cases ha : applyAll s.maxDynamicSize.toNat t' ((before ++ (Rep.literal m name v, head ++ v) :: after).map (·.1)) with
        | none => rw [ha] at g3; cases g3
        | some r =>
          obtain ⟨hs2, t3⟩ := r
          rw [ha] at g3
          simp only [Option.some.injEq, Prod.mk.injEq] at g3
          obtain ⟨rfl, rfl⟩ := g3
          obtain ⟨h1, n, h2, rfl, e2⟩ := ih hs2 t' ha
          exact ⟨hd.toList ++ h1, n, h2, by simp, by rw [e2]; simp⟩
  refine ⟨h1, n, h2, e1, ?_, ?_⟩
  · obtain ⟨k, s', a1, a2, a3, a4, _⟩ := C31_accepts_block s hwf _ hs t2 ⟨g1, g2, g3⟩
    exact ⟨k, s', a1, a2, e1 ▸ a3, a4⟩
  · have hb : Block lenientPads s.maxDynamicSize.toNat s.table.spec (wireOf before ++ ((head ++ v') ++ wireOf after))
        (before ++ (.literal m name v', head ++ v') :: after) (h1 ++ (n, v', m.flag) :: h2) t2 := by
      refine ⟨fun w hwm => ?_, ?_, e2⟩
      · rcases List.mem_append.mp hwm with hwm | hwm
        · exact g1 w (List.mem_append_left _ hwm)
        · rcases List.mem_cons.mp hwm with rfl | hwm
          · exact ⟨hn, false, hw'⟩
          · exact g1 w (List.mem_append_right _ (List.mem_cons_of_mem _ hwm))
      · simp only [wireOf, List.flatMap_append, List.flatMap_cons]
    obtain ⟨k, s', a1, a2, a3, a4, _⟩ := C31_accepts_block { s with buf := wireOf before ++ ((head ++ v') ++ wireOf after) } hwf _ _ t2 hb
    exact ⟨k, s', a1, a2, a3, a4⟩

/-- The hypotheses are met: `:method: GET`, then a literal `a: b` without indexing, then `:method: GET` again. -/
example : RepWireAs lenientPads 5 false false (.literal .without (.new [97]) [98]) ([0, 1, 97, 1] ++ [98]) ∧
    Block lenientPads 4096 ⟨[], 4096⟩ [0x82, 0, 1, 97, 1, 98, 0x82]
      ([(.indexed 2, [0x82])] ++ (.literal .without (.new [97]) [98], [0, 1, 97, 1] ++ [98]) :: [(.indexed 2, [0x82])])
      [([58, 109, 101, 116, 104, 111, 100], [71, 69, 84], 0), ([97], [98], 0), ([58, 109, 101, 116, 104, 111, 100], [71, 69, 84], 0)] ⟨[], 4096⟩ := by
  have a : RepWireAs lenientPads 5 false false (.literal .without (.new [97]) [98]) ([0, 1, 97, 1] ++ [98]) :=
    ⟨[0], [1, 97], [1, 98], ⟨Or.inl ⟨by decide, by decide⟩, by decide⟩, ⟨[1], ⟨Or.inl ⟨by decide, by decide⟩, by decide⟩, rfl⟩,
      ⟨[1], ⟨Or.inl ⟨by decide, by decide⟩, by decide⟩, rfl⟩, rfl⟩
  have b : RepWireAs lenientPads 5 false false (.indexed 2) [0x82] := ⟨Or.inl ⟨by decide, by decide⟩, by decide⟩
  refine ⟨a, ?_, by decide +kernel, by rfl⟩
  intro w hw
  simp only [List.cons_append, List.nil_append, List.mem_cons, List.not_mem_nil, or_false] at hw
  rcases hw with rfl | rfl | rfl
  · exact ⟨_, _, b⟩
  · exact ⟨_, _, a⟩
  · exact ⟨_, _, b⟩

/-- C141. Damage in a stored header lasts: one octet of a value changed in the first block, the second block arrives intact and the
decoder reports the wrong value again, without an error. -/
theorem C141_hpack_lasts :
    let e := encBlocks [[.header (.Literal [97] [98] 4)], [.header (.Literal [97] [98] 0x10)]] Hpack.EncoderState.default
    e.map (·.1) = some [[0x40, 1, 97, 1, 98], [0xbe]] ∧
      (Hpack.decode { (Hpack.decode { Hpack.DecoderState.default with buf := [0x40, 1, 97, 1, 99] }).2 with buf := [0xbe], dst := [] }).2.dst =
        [([97], [99], 0)] := by
  decide +kernel

/-! ### Protobuf -/

/-- C141. Two inputs with a common beginning `p`: the fields a decoder delivers for `p` alone come first for both. -/
theorem C141_protos_before (chk : Bool) (p x y : Bytes) (dst : List Protos.Rec) :
    ∃ rs rx ry, (Protos.drain chk (Protos.DState.fresh p dst)).2.dst = dst ++ rs ∧
      (Protos.drain chk (Protos.DState.fresh (p ++ x) dst)).2.dst = dst ++ rs ++ rx ∧
      (Protos.drain chk (Protos.DState.fresh (p ++ y) dst)).2.dst = dst ++ rs ++ ry := by
  obtain ⟨m, recs, hb, key, len, rest, r, h1, h2, h3, h4⟩ := C115_every_input chk p
  have go : ∀ z, ∃ rz, (Protos.drain chk (Protos.DState.fresh (p ++ z) dst)).2.dst = dst ++ recs ++ rz := by
    intro z
    have run := Protos.drain_run (Protos.fresh_header chk (hb ++ rest ++ z) (dst ++ recs))
    have e := (Protos.drain_run (Protos.fresh_header chk (p ++ z) dst)).det
      ((show Protos.Reach chk (Protos.DState.fresh (p ++ z) dst) (Protos.DState.fresh (hb ++ rest ++ z) (dst ++ recs)) by
        rw [h1]; simpa using Protos.reach_message h2 (hb ++ rest ++ z) dst).run run)
    obtain ⟨_, rz, _, _, e2, _⟩ := run.verdict (Protos.HeaderWire.mid (Protos.fresh_header chk _ _))
    exact ⟨rz, by rw [e]; exact e2⟩
  obtain ⟨rx, ex⟩ := go x
  obtain ⟨ry, ey⟩ := go y
  exact ⟨recs, rx, ry, by rw [(C115_verdict chk p rest dst recs key len r).mpr ⟨m, hb, h1, h2, h3, h4⟩], ex, ey⟩

/-- C141. Damage in the value of a length-delimited field changes this value and nothing else; damage in a length changes how
everything behind it is cut into fields. -/
theorem C141_protos_value (chk : Bool) (tag : UInt32) (m h w w' rest : Bytes) (recs : List Protos.Rec) (len : UInt64) (dst : List Protos.Rec)
    (h1 : Proto.MessageWire chk recs m) (h2 : Proto.HeaderWire chk (tag, .lengthDelimited) (some len) h) (hw : w.length = len.toNat)
    (hw' : w'.length = len.toNat) :
    Protos.drain chk (Protos.DState.fresh (m ++ h ++ w ++ rest) dst) =
        Protos.drain chk (Protos.DState.fresh rest (dst ++ recs ++ [(tag, .lengthDelimited, w)])) ∧
      Protos.drain chk (Protos.DState.fresh (m ++ h ++ w' ++ rest) dst) =
        Protos.drain chk (Protos.DState.fresh rest (dst ++ recs ++ [(tag, .lengthDelimited, w')])) := by
  have hpos : 0 < len.toNat := by
    rcases h2 with ⟨h, _⟩ | ⟨_, h⟩ | ⟨_, _, n, _, _, _, h, hm, _⟩
    · cases h
    · cases h
    · obtain rfl : len = n := Option.some.inj h
      have : len.toNat ≠ 0 := fun h0 => hm (UInt64.toNat_inj.mp (by simpa using h0))
      omega
  have go : ∀ v : Bytes, v.length = len.toNat → Protos.drain chk (Protos.DState.fresh (m ++ h ++ v ++ rest) dst) =
      Protos.drain chk (Protos.DState.fresh rest (dst ++ recs ++ [(tag, .lengthDelimited, v)])) := by
    intro v hv
    have a := Protos.reach_message h1 (h ++ v ++ rest) dst
    have b := Protos.reach_header h2 (v ++ rest) (dst ++ recs)
    have st : Protos.decodeStep chk { key := (tag, .lengthDelimited), ldLen := some len, buf := v ++ rest, dst := dst ++ recs } =
        (.ok len.toNat, Protos.DState.fresh rest (dst ++ recs ++ [(tag, .lengthDelimited, v)])) := by
      simp only [Protos.decodeStep, Protos.stepLd, Protos.stepLdBytes, Protos.extractLd,
        if_neg (show ¬ (v ++ rest).length < len.toNat by rw [List.length_append]; omega), Protos.orUnderflow]
      rw [← hv, List.take_left' rfl]
      simp only [Protos.DState.push, Protos.DState.drain, Protos.DState.reset, Protos.DState.fresh, List.drop_left' rfl]
    have run := Protos.drain_run (Protos.fresh_header chk rest (dst ++ recs ++ [(tag, .lengthDelimited, v)]))
    refine (Protos.drain_run (Protos.fresh_header chk (m ++ h ++ v ++ rest) dst)).det ?_
    simp only [List.append_assoc] at a b ⊢
    refine a.run (b.run (.step (by simpa only [List.append_assoc] using st) (fun e => ?_) (by simpa only [List.append_assoc] using run)))
    simp only [List.append_assoc] at st
    rw [st] at e
    simp only [Prod.mk.injEq, Res.ok.injEq] at e
    omega
  exact ⟨go w hw, go w' hw'⟩

/-- The hypotheses are met: field 1 = 1, then the header of a string of two bytes. -/
example : Proto.MessageWire true [(1, .varint, [1])] [8, 1] ∧ Proto.HeaderWire true (2, .lengthDelimited) (some 2) [18, 2] :=
  ⟨⟨[8, 1], [], rfl, ⟨[8], [1], rfl, ⟨by decide, by decide, by decide, by simp [IsCont], by decide, by decide⟩, rfl, by simp [IsCont]⟩, rfl⟩,
    Or.inr (Or.inr ⟨[18], [2], 2, rfl, ⟨by decide, by decide, by decide, by simp [IsCont], by decide, by decide⟩, rfl, rfl, by decide,
      by simp [IsCont], by decide, by decide⟩)⟩

example : (Protos.drain true (Protos.DState.fresh [8, 1, 18, 2, 97, 98, 24, 3])).2.dst =
      [(1, .varint, [1]), (2, .lengthDelimited, [97, 98]), (3, .varint, [3])] ∧
    (Protos.drain true (Protos.DState.fresh [8, 1, 18, 2, 255, 0, 24, 3])).2.dst =
      [(1, .varint, [1]), (2, .lengthDelimited, [255, 0]), (3, .varint, [3])] ∧
    (Protos.drain true (Protos.DState.fresh [8, 1, 18, 3, 97, 98, 24, 3])).2.dst =
      [(1, .varint, [1]), (2, .lengthDelimited, [97, 98, 24])] := by
  decide

end Verif.Props
