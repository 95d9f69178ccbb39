import Verif.Lemmas.HpackEncoder
import Verif.Lemmas.HpackDecoder
import Verif.Spec.HpackLen
/-! Sizes of what the encoder writes. -/
namespace Verif.Hpack
open Verif.Spec

theorem groups_lt {v : Nat} (h : v < 128) : groups v = 1 := by rw [groups, if_pos h]
theorem groups_ge {v : Nat} (h : 128 ≤ v) : groups v = 1 + groups (v / 128) := by rw [groups, if_neg (by omega)]

theorem groups_pos (v : Nat) : 1 ≤ groups v := by
  rw [groups]; split <;> omega

/-- `k` groups are enough exactly for numbers below `128^k`. -/
theorem groups_le (k : Nat) : ∀ v, groups v ≤ k + 1 ↔ v < 128 ^ (k + 1) := by
  induction k with
  | zero =>
    intro v
    rcases Nat.lt_or_ge v 128 with h | h
    · rw [groups_lt h]; omega
    · rw [groups_ge h]; have := groups_pos (v / 128); omega
  | succ k ih =>
    intro v
    rcases Nat.lt_or_ge v 128 with h | h
    · rw [groups_lt h]
      have : 128 ^ 1 ≤ 128 ^ (k + 1 + 1) := Nat.pow_le_pow_right (by decide) (by omega)
      omega
    · rw [groups_ge h, Nat.add_comm, Nat.add_le_add_iff_right, ih, Nat.pow_succ 128 (k + 1), Nat.div_lt_iff_lt_mul (by decide)]

theorem contBytes_length (fuel : Nat) : ∀ v, v < 128 ^ (fuel + 1) → (contBytes fuel v).length = groups v := by
  induction fuel with
  | zero => intro v h; rw [groups_lt (by omega)]; rfl
  | succ fuel ih =>
    intro v h
    unfold contBytes
    split
    · rename_i hv
      rw [groups_ge hv, List.length_cons, ih]
      · omega
      · rw [Nat.div_lt_iff_lt_mul (by decide), ← Nat.pow_succ]; exact h
    · rw [groups_lt (by omega)]; rfl

theorem encodeInteger_length {v : UInt32} {f : UInt8} {n : Nat} {bs : Bytes} (h1 : 1 ≤ n) (hn : n ≤ 8)
    (h : encodeInteger v f n = .ok bs) : bs.length = intLen n v.toNat := by
  have hm := mask_toNat hn
  unfold encodeInteger at h
  rw [if_neg (by omega)] at h
  simp only [hm] at h
  unfold intLen
  split at h
  · rename_i hv
    rw [if_pos hv]
    simp only [Res.ok.injEq] at h
    rw [← h]; rfl
  · rename_i hv
    rw [if_neg hv]
    simp only [Res.ok.injEq] at h
    rw [← h, List.length_cons, contBytes_length]
    · omega
    · have := v.toNat_lt
      have : (128 : Nat) ^ (5 + 1) = 2 ^ 42 := by decide
      omega

/-- The shortest integer. -/
theorem intLen_le {n hi v : Nat} {bs : Bytes} (h : IntWire n hi v bs) : intLen n v ≤ bs.length := by
  unfold intLen
  rcases h with ⟨hv, rfl⟩ | ⟨cs, hc, hv, rfl⟩
  · rw [if_pos hv]; simp
  · rw [if_neg (by omega), show v - (2 ^ n - 1) = contVal cs by omega, List.length_cons, Nat.add_comm]
    have hlt := contVal_lt cs
    have hpos := hc.pos
    obtain ⟨k, hk⟩ : ∃ k, cs.length = k + 1 := ⟨cs.length - 1, by omega⟩
    rw [hk] at hlt ⊢
    exact Nat.succ_le_succ ((groups_le k _).mpr hlt)

theorem encodeString_length {data : Bytes} {huff : Bool} {bs : Bytes} (h : encodeString data huff = .ok bs) :
    bs.length = strOctets huff data := by
  have hlt : strLen huff data < 2 ^ 32 := by
    rcases Nat.lt_or_ge (strLen huff data) (2 ^ 32) with h' | h'
    · exact h'
    · rw [(encodeString_spec data huff).2 h'] at h; cases h
  have key : ∀ (l : Bytes) (f : UInt8), l.length = strLen huff data →
      (encodeInteger (UInt32.ofNat l.length) f 7 >>= fun b => Res.ok (b ++ l)) = .ok bs → bs.length = strOctets huff data := by
    intro l f hl hb
    cases he : encodeInteger (UInt32.ofNat l.length) f 7 with
    | ok b =>
      rw [he] at hb
      simp only [Res.bind_ok, Res.ok.injEq] at hb
      have := encodeInteger_length (by decide) (by decide) he
      rw [UInt32.toNat_ofNat_of_lt' (by simp [UInt32.size]; omega)] at this
      rw [← hb, List.length_append, this, hl]; rfl
    | err e => rw [he] at hb; simp at hb
    | panic => rw [he] at hb; simp at hb
    | hang => rw [he] at hb; simp at hb
  cases huff with
  | false =>
    simp only [encodeString, Bool.false_eq_true, if_false, Res.bind_ok] at h
    split at h
    · cases h
    · exact key data 0 rfl h
  | true =>
    obtain ⟨q, he, hl, _⟩ := Props.C04_encode_length data []
    simp only [encodeString, if_true, he, List.nil_append, Res.bind_ok] at h
    split at h
    · cases h
    · exact key q 0x80 hl h

theorem strOctets_le {pads : List (List Bool)} {lim : Nat} {huff : Bool} {s bs : Bytes} (h : StrWireAs pads lim huff s bs) :
    strOctets huff s ≤ bs.length := by
  have mono : ∀ a b, a ≤ b → intLen 7 a ≤ intLen 7 b := by
    intro a b hab
    have gm : ∀ a b, a ≤ b → groups a ≤ groups b := by
      intro a b hab
      obtain ⟨k, hk⟩ : ∃ k, groups b = k + 1 := ⟨groups b - 1, by have := groups_pos b; omega⟩
      rw [hk, groups_le]
      exact Nat.lt_of_le_of_lt hab ((groups_le k b).mp (by omega))
    unfold intLen
    split <;> split
    · exact Nat.le_refl _
    · omega
    · omega
    · exact Nat.add_le_add_left (gm _ _ (by omega)) 1
  cases huff with
  | false =>
    obtain ⟨len, hl, rfl⟩ := h
    have := intLen_le hl.1
    rw [List.length_append]
    exact Nat.add_le_add_right this _
  | true =>
    obtain ⟨len, q, hl, ⟨t, _, hq⟩, rfl⟩ := h
    have h1 := intLen_le hl.1
    have h2 : strLen true s ≤ q.length := by
      have hql : (bytesBits q).length = 8 * q.length := Spec.bytesBits_length q
      rw [hq, List.length_append] at hql
      have : (codesOf s).length = codeLenSum s := Huffman.codesOf_length s
      simp only [strLen, if_true]
      omega
    rw [List.length_append]
    exact Nat.add_le_add (Nat.le_trans (mono _ _ h2) h1) h2

theorem repOctets_le {pads : List (List Bool)} {lim : Nat} {hn hv : Bool} {rep : Rep} {bs : Bytes}
    (h : RepWireAs pads lim hn hv rep bs) : repOctets hn hv rep ≤ bs.length := by
  cases rep with
  | indexed i => exact intLen_le h.1
  | sizeUpdate i => exact intLen_le h.1
  | literal m nm v =>
    cases nm with
    | index i =>
      obtain ⟨_, b1, b2, h1, h2, rfl⟩ := h
      rw [List.length_append]
      exact Nat.add_le_add (intLen_le h1.1) (strOctets_le h2)
    | new n =>
      obtain ⟨b1, b2, b3, h1, h2, h3, rfl⟩ := h
      have := h1.1.pos
      have := strOctets_le h2
      have := strOctets_le h3
      simp only [List.length_append, repOctets]
      omega

/-! ### The calls -/

theorem pushBytes_inv {r : Res EncoderError Bytes} {s s' : EncoderState} (h : pushBytes r s = (.ok (), s')) :
    ∃ bs, r = .ok bs ∧ s' = { s with dst := s.dst ++ bs } := by
  cases r with
  | ok bs => rw [pushBytes_ok] at h; simp only [Prod.mk.injEq, true_and] at h; exact ⟨bs, rfl, h.symm⟩
  | err e => rw [pushBytes_err] at h; simp at h
  | panic => exact absurd (congrArg Prod.fst h) (by show Res.panic ≠ _; simp)
  | hang => exact absurd (congrArg Prod.fst h) (by show Res.hang ≠ _; simp)

theorem M.bind_inv {σ ε α β : Type} {m : M σ ε α} {k : α → M σ ε β} {s s' : σ} {b : β} (h : (m >>= k) s = (.ok b, s')) :
    ∃ a s1, m s = (.ok a, s1) ∧ k a s1 = (.ok b, s') := by
  rw [M.bind_apply] at h
  split at h
  · rename_i a s1 hm; exact ⟨a, s1, hm, h⟩
  all_goals simp at h

theorem encInsert_dst {n v : Bytes} {s s' : EncoderState} (h : encInsert n v s = (.ok (), s')) : s'.dst = s.dst := by
  obtain ⟨_, _, h1, h⟩ := M.bind_inv h
  obtain ⟨_, _, h2, h⟩ := M.bind_inv h
  simp only [M.get_apply, Prod.mk.injEq] at h1
  obtain ⟨_, rfl⟩ := h1
  simp only [M.lift_apply, Prod.mk.injEq] at h2
  obtain ⟨_, rfl⟩ := h2
  simp only [M.modify_apply, Prod.mk.injEq, true_and] at h
  rw [← h]

theorem encodeIndexed_length {i : UInt32} {s s' : EncoderState} (h : encodeIndexed i s = (.ok (), s')) :
    s'.dst.length = s.dst.length + intLen 7 i.toNat := by
  obtain ⟨_, _, h0, h⟩ := M.bind_inv h
  simp only [M.get_apply, Prod.mk.injEq, Res.ok.injEq] at h0
  obtain ⟨rfl, rfl⟩ := h0
  cases hg : s.table.get i with
  | none => rw [hg] at h; simp at h
  | some e =>
    rw [hg] at h
    obtain ⟨bs, h1, rfl⟩ := pushBytes_inv h
    rw [List.length_append, encodeInteger_length (by decide) (by decide) h1]

theorem encodeIndexedName_length {i : UInt32} {v : Bytes} {f : UInt8} {s s' : EncoderState}
    (h : encodeIndexedName i v f s = (.ok (), s')) :
    s'.dst.length = s.dst.length + (intLen (flagMode f).bits i.toNat + strOctets (f.toNat.testBit 1) v) := by
  obtain ⟨_, _, h0, h⟩ := M.bind_inv h
  simp only [M.get_apply, Prod.mk.injEq, Res.ok.injEq] at h0
  obtain ⟨rfl, rfl⟩ := h0
  cases hg : s.table.get i with
  | none => rw [hg] at h; simp at h
  | some e =>
    rw [hg] at h
    obtain ⟨_, s1, h1, h2⟩ := M.bind_inv h
    obtain ⟨bs, h3, rfl⟩ := pushBytes_inv h2
    have hv := encodeString_length h3
    rw [flag2_iff] at hv
    have h4 : s1.dst.length = s.dst.length + intLen (flagMode f).bits i.toNat := by
      by_cases h4 : f &&& 0x4 = 0x4
      · rw [if_pos h4] at h1
        rw [flagMode, if_pos ((flag4_iff f).mp h4)]
        obtain ⟨_, s2, h5, h6⟩ := M.bind_inv h1
        obtain ⟨b, h7, rfl⟩ := pushBytes_inv h6
        rw [List.length_append, encodeInteger_length (by decide) (by decide) h7, encInsert_dst h5]; rfl
      · rw [if_neg h4] at h1
        rw [flagMode, if_neg (fun h => h4 ((flag4_iff f).mpr h))]
        by_cases h8 : f &&& 0x8 = 0x8
        · rw [if_pos h8] at h1
          rw [if_pos ((flag8_iff f).mp h8)]
          obtain ⟨b, h7, rfl⟩ := pushBytes_inv h1
          rw [List.length_append, encodeInteger_length (by decide) (by decide) h7]; rfl
        · rw [if_neg h8] at h1
          rw [if_neg (fun h => h8 ((flag8_iff f).mpr h))]
          obtain ⟨b, h7, rfl⟩ := pushBytes_inv h1
          rw [List.length_append, encodeInteger_length (by decide) (by decide) h7]; rfl
    rw [List.length_append, h4, hv]
    omega

theorem encodeLiteral_length {n v : Bytes} {f : UInt8} {s s' : EncoderState} (h : encodeLiteral n v f s = (.ok (), s')) :
    s'.dst.length = s.dst.length + (1 + strOctets (f.toNat.testBit 0) n + strOctets (f.toNat.testBit 1) v) := by
  unfold encodeLiteral at h
  obtain ⟨_, s1, h1, h⟩ := M.bind_inv h
  obtain ⟨_, s2, h2, h3⟩ := M.bind_inv h
  obtain ⟨b3, e3, rfl⟩ := pushBytes_inv h3
  obtain ⟨b2, e2, rfl⟩ := pushBytes_inv h2
  have l3 := encodeString_length e3
  have l2 := encodeString_length e2
  rw [flag2_iff] at l3
  rw [flag1_iff] at l2
  have l1 : s1.dst.length = s.dst.length + 1 := by
    split at h1
    · obtain ⟨_, s2, h5, h6⟩ := M.bind_inv h1
      rw [encInsert_dst h6]
      simp only [M.modify_apply, Prod.mk.injEq, true_and] at h5
      rw [← h5, List.length_append]; rfl
    · split at h1 <;> simp only [M.modify_apply, Prod.mk.injEq, true_and] at h1 <;> rw [← h1, List.length_append] <;> rfl
  simp only [List.length_append]
  omega

theorem encode_length {s s' : EncoderState} (hwf : s.table.WF) {input : EncoderInput} {rep : Rep}
    (hc : Chosen s.table.spec input rep) (h : encode input s = (.ok (), s')) :
    s'.dst.length = s.dst.length + repOctets (huffName input) (huffValue input) rep := by
  cases hc with
  | indexed i => exact encodeIndexed_length h
  | indexedName i v f => exact encodeIndexedName_length h
  | literal n v f hf =>
    unfold encode at h
    simp only at h
    rw [if_neg (fun h => by rw [flag16_iff, hf] at h; cases h)] at h
    exact encodeLiteral_length h
  | bestFull n v f hf i hl =>
    have hlt := (hwf.addr_lt hl.1.choose_spec.1).2
    unfold encode at h
    simp only at h
    rw [if_pos ((flag16_iff f).mpr hf)] at h
    simp only [M.bind_apply, M.get_apply] at h
    rcases Table.find_spec s.table hwf n v with ⟨j, hj, hl'⟩ | ⟨hno, _⟩ | ⟨hno, _⟩
    · obtain rfl := hl.unique hl'
      rw [hj] at h
      simp only at h
      have := encodeIndexed_length h
      rw [ofNat32 (by omega)] at this
      exact this
    · obtain ⟨⟨e, he, rfl⟩, _⟩ := hl
      exact absurd he (hno i)
    · obtain ⟨⟨e, he, rfl⟩, _⟩ := hl
      exact absurd rfl (hno i _ he)
  | bestName n v f hf hn i hl =>
    have hlt := (hwf.addr_lt hl.1.choose_spec.1).2
    unfold encode at h
    simp only at h
    rw [if_pos ((flag16_iff f).mpr hf)] at h
    simp only [M.bind_apply, M.get_apply] at h
    rcases Table.find_spec s.table hwf n v with ⟨j, hj, hl'⟩ | ⟨hno, j, hj, hl'⟩ | ⟨hno, _⟩
    · obtain ⟨⟨e, he, rfl⟩, _⟩ := hl'
      exact absurd he (hn j)
    · obtain rfl := hl.unique hl'
      rw [hj] at h
      simp only at h
      have := encodeIndexedName_length h
      rw [ofNat32 (by omega)] at this
      exact this
    · obtain ⟨⟨e, he, hP⟩, _⟩ := hl
      exact absurd hP (hno i _ he)
  | bestNew n v f hf hn =>
    unfold encode at h
    simp only at h
    rw [if_pos ((flag16_iff f).mpr hf)] at h
    simp only [M.bind_apply, M.get_apply] at h
    rcases Table.find_spec s.table hwf n v with ⟨j, hj, hl'⟩ | ⟨hno, j, hj, hl'⟩ | ⟨hno, hj⟩
    · obtain ⟨⟨e, he, rfl⟩, _⟩ := hl'
      exact absurd rfl (hn j _ he)
    · obtain ⟨⟨e, he, hP⟩, _⟩ := hl'
      exact absurd hP (hn j _ he)
    · rw [hj] at h
      exact encodeLiteral_length h

end Verif.Hpack
