import Verif.Protos.Decoder
import Verif.Lemmas.ProtosEncoder
/-! The primitives of the protobuf decoder. -/
namespace Verif.Protos
open Verif.Spec Verif.Spec.Proto

/-! ### Varints -/

theorem maskedVal_lt (i : Nat) (cs : Bytes) : maskedVal i cs < 2 ^ 64 := by
  induction cs generalizing i with
  | nil => simp [maskedVal]
  | cons c cs ih => exact Nat.or_lt_two_pow (Nat.mod_lt _ (by decide)) (ih _)

theorem le127_iff (b : UInt8) : b ≤ 0x7F ↔ b.toNat < 128 := by
  rw [UInt8.le_iff_toNat_le]
  show b.toNat ≤ 127 ↔ _
  omega

/-- The value a byte contributes. -/
theorem group_toNat (b : UInt8) (i : Nat) :
    ((b &&& 0x7F).toUInt64 <<< UInt64.ofNat (7 * i)).toNat = (b.toNat % 128) * 2 ^ (7 * i % 64) % 2 ^ 64 := by
  rw [UInt64.toNat_shiftLeft, UInt8.toNat_toUInt64, Hpack.and127_toNat, UInt64.toNat_ofNat', Nat.shiftLeft_eq]
  rw [show 7 * i % 2 ^ 64 % 64 = 7 * i % 64 from Nat.mod_mod_of_dvd _ (by decide)]

theorem loop_ok (chk : Bool) (cs r : Bytes) (i : Nat) (v : UInt64) (h : IsCont cs) (hc : chk = true → i + cs.length ≤ 10) :
    decodeVarintLoop chk (cs ++ r) i v = .ok (v ||| UInt64.ofNat (maskedVal i cs), i + cs.length) := by
  induction cs generalizing i v with
  | nil => exact h.elim
  | cons c cs ih =>
    have hb : ¬ (chk = true ∧ 7 * i ≥ 64) := by
      rintro ⟨h1, h2⟩
      have := hc h1
      simp only [List.length_cons] at this
      omega
    rw [List.cons_append, decodeVarintLoop, if_neg hb]
    have hg : (c &&& 0x7F).toUInt64 <<< UInt64.ofNat (7 * i) = UInt64.ofNat ((c.toNat % 128) * 2 ^ (7 * i % 64) % 2 ^ 64) := by
      apply UInt64.toNat_inj.mp
      rw [group_toNat, UInt64.toNat_ofNat', Nat.mod_mod]
    cases cs with
    | nil =>
      have h1 : c.toNat < 128 := h
      simp only [if_pos ((le127_iff c).mpr h1), hg, maskedVal, Nat.or_zero, List.length_singleton]
    | cons d ds =>
      have h1 : ¬ c ≤ 0x7F := by rw [le127_iff]; have := h.1; omega
      simp only [if_neg h1]
      rw [ih (i + 1) _ h.2 (fun h => by have := hc h; simp only [List.length_cons] at this ⊢; omega)]
      rw [hg, UInt64.or_assoc, ← UInt64.ofNat_or]
      simp only [maskedVal, List.length_cons]
      congr 2
      omega

theorem loop_panic (cs : Bytes) (i : Nat) (v : UInt64) (h : ∀ c ∈ cs.take (10 - i), 128 ≤ c.toNat) (hl : 10 < i + cs.length) :
    (hi : i ≤ 10) → decodeVarintLoop true cs i v = .panic := by
  intro hi
  induction cs generalizing i v with
  | nil => simp at hl; omega
  | cons c cs ih =>
    rw [decodeVarintLoop]
    by_cases h10 : i = 10
    · rw [if_pos ⟨rfl, by omega⟩]
    · rw [if_neg (by omega)]
      obtain ⟨j, hj⟩ : ∃ j, 10 - i = j + 1 := ⟨9 - i, by omega⟩
      rw [hj, List.take_succ_cons] at h
      have hc := h c (by simp)
      rw [if_neg (by rw [le127_iff]; omega)]
      refine ih (i + 1) _ ?_ (by simp only [List.length_cons] at hl; omega) (by omega)
      intro d hd
      rw [show 10 - (i + 1) = j by omega] at hd
      exact h d (by simp [hd])

theorem loop_underflow (chk : Bool) (cs : Bytes) (i : Nat) (v : UInt64) (h : ∀ c ∈ cs, 128 ≤ c.toNat)
    (hc : chk = true → i + cs.length ≤ 10) : decodeVarintLoop chk cs i v = .err .inputUnderflow := by
  induction cs generalizing i v with
  | nil => rfl
  | cons c cs ih =>
    have hb : ¬ (chk = true ∧ 7 * i ≥ 64) := by
      rintro ⟨h1, h2⟩
      have := hc h1
      simp only [List.length_cons] at this
      omega
    have h1 : ¬ c ≤ 0x7F := by rw [le127_iff]; have := h c (by simp); omega
    rw [decodeVarintLoop, if_neg hb]
    simp only [if_neg h1]
    exact ih (i + 1) _ (fun d hd => h d (by simp [hd])) (fun h => by have := hc h; simp only [List.length_cons] at this; omega)

/-- Up to ten bytes the masked value is the base-128 number modulo 2^64. -/
theorem maskedVal_eq (i : Nat) (cs : Bytes) (h : i + cs.length ≤ 10) : maskedVal i cs = (2 ^ (7 * i) * contVal cs) % 2 ^ 64 := by
  induction cs generalizing i with
  | nil => simp [maskedVal, contVal]
  | cons c cs ih =>
    simp only [List.length_cons] at h
    have hi : 7 * i % 64 = 7 * i := Nat.mod_eq_of_lt (by omega)
    rw [maskedVal, ih (i + 1) (by omega), hi, ← Nat.or_mod_two_pow]
    congr 1
    rw [Nat.or_comm, Hpack.or_disjoint (n := 7 * i + 7)]
    · simp only [contVal]
      rw [show 7 * (i + 1) = 7 * i + 7 by omega, Nat.pow_add, Nat.mul_add, Nat.mul_comm (c.toNat % 128), Nat.add_comm]
      rw [show (2 : Nat) ^ 7 = 128 from rfl, Nat.mul_assoc]
    · rw [show 7 * (i + 1) = 7 * i + 7 by omega]
      exact Nat.mul_mod_right _ _
    · rw [Nat.pow_add, Nat.mul_comm]
      exact Nat.mul_lt_mul_of_pos_left (Nat.mod_lt _ (by decide)) (Nat.two_pow_pos _)

theorem VarintWire.isCont {chk cs v} (h : VarintWire chk cs v) : IsCont cs := h.1

theorem VarintWire.eq {chk cs v} (h : VarintWire chk cs v) : v = maskedVal 0 cs := by
  rcases Nat.lt_or_ge 10 cs.length with h10 | h10
  · exact (h.2.2 h10).2
  · rw [h.2.1 h10, maskedVal_eq 0 cs (by omega)]; simp

theorem VarintWire.lt {chk cs v} (h : VarintWire chk cs v) : v < 2 ^ 64 := by
  rw [VarintWire.eq h]; exact maskedVal_lt _ _

theorem varintWire_of (chk : Bool) {cs : Bytes} (h : IsCont cs) (hc : chk = true → cs.length ≤ 10) :
    VarintWire chk cs (maskedVal 0 cs) := by
  refine ⟨h, fun h10 => by rw [maskedVal_eq 0 cs (by omega)]; simp, fun h10 => ⟨?_, rfl⟩⟩
  cases chk
  · rfl
  · have := hc rfl; omega

theorem decodeVarint_ok {chk cs v} (h : VarintWire chk cs v) (r : Bytes) :
    decodeVarint chk (cs ++ r) = .ok (UInt64.ofNat v, cs.length) := by
  rw [decodeVarint, loop_ok chk cs r 0 0 h.1, ← VarintWire.eq h]
  · simp
  · intro hc
    rcases Nat.lt_or_ge 10 cs.length with h10 | h10
    · have := (h.2.2 h10).1; simp [this] at hc
    · omega

theorem cont_dichotomy (l : Bytes) : (∃ cs r, l = cs ++ r ∧ IsCont cs) ∨ (∀ c ∈ l, 128 ≤ c.toNat) := by
  rcases Hpack.cont_trichotomy (l.length + 1) l with ⟨cs, r, h, h2, _⟩ | ⟨h, _⟩ | ⟨_, h⟩
  · exact Or.inl ⟨cs, r, h, h2⟩
  · omega
  · exact Or.inr h

/-- Everything `decode_varint` can do. -/
theorem decodeVarint_cases (chk : Bool) (buf : Bytes) :
    (∃ cs r v, buf = cs ++ r ∧ VarintWire chk cs v ∧ decodeVarint chk buf = .ok (UInt64.ofNat v, cs.length)) ∨
    ((∀ c ∈ buf, 128 ≤ c.toNat) ∧ (chk = true → buf.length ≤ 10) ∧ decodeVarint chk buf = .err .inputUnderflow) ∨
    (chk = true ∧ 10 < buf.length ∧ (∀ c ∈ buf.take 10, 128 ≤ c.toNat) ∧ decodeVarint chk buf = .panic) := by
  by_cases hp : chk = true ∧ 10 < buf.length ∧ (∀ c ∈ buf.take 10, 128 ≤ c.toNat)
  · obtain ⟨rfl, h1, h2⟩ := hp
    exact Or.inr (Or.inr ⟨rfl, h1, h2, loop_panic buf 0 0 h2 (by omega) (by omega)⟩)
  · rcases cont_dichotomy buf with ⟨cs, r, rfl, h⟩ | h
    · left
      have hw := varintWire_of chk h (by
        intro hc
        apply Decidable.byContradiction
        intro h10
        apply hp
        refine ⟨hc, by simp; omega, ?_⟩
        intro c hcm
        rw [List.take_append_of_le_length (by omega)] at hcm
        exact isCont_front h (by omega) c hcm)
      exact ⟨cs, r, _, rfl, hw, decodeVarint_ok hw r⟩
    · right; left
      have hl : chk = true → buf.length ≤ 10 := by
        intro hc
        apply Decidable.byContradiction
        intro h10
        exact hp ⟨hc, by omega, fun c hcm => h c (List.mem_of_mem_take hcm)⟩
      exact ⟨h, hl, loop_underflow chk buf 0 0 h (by simpa using hl)⟩
where
  isCont_front {cs : Bytes} {k : Nat} (h : IsCont cs) (hk : k < cs.length) : ∀ c ∈ cs.take k, 128 ≤ c.toNat := by
    induction cs generalizing k with
    | nil => exact h.elim
    | cons c cs ih =>
      intro d hd
      cases k with
      | zero => simp at hd
      | succ k =>
        simp only [List.length_cons] at hk
        have hne : cs ≠ [] := by rintro rfl; simp at hk
        rw [Hpack.isCont_cons hne] at h
        rw [List.take_succ_cons, List.mem_cons] at hd
        rcases hd with rfl | hd
        · exact h.1
        · exact ih h.2 (by omega) d hd

/-! ### Keys -/

theorem typ_of_key {k : UInt64} {v : Nat} (h : k.toNat = v) :
    Typ.ofU64 (k &&& 0x07) = if v % 8 = 0 then .varint else if v % 8 = 1 then .bit64 else if v % 8 = 2 then .lengthDelimited
      else if v % 8 = 5 then .bit32 else .unknown := by
  have h1 : (k &&& 0x07).toNat = v % 8 := by
    rw [UInt64.toNat_and, h]; exact Nat.and_two_pow_sub_one_eq_mod v 3
  have e : ∀ n : UInt64, (k &&& 0x07 = n) ↔ v % 8 = n.toNat := by
    intro n; rw [← h1]; exact UInt64.toNat_inj.symm
  simp only [Typ.ofU64, e]
  rfl

theorem tag_of_key {k : UInt64} {v : Nat} (h : k.toNat = v) (hv : v < 2 ^ 32) : (k.toUInt32 >>> 3).toNat = v / 8 := by
  rw [UInt32.toNat_shiftRight, UInt64.toNat_toUInt32, h, Nat.mod_eq_of_lt hv]
  exact Nat.shiftRight_eq_div_pow _ _

theorem decodeKey_of_varint {chk buf cs v} (hv : v < 2 ^ 64) (h : decodeVarint chk buf = .ok (UInt64.ofNat v, List.length (α := UInt8) cs)) :
    (BadKey v ∧ decodeKey chk buf = .err .invalidInput) ∨
    (∃ (tag : UInt32) (typ : Typ), 1 ≤ tag.toNat ∧ tag.toNat < 2 ^ 29 ∧ typ ≠ .unknown ∧ v = 8 * tag.toNat + typNum typ ∧
      decodeKey chk buf = .ok ((tag, typ), cs.length)) := by
  have hk : (UInt64.ofNat v).toNat = v := UInt64.toNat_ofNat_of_lt' hv
  simp only [decodeKey, h, Res.bind_ok]
  by_cases h32 : 2 ^ 32 ≤ v
  · left
    rw [if_pos (by rw [GT.gt, UInt64.lt_iff_toNat_lt, hk]; show 4294967295 < v; omega)]
    exact ⟨Or.inl h32, rfl⟩
  · rw [if_neg (by rw [GT.gt, UInt64.lt_iff_toNat_lt, hk]; show ¬ 4294967295 < v; omega)]
    have ht := tag_of_key hk (by omega)
    by_cases h0 : v / 8 = 0
    · left
      rw [if_pos (by rw [UInt32.lt_iff_toNat_lt, ht, h0]; decide)]
      exact ⟨Or.inr (Or.inl h0), rfl⟩
    · rw [if_neg (by rw [UInt32.lt_iff_toNat_lt, ht]; show ¬ v / 8 < 1; omega), typ_of_key hk]
      by_cases hb : v % 8 = 3 ∨ v % 8 = 4 ∨ v % 8 = 6 ∨ v % 8 = 7
      · left
        refine ⟨Or.inr (Or.inr hb), ?_⟩
        rcases hb with h | h | h | h <;> simp [h]
      · right
        refine ⟨_, _, ?_, ?_, ?_, ?_, if_neg ?_⟩
        · rw [ht]; omega
        · rw [ht]; omega
        · split <;> try decide
          split <;> try decide
          split <;> try decide
          split <;> try decide
          omega
        · rw [ht]
          have : v % 8 = 0 ∨ v % 8 = 1 ∨ v % 8 = 2 ∨ v % 8 = 5 := by omega
          rcases this with h | h | h | h <;> simp only [h] <;> simp [typNum] <;> omega
        · split <;> try decide
          split <;> try decide
          split <;> try decide
          split <;> try decide
          omega

theorem typNum_lt {t : Typ} (h : t ≠ .unknown) : typNum t < 8 := by cases t <;> first | decide | exact absurd rfl h

theorem typNum_inj {t u : Typ} (h : typNum t = typNum u) : t = u := by
  cases t <;> cases u <;> first | rfl | (exact absurd h (by decide))

theorem not_badKey {tag : Nat} {typ : Typ} (h1 : 1 ≤ tag) (h2 : tag < 2 ^ 29) (h3 : typ ≠ .unknown) :
    ¬ BadKey (8 * tag + typNum typ) := by
  have : typNum typ = 0 ∨ typNum typ = 1 ∨ typNum typ = 2 ∨ typNum typ = 5 := by
    cases typ <;> first | decide | exact absurd rfl h3
  unfold BadKey
  omega

theorem decodeKey_ok {chk cs typ} {tag : UInt32} (h : KeyWire chk cs tag.toNat typ) (r : Bytes) :
    decodeKey chk (cs ++ r) = .ok ((tag, typ), cs.length) := by
  obtain ⟨h1, h2, h3, hw⟩ := h
  rcases decodeKey_of_varint (VarintWire.lt hw) (decodeVarint_ok hw r) with ⟨hb, _⟩ | ⟨tag', typ', h1', h2', h3', h4', h5'⟩
  · exact absurd hb (not_badKey h1 h2 h3)
  · have l1 := typNum_lt h3
    have l2 := typNum_lt h3'
    have e1 : tag = tag' := UInt32.toNat_inj.mp (by omega)
    have e2 : typ = typ' := typNum_inj (by rw [e1] at h4'; omega)
    rw [h5', e1, e2]

theorem decodeKey_bad {chk cs v} (h : VarintWire chk cs v) (hb : BadKey v) (r : Bytes) :
    decodeKey chk (cs ++ r) = .err .invalidInput := by
  rcases decodeKey_of_varint (VarintWire.lt h) (decodeVarint_ok h r) with ⟨_, h⟩ | ⟨tag', typ', h1', h2', h3', h4', h5'⟩
  · exact h
  · rw [h4'] at hb
    exact absurd hb (not_badKey h1' h2' h3')

/-- Everything `decode_key` can do. -/
theorem decodeKey_cases (chk : Bool) (buf : Bytes) :
    (∃ cs r tag typ, buf = cs ++ r ∧ KeyWire chk cs (UInt32.toNat tag) typ ∧ decodeKey chk buf = .ok ((tag, typ), cs.length)) ∨
    (∃ cs r v, buf = cs ++ r ∧ VarintWire chk cs v ∧ BadKey v ∧ decodeKey chk buf = .err .invalidInput) ∨
    ((∀ c ∈ buf, 128 ≤ c.toNat) ∧ (chk = true → buf.length ≤ 10) ∧ decodeKey chk buf = .err .inputUnderflow) ∨
    (chk = true ∧ 10 < buf.length ∧ (∀ c ∈ buf.take 10, 128 ≤ c.toNat) ∧ decodeKey chk buf = .panic) := by
  rcases decodeVarint_cases chk buf with ⟨cs, r, v, h1, h2, h3⟩ | ⟨h1, h2, h3⟩ | ⟨h1, h2, h3, h4⟩
  · rcases decodeKey_of_varint (VarintWire.lt h2) h3 with ⟨hb, h⟩ | ⟨tag', typ', h1', h2', h3', h4', h5'⟩
    · exact Or.inr (Or.inl ⟨cs, r, v, h1, h2, hb, h⟩)
    · exact Or.inl ⟨cs, r, tag', typ', h1, ⟨h1', h2', h3', h4' ▸ h2⟩, h5'⟩
  · exact Or.inr (Or.inr (Or.inl ⟨h1, h2, by simp only [decodeKey, h3]; rfl⟩))
  · exact Or.inr (Or.inr (Or.inr ⟨h1, h2, h3, by simp only [decodeKey, h4]; rfl⟩))

/-! ### Scalars -/

/-- A decoder that reads one element of the shape `W`; `p` says whether it may panic. -/
structure Reads {α : Type} (p : Bool) (dec : Bytes → Res DecoderError (α × Nat)) (W : Octets → α → Prop) : Prop where
  ok : ∀ {bs v}, W bs v → bs ≠ [] ∧ ∀ r, dec (bs ++ r) = .ok (v, bs.length)
  cases : ∀ buf, (∃ bs r v, buf = bs ++ r ∧ W bs v) ∨ dec buf = .err .inputUnderflow ∨ (p = true ∧ dec buf = .panic)
  empty : dec [] = .err .inputUnderflow

theorem reads_varint {α : Type} (chk : Bool) (f : UInt64 → α) (g : Nat → α) (hg : ∀ n, n < 2 ^ 64 → f (UInt64.ofNat n) = g n)
    {dec : Bytes → Res DecoderError (α × Nat)}
    (hd : ∀ buf, dec buf = (do let (val, size) ← decodeVarint chk buf; pure (f val, size))) :
    Reads chk dec (VarintItem chk g) where
  ok := by
    rintro bs v ⟨n, hn, rfl⟩
    refine ⟨hn.1.ne_nil, fun r => ?_⟩
    rw [hd, decodeVarint_ok hn r]
    simp only [Res.bind_ok, hg n (VarintWire.lt hn)]
    rfl
  cases := by
    intro buf
    rcases decodeVarint_cases chk buf with ⟨cs, r, v, h1, h2, h3⟩ | ⟨h1, h2, h3⟩ | ⟨h1, h2, h3, h4⟩
    · exact Or.inl ⟨cs, r, g v, h1, v, h2, rfl⟩
    · right; left; rw [hd, h3]; rfl
    · right; right; rw [hd, h4]; exact ⟨h1, rfl⟩
  empty := by rw [hd]; rfl

theorem reads_bool (chk : Bool) : Reads chk (decodeBool chk) (VarintItem chk fun n => decide (n ≠ 0)) :=
  reads_varint chk (fun val => if val = 0 then false else true) _
    (by
      intro n hn
      have : UInt64.ofNat n = 0 ↔ n = 0 := by
        rw [← UInt64.toNat_inj, UInt64.toNat_ofNat_of_lt' hn]; rfl
      simp only [this]
      by_cases h : n = 0 <;> simp [h])
    (fun _ => rfl)

theorem bv64_32 (n : Nat) : (BitVec.ofNat 64 n).setWidth 32 = BitVec.ofNat 32 n := by
  apply BitVec.eq_of_toNat_eq
  simp only [BitVec.toNat_setWidth, BitVec.toNat_ofNat]
  exact Nat.mod_mod_of_dvd _ (by decide)

theorem int32_of_nat (n : Nat) : (UInt64.ofNat n).toUInt32.toInt32 = Int32.ofInt n := by
  apply Int32.toBitVec.inj
  show (BitVec.ofNat 64 n).setWidth 32 = BitVec.ofInt 32 n
  rw [bv64_32, BitVec.ofInt_natCast]

theorem int64_of_nat (n : Nat) : (UInt64.ofNat n).toInt64 = Int64.ofInt n := by
  apply Int64.toBitVec.inj
  show BitVec.ofNat 64 n = BitVec.ofInt 64 n
  rw [BitVec.ofInt_natCast]

theorem uint32_of_nat (n : Nat) : (UInt64.ofNat n).toUInt32 = UInt32.ofNat n := by
  apply UInt32.eq_of_toBitVec_eq
  exact bv64_32 n

theorem reads_int32 (chk : Bool) : Reads chk (decodeInt32 chk) (VarintItem chk fun n => Int32.ofInt n) :=
  reads_varint chk (fun val => val.toUInt32.toInt32) _ (fun n _ => int32_of_nat n) (fun _ => rfl)
theorem reads_int64 (chk : Bool) : Reads chk (decodeInt64 chk) (VarintItem chk fun n => Int64.ofInt n) :=
  reads_varint chk (fun val => val.toInt64) _ (fun n _ => int64_of_nat n) (fun _ => rfl)
theorem reads_uint32 (chk : Bool) : Reads chk (decodeUint32 chk) (VarintItem chk UInt32.ofNat) :=
  reads_varint chk (fun val => val.toUInt32) _ (fun n _ => uint32_of_nat n) (fun _ => rfl)
theorem reads_u64 (chk : Bool) : Reads chk (decodeVarint chk) (VarintItem chk UInt64.ofNat) :=
  reads_varint chk (fun val => val) _ (fun _ _ => rfl) (fun buf => by
    rcases decodeVarint chk buf with ⟨a, b⟩ | _ | _ | _ <;> rfl)
theorem reads_uint64 (chk : Bool) : Reads chk (decodeUint64 chk) (VarintItem chk UInt64.ofNat) := reads_u64 chk

theorem bv_unzig (k : Nat) (a b : BitVec k) (n : Nat) (ha : a = BitVec.ofNat k (n / 2)) (hb : b = BitVec.ofNat k (n % 2)) :
    a ^^^ (-b) = BitVec.ofInt k (unzigzag n) := by
  subst ha hb
  rcases Nat.mod_two_eq_zero_or_one n with h | h
  · rw [h, unzigzag, if_pos h, BitVec.ofInt_natCast]
    simp
  · rw [h, unzigzag, if_neg (by omega)]
    rw [show -(BitVec.ofNat k 1) = BitVec.allOnes k from BitVec.neg_one_eq_allOnes, BitVec.xor_allOnes]
    rw [show -((n / 2 : Nat) : Int) - 1 = Int.negSucc (n / 2) by omega, BitVec.ofInt_negSucc_eq_not_ofNat]

theorem and1 (n : Nat) (h : n < 2 ^ 64) : (UInt64.ofNat n &&& 1).toBitVec = BitVec.ofNat 64 (n % 2) := by
  apply BitVec.eq_of_toNat_eq
  show (UInt64.ofNat n &&& 1).toNat = _
  rw [UInt64.toNat_and, UInt64.toNat_ofNat_of_lt' h, BitVec.toNat_ofNat, Nat.mod_eq_of_lt (a := n % 2) (by omega)]
  exact Nat.and_two_pow_sub_one_eq_mod n 1

theorem shr1 (n : Nat) (h : n < 2 ^ 64) : (UInt64.ofNat n >>> 1).toBitVec = BitVec.ofNat 64 (n / 2) := by
  apply BitVec.eq_of_toNat_eq
  show (UInt64.ofNat n >>> 1).toNat = _
  rw [UInt64.toNat_shiftRight, UInt64.toNat_ofNat_of_lt' h, BitVec.toNat_ofNat, Nat.mod_eq_of_lt (a := n / 2) (by omega)]
  exact Nat.shiftRight_eq_div_pow n 1

theorem reads_sint32 (chk : Bool) : Reads chk (decodeSint32 chk) (VarintItem chk fun n => Int32.ofInt (unzigzag n)) :=
  reads_varint chk (fun val => (val >>> 1).toUInt32.toInt32 ^^^ (-(val &&& 1).toUInt32.toInt32)) _
    (by
      intro n hn
      apply Int32.toBitVec.inj
      refine bv_unzig 32 _ _ n ?_ ?_
      · show ((UInt64.ofNat n >>> 1).toBitVec).setWidth 32 = _
        rw [shr1 n hn, bv64_32]
      · show ((UInt64.ofNat n &&& 1).toBitVec).setWidth 32 = _
        rw [and1 n hn, bv64_32])
    (fun _ => rfl)

theorem reads_sint64 (chk : Bool) : Reads chk (decodeSint64 chk) (VarintItem chk fun n => Int64.ofInt (unzigzag n)) :=
  reads_varint chk (fun val => (val >>> 1).toInt64 ^^^ (-(val &&& 1).toInt64)) _
    (by
      intro n hn
      apply Int64.toBitVec.inj
      exact bv_unzig 64 _ _ n (shr1 n hn) (and1 n hn))
    (fun _ => rfl)

theorem fromLe32_toNat (a b c d : UInt8) (r : Bytes) : (fromLe32 (a :: b :: c :: d :: r)).toNat = leVal [a, b, c, d] := by
  have ha := a.toNat_lt
  have hb := b.toNat_lt
  have hc := c.toNat_lt
  have hd := d.toNat_lt
  simp only [fromLe32, UInt32.toNat_or, UInt32.toNat_shiftLeft, UInt8.toNat_toUInt32, Nat.shiftLeft_eq, leVal]
  simp only [show (8 : UInt32).toNat % 32 = 8 from rfl, show (16 : UInt32).toNat % 32 = 16 from rfl, show (24 : UInt32).toNat % 32 = 24 from rfl]
  rw [Nat.mod_eq_of_lt (by omega), Nat.mod_eq_of_lt (by omega), Nat.mod_eq_of_lt (by omega)]
  have o : ∀ n x y, x < 2 ^ n → y % 2 ^ n = 0 → x ||| y = x + y := fun n x y hx hy => by
    rw [Nat.or_comm, Hpack.or_disjoint hy hx, Nat.add_comm]
  rw [o 8 a.toNat _ (by omega) (by omega), o 16 _ (c.toNat * _) (by omega) (by omega), o 24 _ (d.toNat * _) (by omega) (by omega)]
  omega

theorem fromLe64_toNat (a b c d e f g h : UInt8) (r : Bytes) :
    (fromLe64 (a :: b :: c :: d :: e :: f :: g :: h :: r)).toNat = leVal [a, b, c, d, e, f, g, h] := by
  have ha := a.toNat_lt
  have hb := b.toNat_lt
  have hc := c.toNat_lt
  have hd := d.toNat_lt
  have he := e.toNat_lt
  have hf := f.toNat_lt
  have hg := g.toNat_lt
  have hh := h.toNat_lt
  simp only [fromLe64, UInt64.toNat_or, UInt64.toNat_shiftLeft, UInt8.toNat_toUInt64, Nat.shiftLeft_eq, leVal]
  simp only [show (8 : UInt64).toNat % 64 = 8 from rfl, show (16 : UInt64).toNat % 64 = 16 from rfl, show (24 : UInt64).toNat % 64 = 24 from rfl,
    show (32 : UInt64).toNat % 64 = 32 from rfl, show (40 : UInt64).toNat % 64 = 40 from rfl, show (48 : UInt64).toNat % 64 = 48 from rfl,
    show (56 : UInt64).toNat % 64 = 56 from rfl]
  rw [Nat.mod_eq_of_lt (a := b.toNat * _) (by omega), Nat.mod_eq_of_lt (a := c.toNat * _) (by omega), Nat.mod_eq_of_lt (a := d.toNat * _) (by omega),
    Nat.mod_eq_of_lt (a := e.toNat * _) (by omega), Nat.mod_eq_of_lt (a := f.toNat * _) (by omega), Nat.mod_eq_of_lt (a := g.toNat * _) (by omega),
    Nat.mod_eq_of_lt (a := h.toNat * _) (by omega)]
  have o : ∀ n x y, x < 2 ^ n → y % 2 ^ n = 0 → x ||| y = x + y := fun n x y hx hy => by
    rw [Nat.or_comm, Hpack.or_disjoint hy hx, Nat.add_comm]
  rw [o 8 a.toNat _ (by omega) (by omega), o 16 _ (c.toNat * _) (by omega) (by omega), o 24 _ (d.toNat * _) (by omega) (by omega),
    o 32 _ (e.toNat * _) (by omega) (by omega), o 40 _ (f.toNat * _) (by omega) (by omega), o 48 _ (g.toNat * _) (by omega) (by omega),
    o 56 _ (h.toNat * _) (by omega) (by omega)]
  omega

theorem fromLe32_eq {bs : Bytes} (h : bs.length = 4) (r : Bytes) : fromLe32 (bs ++ r) = UInt32.ofNat (leVal bs) := by
  match bs, h with
  | [a, b, c, d], _ =>
    apply UInt32.toNat_inj.mp
    have h2 := fromLe32_toNat a b c d r
    have := (fromLe32 (a :: b :: c :: d :: r)).toNat_lt
    rw [UInt32.toNat_ofNat', ← h2, Nat.mod_eq_of_lt this]
    rfl

theorem fromLe64_eq {bs : Bytes} (h : bs.length = 8) (r : Bytes) : fromLe64 (bs ++ r) = UInt64.ofNat (leVal bs) := by
  match bs, h with
  | [a, b, c, d, e, f, g, i], _ =>
    apply UInt64.toNat_inj.mp
    have h2 := fromLe64_toNat a b c d e f g i r
    have := (fromLe64 (a :: b :: c :: d :: e :: f :: g :: i :: r)).toNat_lt
    rw [UInt64.toNat_ofNat', ← h2, Nat.mod_eq_of_lt this]
    rfl

theorem reads_fixed {α : Type} {k : Nat} (hk : 0 < k) {f : Bytes → α} {g : Nat → α}
    (hg : ∀ bs r : Bytes, bs.length = k → f (bs ++ r) = g (leVal bs)) {dec : Bytes → Res DecoderError (α × Nat)}
    (hd : ∀ buf, dec buf = if buf.length < k then .err .inputUnderflow else .ok (f buf, k)) :
    Reads false dec (FixedItem k g) where
  ok := by
    rintro bs v ⟨h1, rfl⟩
    refine ⟨by rintro rfl; simp at h1; omega, fun r => ?_⟩
    rw [hd, if_neg (by simp; omega), hg bs r h1, h1]
  cases := by
    intro buf
    by_cases h : buf.length < k
    · right; left; rw [hd, if_pos h]
    · left
      exact ⟨buf.take k, buf.drop k, _, (List.take_append_drop k buf).symm, by simp; omega, rfl⟩
  empty := by rw [hd, if_pos (by simpa using hk)]

theorem reads_fixed32 : Reads false decodeFixed32 (FixedItem 4 UInt32.ofNat) :=
  reads_fixed (by decide) (fun bs r h => fromLe32_eq h r) (fun _ => rfl)
theorem reads_fixed64 : Reads false decodeFixed64 (FixedItem 8 UInt64.ofNat) :=
  reads_fixed (by decide) (fun bs r h => fromLe64_eq h r) (fun _ => rfl)
theorem reads_float : Reads false decodeFloat (FixedItem 4 UInt32.ofNat) :=
  reads_fixed (by decide) (fun bs r h => fromLe32_eq h r) (fun _ => rfl)
theorem reads_double : Reads false decodeDouble (FixedItem 8 UInt64.ofNat) :=
  reads_fixed (by decide) (fun bs r h => fromLe64_eq h r) (fun _ => rfl)
theorem reads_sfixed32 : Reads false decodeSfixed32 (FixedItem 4 fun n => Int32.ofInt n) :=
  reads_fixed (f := fun buf => (fromLe32 buf).toInt32) (by decide) (fun bs r h => by
    rw [fromLe32_eq h r]
    apply Int32.toBitVec.inj
    show BitVec.ofNat 32 _ = BitVec.ofInt 32 _
    rw [BitVec.ofInt_natCast]) (fun _ => rfl)
theorem reads_sfixed64 : Reads false decodeSfixed64 (FixedItem 8 fun n => Int64.ofInt n) :=
  reads_fixed (f := fun buf => (fromLe64 buf).toInt64) (by decide) (fun bs r h => by
    rw [fromLe64_eq h r, int64_of_nat]) (fun _ => rfl)

/-! ### Packed vectors -/

theorem vecLoop_ok {α : Type} {dec : Bytes → Res DecoderError (α × Nat)} {W} {p : Bool} (hr : Reads p dec W) {vs : List α} {pre suf : Bytes}
    (hp : PackedWire W vs suf) (hne : pre ++ suf ≠ []) (fuel : Nat) (hf : suf.length < fuel) (items : List α) :
    vecLoop dec (pre ++ suf) fuel pre.length items = .ok (items ++ vs, (pre ++ suf).length) := by
  induction vs generalizing pre suf fuel items with
  | nil =>
    obtain rfl : suf = [] := hp
    obtain ⟨f, rfl⟩ : ∃ f, fuel = f + 1 := ⟨fuel - 1, by simp at hf; omega⟩
    have : pre.length ≠ 0 := by intro h; simp at h; simp [h] at hne
    rw [vecLoop, if_neg (by simp only [List.append_nil]; omega)]
    simp
  | cons v vs ih =>
    obtain ⟨b, c, rfl, hb, hc⟩ := hp
    obtain ⟨hbne, hdec⟩ := hr.ok hb
    have hbl : 0 < b.length := by
      rcases b with _ | _
      · exact absurd rfl hbne
      · simp
    obtain ⟨f, rfl⟩ : ∃ f, fuel = f + 1 := ⟨fuel - 1, by omega⟩
    rw [vecLoop, if_pos (by left; simp; omega), if_pos (by simp), List.drop_left' rfl, hdec]
    simp only [Res.bind_ok]
    have := ih (pre := pre ++ b) (suf := c) hc (by simpa using hne) f (by simp at hf; omega) (items ++ [v])
    simpa using this

theorem vecLoop_cases {α : Type} {dec : Bytes → Res DecoderError (α × Nat)} {W} {p : Bool} (hr : Reads p dec W) {pre suf : Bytes}
    (fuel : Nat) (hf : suf.length < fuel) (items : List α) :
    (∃ vs, PackedWire W vs suf ∧ pre ++ suf ≠ [] ∧ vecLoop dec (pre ++ suf) fuel pre.length items = .ok (items ++ vs, (pre ++ suf).length)) ∨
    vecLoop dec (pre ++ suf) fuel pre.length items = .err .inputUnderflow ∨
    (p = true ∧ vecLoop dec (pre ++ suf) fuel pre.length items = .panic) := by
  induction fuel generalizing pre suf items with
  | zero => omega
  | succ fuel ih =>
    by_cases hne : suf = []
    · subst hne
      by_cases hp : pre = []
      · subst hp
        rw [vecLoop, if_pos (by simp), if_pos (by simp)]
        right; left; simp only [List.append_nil, List.drop_nil, hr.empty]; rfl
      · exact Or.inl ⟨[], rfl, by simpa using hp, vecLoop_ok hr (vs := []) rfl (by simpa using hp) _ (by simp) _⟩
    · have hl : 0 < suf.length := by
        rcases suf with _ | _
        · exact absurd rfl hne
        · simp
      have hstep : vecLoop dec (pre ++ suf) (fuel + 1) pre.length items =
          (do let (val, n) ← dec suf; vecLoop dec (pre ++ suf) fuel (pre.length + n) (items ++ [val])) := by
        rw [vecLoop, if_pos (by left; simp; omega), if_pos (by simp), List.drop_left' rfl]
      rcases hr.cases suf with ⟨bs, r, v, rfl, h2⟩ | h | ⟨hp, h⟩
      · obtain ⟨hbne, hdec⟩ := hr.ok h2
        have hbl : 0 < bs.length := by
          rcases bs with _ | _
          · exact absurd rfl hbne
          · simp
        rw [hstep, hdec]
        simp only [Res.bind_ok]
        have e1 : pre ++ (bs ++ r) = (pre ++ bs) ++ r := by simp
        have e2 : pre.length + bs.length = (pre ++ bs).length := by simp
        rw [e1, e2]
        rcases ih (pre := pre ++ bs) (suf := r) (by simp at hf; omega) (items ++ [v]) with ⟨vs, h3, h4, h5⟩ | h | h
        · left
          refine ⟨v :: vs, ⟨bs, r, rfl, h2, h3⟩, h4, ?_⟩
          rw [h5]; simp
        · exact Or.inr (Or.inl h)
        · exact Or.inr (Or.inr h)
      · right; left; rw [hstep, h]; rfl
      · right; right; rw [hstep, h]; exact ⟨hp, rfl⟩

theorem decodeVec_ok {α : Type} {dec : Bytes → Res DecoderError (α × Nat)} {W} {p : Bool} (hr : Reads p dec W) {vs : List α} {buf : Bytes}
    (hp : PackedWire W vs buf) (hne : buf ≠ []) (dst : List α) : decodeVec dec buf dst = (.ok buf.length, dst ++ vs) := by
  have := vecLoop_ok hr (pre := []) hp hne (buf.length + 1) (by omega) []
  simp only [List.nil_append, List.length_nil] at this
  show (M.lift (vecLoop dec buf (buf.length + 1) 0 []) >>= _) dst = _
  rw [M.bind_apply, M.lift_apply, this]
  rfl

/-- Everything a `_vec` decoder can do. -/
theorem decodeVec_cases {α : Type} {dec : Bytes → Res DecoderError (α × Nat)} {W} {p : Bool} (hr : Reads p dec W) (buf : Bytes) (dst : List α) :
    (∃ vs, PackedWire W vs buf ∧ buf ≠ [] ∧ decodeVec dec buf dst = (.ok buf.length, dst ++ vs)) ∨
    decodeVec dec buf dst = (.err .inputUnderflow, dst) ∨ (p = true ∧ decodeVec dec buf dst = (.panic, dst)) := by
  have hdef : decodeVec dec buf dst = (M.lift (vecLoop dec buf (buf.length + 1) 0 []) >>= fun x => do
    M.modify (· ++ x.1); pure x.2) dst := rfl
  rcases vecLoop_cases hr (pre := []) (suf := buf) (buf.length + 1) (by omega) [] with ⟨vs, h1, h2, h3⟩ | h | ⟨hp, h⟩
  · exact Or.inl ⟨vs, h1, h2, decodeVec_ok hr h1 h2 dst⟩
  · right; left
    simp only [List.nil_append, List.length_nil] at h
    rw [hdef, M.bind_apply, M.lift_apply, h]
  · right; right
    simp only [List.nil_append, List.length_nil] at h
    rw [hdef, M.bind_apply, M.lift_apply, h]
    exact ⟨hp, rfl⟩

theorem decodeVec_empty {α : Type} {dec : Bytes → Res DecoderError (α × Nat)} {W} {p : Bool} (hr : Reads p dec W) (dst : List α) :
    decodeVec dec [] dst = (.err .inputUnderflow, dst) := by
  show (M.lift (vecLoop dec [] (0 + 1) 0 []) >>= _) dst = _
  have : vecLoop dec [] (0 + 1) 0 [] = .err .inputUnderflow := by
    rw [vecLoop, if_pos (by simp), if_pos (by simp), List.drop_nil, hr.empty]; rfl
  rw [M.bind_apply, M.lift_apply, this]

/-! ### Conversions -/

theorem unwrapScalar_ok {α : Type} {dec : Bytes → Res DecoderError (α × Nat)} {W} {p : Bool} (hr : Reads p dec W) {bs : Bytes} {v : α}
    (h : W bs v) (init : α) : unwrapScalar init (dec bs) = .ok v := by
  have := (hr.ok h).2 []
  rw [List.append_nil] at this
  rw [this]; rfl

theorem unwrapVec_ok {α : Type} {dec : Bytes → Res DecoderError (α × Nat)} {W} {p : Bool} (hr : Reads p dec W) {vs : List α} {buf : Bytes}
    (hp : PackedWire W vs buf) : unwrapVec (decodeVec dec buf) = .ok vs := by
  by_cases hne : buf = []
  · subst hne
    have hvs : vs = [] := by
      cases vs with
      | nil => rfl
      | cons v vs =>
        obtain ⟨b, c, h1, h2, _⟩ := hp
        have h3 : b = [] := by have := h1.symm; simp at this; exact this.1
        exact absurd h3 (hr.ok h2).1
    subst hvs
    rw [unwrapVec, decodeVec_empty hr]
  · rw [unwrapVec, decodeVec_ok hr hp hne]
    simp

/-! ### Values written by the encoder -/

theorem ofInt_twos {k m : Nat} (h : k ≤ m) (x : Int) : BitVec.ofInt k (twos m x : Nat) = BitVec.ofInt k x := by
  apply BitVec.eq_of_toNat_eq
  rw [BitVec.toNat_ofInt, BitVec.toNat_ofInt, twos]
  have hm : (0 : Int) < 2 ^ m := by exact Int.pow_pos (by decide)
  have h0 : 0 ≤ x % 2 ^ m := Int.emod_nonneg _ (by omega)
  rw [Int.toNat_of_nonneg h0, Int.natCast_pow, show ((2 : Nat) : Int) = 2 from rfl, Int.emod_emod_of_dvd]
  have := Int.natCast_dvd_natCast.mpr (Nat.pow_dvd_pow 2 h)
  rwa [Int.natCast_pow, Int.natCast_pow] at this

theorem twos_lt {m : Nat} (x : Int) : twos m x < 2 ^ m := by
  have hm : (0 : Int) < 2 ^ m := by exact Int.pow_pos (by decide)
  have h1 := Int.emod_lt_of_pos x hm
  have h0 : 0 ≤ x % 2 ^ m := Int.emod_nonneg _ (by omega)
  have hp : ((2 ^ m : Nat) : Int) = (2 : Int) ^ m := by rw [Int.natCast_pow]; rfl
  rw [twos]
  omega

theorem unzigzag_zigzag (x : Int) : unzigzag (zigzag x) = x := by
  unfold zigzag unzigzag
  split <;> split <;> omega

theorem zigzag32_lt (v : Int32) : zigzag v.toInt < 2 ^ 64 := by
  rw [← zigzag32]
  exact Nat.lt_trans (UInt32.toNat_lt _) (by decide)

theorem zigzag64_lt (v : Int64) : zigzag v.toInt < 2 ^ 64 := by
  rw [← zigzag64]
  exact UInt64.toNat_lt _

theorem le_length (k n : Nat) : (le k n).length = k := by
  induction k generalizing n with
  | zero => rfl
  | succ k ih => simp [le, ih]

theorem leVal_le (k n : Nat) (h : n < 256 ^ k) : leVal (le k n) = n := by
  induction k generalizing n with
  | zero => simp at h; subst h; rfl
  | succ k ih =>
    rw [le, leVal, ih (n / 256) (by rw [Nat.div_lt_iff_lt_mul (by decide), ← Nat.pow_succ]; exact h), UInt8.toNat_ofNat']
    omega

section
variable (chk : Bool)

theorem item_bool (v : Bool) : VarintItem chk (fun n => decide (n ≠ 0)) (varint v.toNat) v :=
  ⟨v.toNat, varint_wire chk (by cases v <;> decide), by cases v <;> rfl⟩
theorem item_int32 (v : Int32) : VarintItem chk (fun n => Int32.ofInt n) (varint (twos 64 v.toInt)) v :=
  ⟨_, varint_wire chk (twos_lt _), by
    apply Int32.toBitVec.inj
    show _ = BitVec.ofInt 32 _
    rw [ofInt_twos (by decide)]; exact (BitVec.ofInt_toInt ..).symm⟩
theorem item_int64 (v : Int64) : VarintItem chk (fun n => Int64.ofInt n) (varint (twos 64 v.toInt)) v :=
  ⟨_, varint_wire chk (twos_lt _), by
    apply Int64.toBitVec.inj
    show _ = BitVec.ofInt 64 _
    rw [ofInt_twos (by decide)]; exact (BitVec.ofInt_toInt ..).symm⟩
theorem item_uint32 (v : UInt32) : VarintItem chk UInt32.ofNat (varint v.toNat) v :=
  ⟨_, varint_wire chk (Nat.lt_trans v.toNat_lt (by decide)), by simp⟩
theorem item_uint64 (v : UInt64) : VarintItem chk UInt64.ofNat (varint v.toNat) v :=
  ⟨_, varint_wire chk v.toNat_lt, by simp⟩
theorem item_sint32 (v : Int32) : VarintItem chk (fun n => Int32.ofInt (unzigzag n)) (varint (zigzag v.toInt)) v :=
  ⟨_, varint_wire chk (zigzag32_lt v), by simp only [unzigzag_zigzag, Int32.ofInt_toInt]⟩
theorem item_sint64 (v : Int64) : VarintItem chk (fun n => Int64.ofInt (unzigzag n)) (varint (zigzag v.toInt)) v :=
  ⟨_, varint_wire chk (zigzag64_lt v), by simp only [unzigzag_zigzag, Int64.ofInt_toInt]⟩
end

theorem item_fixed32 (v : UInt32) : FixedItem 4 UInt32.ofNat (le 4 v.toNat) v :=
  ⟨le_length _ _, by rw [leVal_le _ _ v.toNat_lt]; simp⟩
theorem item_fixed64 (v : UInt64) : FixedItem 8 UInt64.ofNat (le 8 v.toNat) v :=
  ⟨le_length _ _, by rw [leVal_le _ _ v.toNat_lt]; simp⟩
theorem item_sfixed32 (v : Int32) : FixedItem 4 (fun n => Int32.ofInt n) (le 4 (twos 32 v.toInt)) v :=
  ⟨le_length _ _, by
    rw [leVal_le _ _ (twos_lt _)]
    apply Int32.toBitVec.inj
    show _ = BitVec.ofInt 32 _
    rw [ofInt_twos (by decide)]; exact (BitVec.ofInt_toInt ..).symm⟩
theorem item_sfixed64 (v : Int64) : FixedItem 8 (fun n => Int64.ofInt n) (le 8 (twos 64 v.toInt)) v :=
  ⟨le_length _ _, by
    rw [leVal_le _ _ (twos_lt _)]
    apply Int64.toBitVec.inj
    show _ = BitVec.ofInt 64 _
    rw [ofInt_twos (by decide)]; exact (BitVec.ofInt_toInt ..).symm⟩

theorem packed_flatMap {α : Type} {W : Octets → α → Prop} {enc : α → Octets} (h : ∀ v, W (enc v) v) (vs : List α) :
    PackedWire W vs (vs.flatMap enc) := by
  induction vs with
  | nil => rfl
  | cons v vs ih => exact ⟨enc v, vs.flatMap enc, by simp, h v, ih⟩

end Verif.Protos
