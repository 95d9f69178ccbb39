import Verif.Protos.Client
import Verif.Protos.Encoder
import Verif.Spec.Protos
import Verif.Lemmas.HpackInt
/-! The protobuf encoder performs a fixed list of writes, whose concatenation is the specified encoding. -/
namespace Verif.Protos
open Verif.Spec Verif.Spec.Proto

/-- For every writer, `m` performs the writes of `plan` and returns `n`, or `Interrupted` when a write failed. -/
def Runs (m : ∀ σ : Type, Writer σ → M σ EncoderError Nat) (plan : List Bytes) (n : Nat) : Prop :=
  ∀ (σ : Type) (w : Writer σ) (s : σ),
    m σ w s = match runPlan w plan s with
      | (true, s') => (.ok n, s')
      | (false, s') => (.err .interrupted, s')

theorem runPlan_append {σ : Type} (w : Writer σ) (p q : List Bytes) (s : σ) :
    runPlan w (p ++ q) s = match runPlan w p s with
      | (true, s') => runPlan w q s'
      | (false, s') => (false, s') := by
  induction p generalizing s with
  | nil => rfl
  | cons b p ih =>
    simp only [List.cons_append, runPlan]
    rcases w.writeAll s b with ⟨_ | _, s'⟩
    · rfl
    · exact ih s'

theorem runPlan_vec (p : List Bytes) (s : Bytes) : runPlan vecWriter p s = (true, s ++ p.flatten) := by
  induction p generalizing s with
  | nil => simp [runPlan]
  | cons b p ih => simp [runPlan, vecWriter] at ih ⊢; rw [ih]; simp

theorem Runs.vec {m} {plan : List Bytes} {n} (h : Runs m plan n) (s : Bytes) :
    m Bytes vecWriter s = (.ok n, s ++ plan.flatten) := by
  rw [h, runPlan_vec]

/-- Sequencing. -/
theorem Runs.bind {m₁ m₂ : ∀ σ : Type, Writer σ → M σ EncoderError Nat} {p₁ p₂ : List Bytes} {n₁ n₂ : Nat} (h₁ : Runs m₁ p₁ n₁)
    (h₂ : Runs m₂ p₂ n₂) :
    Runs (fun σ w => do let a ← m₁ σ w; let b ← m₂ σ w; pure (a + b)) (p₁ ++ p₂) (n₁ + n₂) := by
  intro σ w s
  rw [runPlan_append]
  show (m₁ σ w >>= _) s = _
  rw [M.bind_apply, h₁]
  rcases runPlan w p₁ s with ⟨_ | _, s'⟩
  · rfl
  · show (m₂ σ w >>= _) s' = _
    rw [M.bind_apply, h₂]
    dsimp only
    rcases runPlan w p₂ s' with ⟨_ | _, s''⟩ <;> rfl

theorem runs_write (b : Bytes) (n : Nat) : Runs (fun _ w => do write w b; pure n) [b] n := by
  intro σ w s
  show (write w b >>= _) s = _
  rw [M.bind_apply]
  simp only [write, runPlan]
  rcases w.writeAll s b with ⟨_ | _, s'⟩ <;> rfl

/-! ### Varints -/

theorem varint_lt {n : Nat} (h : n < 128) : varint n = [UInt8.ofNat n] := by rw [varint, if_pos h]
theorem varint_ge {n : Nat} (h : ¬ n < 128) :
    varint n = UInt8.ofNat (128 + n % 128) :: varint (n / 128) := by rw [varint, if_neg h]

theorem lastByte (v : UInt64) (h : v.toNat < 128) : v.toUInt8 &&& 0x7F = UInt8.ofNat v.toNat := by
  apply Hpack.u8_ext
  rw [Hpack.and127_toNat, UInt64.toNat_toUInt8, UInt8.toNat_ofNat']
  omega

theorem or128 : ∀ n, n < 128 → (n ||| 128 = 128 + n) := by decide

theorem moreByte (v : UInt64) : ((v &&& 0x7F) ||| 0x80).toUInt8 = UInt8.ofNat (128 + v.toNat % 128) := by
  apply Hpack.u8_ext
  rw [UInt64.toNat_toUInt8, UInt64.toNat_or, UInt64.toNat_and, UInt8.toNat_ofNat']
  have h1 : v.toNat &&& (0x7F : UInt64).toNat = v.toNat % 128 := Nat.and_two_pow_sub_one_eq_mod v.toNat 7
  rw [h1, show (0x80 : UInt64).toNat = 128 from rfl, or128 _ (Nat.mod_lt _ (by decide))]

theorem shr7 (v : UInt64) : (v >>> 7).toNat = v.toNat / 128 := by
  rw [UInt64.toNat_shiftRight]
  exact Nat.shiftRight_eq_div_pow _ _

theorem runs_varintLoop (fuel : Nat) (v : UInt64) (size : Nat) (h : v.toNat < 128 ^ fuel) (hf : 0 < fuel) :
    Runs (fun _ w => encodeVarintLoop w fuel v size) ((varint v.toNat).map ([·])) (size + (varint v.toNat).length) := by
  induction fuel generalizing v size with
  | zero => omega
  | succ fuel ih =>
    intro σ w s
    by_cases hv : v < 0x80
    · have hn : v.toNat < 128 := UInt64.lt_iff_toNat_lt.mp hv
      simp only [encodeVarintLoop, if_pos hv, varint_lt hn, lastByte v hn]
      exact runs_write _ _ σ w s
    · have hn : ¬ v.toNat < 128 := fun h => hv (UInt64.lt_iff_toNat_lt.mpr h)
      have hlt : (v >>> 7).toNat < 128 ^ fuel := by
        rw [shr7, Nat.div_lt_iff_lt_mul (by decide), ← Nat.pow_succ]; exact h
      have hf0 : 0 < fuel := by
        rcases fuel with _ | f
        · simp at h; omega
        · omega
      have := ih (v >>> 7) (size + 1) hlt hf0
      simp only [encodeVarintLoop, if_neg hv, varint_ge hn, moreByte, List.map_cons, List.length_cons, runPlan]
      rw [M.bind_apply]
      simp only [write]
      rcases w.writeAll s [UInt8.ofNat (128 + v.toNat % 128)] with ⟨_ | _, s'⟩
      · rfl
      · have h2 := this σ w s'
        rw [shr7] at h2
        refine h2.trans ?_
        rw [show size + 1 + (varint (v.toNat / 128)).length = size + ((varint (v.toNat / 128)).length + 1) by omega]

/-- `encode_varint` writes the bytes of `varint` one by one. -/
theorem runs_varint (v : UInt64) :
    Runs (fun _ w => encodeVarint w v) ((varint v.toNat).map ([·])) (varint v.toNat).length := by
  have := runs_varintLoop 10 v 0 (Nat.lt_trans v.toNat_lt (by decide)) (by decide)
  simpa [encodeVarint] using this

theorem flatten_singletons (l : Bytes) : (l.map ([·])).flatten = l := by
  induction l with
  | nil => rfl
  | cons a l ih => simpa using ih

/-! ### The other primitives -/

theorem twos_of_bitvec {k : Nat} (v : BitVec k) : v.toNat = twos k v.toInt := by
  rw [twos, BitVec.toInt_eq_toNat_bmod, ]
  have : ((v.toNat : Int).bmod (2 ^ k)) % (2 ^ k : Int) = (v.toNat : Int) % (2^k : Int) := by
    have := Int.bmod_emod (x := (v.toNat : Int)) (m := 2 ^ k)
    simpa using this
  rw [this]
  have h := v.isLt
  have h2 : ((v.toNat : Int) % (2 ^ k : Int)) = ((v.toNat % 2 ^ k : Nat) : Int) := by rw [Int.natCast_emod, Int.natCast_pow]; rfl
  rw [h2, Int.toNat_natCast, Nat.mod_eq_of_lt h]

theorem int32_ext_toNat (v : Int32) : v.toInt64.toUInt64.toNat = twos 64 v.toInt := by
  show v.toInt64.toBitVec.toNat = _
  rw [twos_of_bitvec]
  congr 1
  exact Int32.toInt_toInt64 v

theorem int64_toNat (v : Int64) : v.toUInt64.toNat = twos 64 v.toInt := twos_of_bitvec v.toBitVec
theorem int32_toNat (v : Int32) : v.toUInt32.toNat = twos 32 v.toInt := twos_of_bitvec v.toBitVec

theorem zigzag_bitvec (k : Nat) (hk : 0 < k) (v : BitVec k) :
    ((v <<< 1) ^^^ (v.sshiftRight (k - 1))).toNat = zigzag v.toInt := by
  rcases hm : v.msb with _ | _
  · have h0 : v.sshiftRight (k - 1) = 0#k := by
      apply BitVec.eq_of_getLsbD_eq
      intro i hi
      rw [BitVec.getLsbD_sshiftRight]
      by_cases h : k - 1 + i < k
      · have : i = 0 := by omega
        subst this
        rw [BitVec.msb_eq_getLsbD_last] at hm
        rw [if_pos h, Nat.add_zero, hm]
        simp
      · rw [if_neg h, hm]
        simp
    have hi : v.toInt = v.toNat := BitVec.toInt_eq_toNat_of_msb hm
    have hl : 2 * v.toNat < 2 ^ k := by
      have := BitVec.msb_eq_decide v
      rw [hm] at this
      have h2 : v.toNat < 2 ^ (k - 1) := by simpa using this.symm
      have h3 : 2 ^ k = 2 * 2 ^ (k - 1) := by
        rw [Nat.mul_comm, ← Nat.pow_succ]; congr 1; omega
      omega
    rw [h0, BitVec.xor_zero, hi, zigzag, if_pos (by omega), BitVec.toNat_shiftLeft, Nat.shiftLeft_eq]
    rw [Nat.mod_eq_of_lt (by omega)]
    simp; omega
  · have h1 : v.sshiftRight (k - 1) = BitVec.allOnes k := by
      apply BitVec.eq_of_getLsbD_eq
      intro i hi
      rw [BitVec.getLsbD_sshiftRight]
      by_cases h : k - 1 + i < k
      · have : i = 0 := by omega
        subst this
        rw [BitVec.msb_eq_getLsbD_last] at hm
        rw [if_pos h, Nat.add_zero, hm]
        have : k ≠ 0 := by omega
        simp [this, hk]
      · rw [if_neg h, hm]
        simp [hi]
    have hi : v.toInt = (v.toNat : Int) - 2 ^ k := by
      have := BitVec.toInt_eq_msb_cond v
      rw [hm] at this
      simpa using this
    have hlt := v.isLt
    have hge : 2 ^ k ≤ 2 * v.toNat := by
      have := BitVec.msb_eq_decide v
      rw [hm] at this
      have h2 : 2 ^ (k - 1) ≤ v.toNat := by simpa using this.symm
      have h3 : 2 ^ k = 2 * 2 ^ (k - 1) := by
        rw [Nat.mul_comm, ← Nat.pow_succ]; congr 1; omega
      omega
    rw [h1, BitVec.xor_allOnes, BitVec.toNat_not, BitVec.toNat_shiftLeft, Nat.shiftLeft_eq, hi, zigzag]
    have e : (v.toNat * 2 ^ 1) % 2 ^ k = 2 * v.toNat - 2 ^ k := by
      rw [Nat.mod_eq_sub_mod (by omega), Nat.mod_eq_of_lt (by omega)]; omega
    rw [e]
    have hp : ((2 ^ k : Nat) : Int) = (2 : Int) ^ k := by rw [Int.natCast_pow]; rfl
    rw [← hp]
    rw [if_neg (by omega)]
    omega

theorem zigzag32 (v : Int32) : ((v <<< 1) ^^^ (v >>> 31)).toUInt32.toNat = zigzag v.toInt :=
  zigzag_bitvec 32 (by decide) v.toBitVec

theorem zigzag64 (v : Int64) : ((v <<< 1) ^^^ (v >>> 63)).toUInt64.toNat = zigzag v.toInt :=
  zigzag_bitvec 64 (by decide) v.toBitVec

theorem le32 (v : UInt32) : leBytes32 v = le 4 v.toNat := by
  simp only [leBytes32, le]
  have h (k : Nat) (hk : k < 32) (w : UInt32) (hw : w.toNat = k) : (v >>> w).toUInt8 = UInt8.ofNat (v.toNat / 2 ^ k % 256) := by
    apply Hpack.u8_ext
    rw [UInt32.toNat_toUInt8, UInt32.toNat_shiftRight, hw, Nat.mod_eq_of_lt hk, Nat.shiftRight_eq_div_pow, UInt8.toNat_ofNat']
    simp
  rw [h 8 (by decide) 8 rfl, h 16 (by decide) 16 rfl, h 24 (by decide) 24 rfl]
  have h0 : v.toUInt8 = UInt8.ofNat (v.toNat % 256) := by
    apply Hpack.u8_ext
    rw [UInt32.toNat_toUInt8, UInt8.toNat_ofNat']; simp
  rw [h0]
  simp only [Nat.div_div_eq_div_mul]

theorem le64 (v : UInt64) : leBytes64 v = le 8 v.toNat := by
  simp only [leBytes64, le]
  have h (k : Nat) (hk : k < 64) (w : UInt64) (hw : w.toNat = k) : (v >>> w).toUInt8 = UInt8.ofNat (v.toNat / 2 ^ k % 256) := by
    apply Hpack.u8_ext
    rw [UInt64.toNat_toUInt8, UInt64.toNat_shiftRight, hw, Nat.mod_eq_of_lt hk, Nat.shiftRight_eq_div_pow, UInt8.toNat_ofNat']
    simp
  rw [h 8 (by decide) 8 rfl, h 16 (by decide) 16 rfl, h 24 (by decide) 24 rfl, h 32 (by decide) 32 rfl,
    h 40 (by decide) 40 rfl, h 48 (by decide) 48 rfl, h 56 (by decide) 56 rfl]
  have h0 : v.toUInt8 = UInt8.ofNat (v.toNat % 256) := by
    apply Hpack.u8_ext
    rw [UInt64.toNat_toUInt8, UInt8.toNat_ofNat']; simp
  rw [h0]
  simp only [Nat.div_div_eq_div_mul]

/-! ### Keys and fields -/

/-- The tags `Encoder` accepts. -/
def ValidTag (tag : UInt32) : Prop := 1 ≤ tag.toNat ∧ tag.toNat < 2 ^ 29

theorem key_toNat (tag : UInt32) (h : ValidTag tag) (typ : Typ) (ht : typ ≠ .unknown) :
    ((tag <<< 3) ||| typ.toU32).toUInt64.toNat = 8 * tag.toNat + typNum typ := by
  have h1 : (tag <<< 3).toNat = 8 * tag.toNat := by
    rw [UInt32.toNat_shiftLeft, Nat.shiftLeft_eq, show (3 : UInt32).toNat % 32 = 3 from rfl, Nat.mod_eq_of_lt]
    · omega
    · have := h.2; omega
  have h2 : typ.toU32.toNat = typNum typ := by cases typ <;> first | rfl | exact absurd rfl ht
  have h3 : typNum typ < 2 ^ 3 := by cases typ <;> first | decide | exact absurd rfl ht
  rw [UInt32.toNat_toUInt64, UInt32.toNat_or, h1, h2]
  exact Hpack.or_disjoint (n := 3) (by omega) h3

theorem tag_cond (tag : UInt32) : ¬ (tag < tagMin ∨ tag > tagMax) ↔ ValidTag tag := by
  have h1 : tagMin.toNat = 1 := rfl
  have h2 : tagMax.toNat = 2 ^ 29 - 1 := rfl
  simp only [ValidTag, UInt32.lt_iff_toNat_lt, GT.gt, h1, h2]
  omega

theorem runs_key {tag : UInt32} (h : ValidTag tag) {typ : Typ} (ht : typ ≠ .unknown) :
    Runs (fun _ w => encodeKey w tag typ) ((varint (8 * tag.toNat + typNum typ)).map ([·]))
      (varint (8 * tag.toNat + typNum typ)).length := by
  have := runs_varint ((tag <<< 3) ||| typ.toU32).toUInt64
  rw [key_toNat tag h typ ht] at this
  intro σ w s
  simp only [encodeKey, if_neg ((tag_cond tag).mpr h)]
  exact this σ w s

theorem encodeKey_invalid {σ : Type} (w : Writer σ) (s : σ) {tag : UInt32} (h : ¬ ValidTag tag) (typ : Typ) :
    encodeKey w tag typ s = (.err .invalidTag, s) := by
  have h' : tag < tagMin ∨ tag > tagMax := Decidable.not_not.mp (fun h2 => h ((tag_cond tag).mp h2))
  simp only [encodeKey, if_pos h', M.throw]

theorem runs_bytes {b : Bytes} (h : b.length < 2 ^ 64) :
    Runs (fun _ w => encodeBytes w b) ((varint b.length).map ([·]) ++ [b]) ((varint b.length).length + b.length) := by
  have hl : (UInt64.ofNat b.length).toNat = b.length := UInt64.toNat_ofNat_of_lt' h
  have h1 := (runs_varint (UInt64.ofNat b.length)).bind (runs_write b b.length)
  rw [hl] at h1
  intro σ w s
  have h2 := h1 σ w s
  rw [← h2]
  simp only [encodeBytes, if_neg (show ¬ b.length > 2 ^ 64 - 1 by omega)]
  show (encodeVarint w _ >>= _) s = (encodeVarint w _ >>= _) s
  rw [M.bind_apply, M.bind_apply]
  rcases encodeVarint w (UInt64.ofNat b.length) s with ⟨_ | _ | _ | _, s'⟩ <;> try rfl
  show (write w b >>= _) s' = ((write w b >>= fun _ => pure b.length) >>= _) s'
  rw [M.bind_apply, M.bind_apply, M.bind_apply]
  rcases write w b s' with ⟨_ | _ | _ | _, s''⟩ <;> try rfl
  show (Res.ok _, s'') = (Res.ok _, s'')
  rw [Nat.add_comm]

theorem runs_keyThen {tag : UInt32} (h : ValidTag tag) {typ : Typ} (ht : typ ≠ .unknown)
    {m : ∀ σ : Type, Writer σ → M σ EncoderError Nat} {p n} (hm : Runs m p n) :
    Runs (fun σ w => keyThen w tag typ (m σ w)) ((varint (8 * tag.toNat + typNum typ)).map ([·]) ++ p)
      ((varint (8 * tag.toNat + typNum typ)).length + n) :=
  (runs_key h ht).bind hm

/-- What a `_vec` method puts into its buffer. -/
theorem packInto_vec {α : Type} {enc : ∀ σ : Type, Writer σ → α → M σ EncoderError Nat} {bytes : α → Bytes} {plan : α → List Bytes}
    {n : α → Nat} (h : ∀ v, Runs (fun σ w => enc σ w v) (plan v) (n v)) (hp : ∀ v, (plan v).flatten = bytes v)
    (vs : List α) (s : Bytes) :
    packInto (enc Bytes vecWriter) vs s = (.ok (), s ++ vs.flatMap bytes) := by
  induction vs generalizing s with
  | nil => simp [packInto]
  | cons v vs ih =>
    show (enc Bytes vecWriter v >>= _) s = _
    rw [M.bind_of_ok ((h v).vec s), ih, hp]
    simp

theorem packed_eq {σ α : Type} {enc : ∀ σ : Type, Writer σ → α → M σ EncoderError Nat} {bytes : α → Bytes} {plan : α → List Bytes}
    {n : α → Nat} (h : ∀ v, Runs (fun σ w => enc σ w v) (plan v) (n v)) (hp : ∀ v, (plan v).flatten = bytes v)
    (vs : List α) (k : Bytes → M σ EncoderError Nat) :
    packed (enc Bytes vecWriter) vs k = k (vs.flatMap bytes) := by
  funext s
  simp only [packed, packInto_vec h hp, List.nil_append]

/-- A packed field, whatever its element type. -/
theorem runs_packed {α : Type} {enc : ∀ σ : Type, Writer σ → α → M σ EncoderError Nat} {bytes : α → Bytes} {plan : α → List Bytes}
    {n : α → Nat} (h : ∀ v, Runs (fun σ w => enc σ w v) (plan v) (n v)) (hp : ∀ v, (plan v).flatten = bytes v)
    {tag : UInt32} (ht : ValidTag tag) {vs : List α} (hl : (vs.flatMap bytes).length < 2 ^ 64) :
    Runs (fun σ w => packed (enc Bytes vecWriter) vs (Encoder.bytes (σ := σ) w tag))
      ((varint (8 * tag.toNat + 2)).map ([·]) ++ ((varint (vs.flatMap bytes).length).map ([·]) ++ [vs.flatMap bytes]))
      ((varint (8 * tag.toNat + 2)).length + ((varint (vs.flatMap bytes).length).length + (vs.flatMap bytes).length)) := by
  intro σ w s
  simp only [packed_eq h hp]
  exact runs_keyThen ht (typ := .lengthDelimited) (by decide) (runs_bytes hl) σ w s

/-- `encode` on a valid tag performs writes that add up to the specified bytes. -/
theorem encode_runs {tag : UInt32} (ht : ValidTag tag) (lit : EncoderLit) (hl : (payload lit).length < 2 ^ 64) :
    ∃ plan, plan.flatten = fieldBytes tag.toNat lit ∧
      Runs (fun _ w => Encoder.encode w tag lit) plan (fieldBytes tag.toNat lit).length := by
  have scalar : ∀ (typ : Typ) (_ : typ ≠ .unknown) (_ : typ ≠ .lengthDelimited) (_ : wireType lit = typ)
      (m : ∀ σ : Type, Writer σ → M σ EncoderError Nat) (p : List Bytes) (n : Nat) (_ : Runs m p n) (_ : p.flatten = payload lit)
      (_ : n = (payload lit).length) (_ : ∀ σ w, Encoder.encode (σ := σ) w tag lit = keyThen w tag typ (m σ w)),
      ∃ plan, plan.flatten = fieldBytes tag.toNat lit ∧
      Runs (fun _ w => Encoder.encode w tag lit) plan (fieldBytes tag.toNat lit).length := by
    intro typ h1 h2 h3 m p n h4 h5 h6 h7
    refine ⟨(varint (8 * tag.toNat + typNum typ)).map ([·]) ++ p, ?_, ?_⟩
    rotate_left
    · intro σ w s
      have := runs_keyThen ht h1 h4 σ w s
      refine ((congrFun (h7 σ w) s).trans this).trans ?_
      have e : (fieldBytes tag.toNat lit).length = (varint (8 * tag.toNat + typNum typ)).length + n := by
        simp [fieldBytes, record, h3, h2, h6]
      rw [e]
    · simp [fieldBytes, record, h3, h2, h5, flatten_singletons]
  have packedCase : ∀ (_ : wireType lit = .lengthDelimited)
      (_ : Runs (fun _ w => Encoder.encode w tag lit)
        ((varint (8 * tag.toNat + 2)).map ([·]) ++ ((varint (payload lit).length).map ([·]) ++ [payload lit]))
        ((varint (8 * tag.toNat + 2)).length + ((varint (payload lit).length).length + (payload lit).length))),
      ∃ plan, plan.flatten = fieldBytes tag.toNat lit ∧
      Runs (fun _ w => Encoder.encode w tag lit) plan (fieldBytes tag.toNat lit).length := by
    intro h1 h2
    refine ⟨(varint (8 * tag.toNat + 2)).map ([·]) ++ ((varint (payload lit).length).map ([·]) ++ [payload lit]), ?_, ?_⟩
    rotate_left
    · have e : (fieldBytes tag.toNat lit).length =
          (varint (8 * tag.toNat + 2)).length + ((varint (payload lit).length).length + (payload lit).length) := by
        simp [fieldBytes, record, h1, typNum]
      rw [e]
      exact h2
    · simp [fieldBytes, record, h1, typNum, flatten_singletons]
  have v := runs_varint
  have rInt32 : ∀ x : Int32, Runs (fun σ w => encodeInt32 w x) _ _ := fun x => runs_varint x.toInt64.toUInt64
  have rBool : ∀ x : Bool, Runs (fun σ w => encodeBool w x) _ _ := fun x => runs_varint (if x then 1 else 0)
  have bool_nat : ∀ x : Bool, (if x then 1 else 0 : UInt64).toNat = x.toNat := by decide
  cases lit with
  | bytes b => exact packedCase rfl (runs_keyThen ht (typ := .lengthDelimited) (by decide) (runs_bytes hl))
  | bool x =>
    refine scalar .varint (by decide) (by decide) rfl _ _ _ (rBool x) ?_ ?_ (fun _ _ => rfl)
    · rw [flatten_singletons, bool_nat]; rfl
    · rw [bool_nat]; rfl
  | int32 x =>
    refine scalar .varint (by decide) (by decide) rfl _ _ _ (rInt32 x) ?_ ?_ (fun _ _ => rfl)
    · rw [flatten_singletons, int32_ext_toNat]; rfl
    · rw [int32_ext_toNat]; rfl
  | int64 x =>
    refine scalar .varint (by decide) (by decide) rfl _ _ _ (v x.toUInt64) ?_ ?_ (fun _ _ => rfl)
    · rw [flatten_singletons, int64_toNat]; rfl
    · rw [int64_toNat]; rfl
  | uint32 x =>
    refine scalar .varint (by decide) (by decide) rfl _ _ _ (v x.toUInt64) ?_ ?_ (fun _ _ => rfl)
    · rw [flatten_singletons, UInt32.toNat_toUInt64]; rfl
    · rw [UInt32.toNat_toUInt64]; rfl
  | uint64 x =>
    refine scalar .varint (by decide) (by decide) rfl _ _ _ (v x) ?_ rfl (fun _ _ => rfl)
    · rw [flatten_singletons]; rfl
  | sint32 x =>
    refine scalar .varint (by decide) (by decide) rfl _ _ _ (v ((x <<< 1) ^^^ (x >>> 31)).toUInt32.toUInt64) ?_ ?_ (fun _ _ => rfl)
    · rw [flatten_singletons, UInt32.toNat_toUInt64, zigzag32]; rfl
    · rw [UInt32.toNat_toUInt64, zigzag32]; rfl
  | sint64 x =>
    refine scalar .varint (by decide) (by decide) rfl _ _ _ (v ((x <<< 1) ^^^ (x >>> 63)).toUInt64) ?_ ?_ (fun _ _ => rfl)
    · rw [flatten_singletons, zigzag64]; rfl
    · rw [zigzag64]; rfl
  | fixed32 x =>
    refine scalar .bit32 (by decide) (by decide) rfl _ _ _ (runs_write (leBytes32 x) 4) ?_ rfl (fun _ _ => rfl)
    · simp [le32, payload]
  | fixed64 x =>
    refine scalar .bit64 (by decide) (by decide) rfl _ _ _ (runs_write (leBytes64 x) 8) ?_ rfl (fun _ _ => rfl)
    · simp [le64, payload]
  | sfixed32 x =>
    refine scalar .bit32 (by decide) (by decide) rfl _ _ _ (runs_write (leBytes32 x.toUInt32) 4) ?_ rfl (fun _ _ => rfl)
    · simp [le32, payload, int32_toNat]
  | sfixed64 x =>
    refine scalar .bit64 (by decide) (by decide) rfl _ _ _ (runs_write (leBytes64 x.toUInt64) 8) ?_ rfl (fun _ _ => rfl)
    · simp [le64, payload, int64_toNat]
  | float x =>
    refine scalar .bit32 (by decide) (by decide) rfl _ _ _ (runs_write (leBytes32 x) 4) ?_ rfl (fun _ _ => rfl)
    · simp [le32, payload]
  | double x =>
    refine scalar .bit64 (by decide) (by decide) rfl _ _ _ (runs_write (leBytes64 x) 8) ?_ rfl (fun _ _ => rfl)
    · simp [le64, payload]
  | boolVec vs =>
    exact packedCase rfl (runs_packed (enc := fun _ w => encodeBool w) rBool
      (fun x => by rw [flatten_singletons, bool_nat]) ht hl)
  | int32Vec vs =>
    exact packedCase rfl (runs_packed (enc := fun _ w => encodeInt32 w) rInt32
      (fun x => by rw [flatten_singletons, int32_ext_toNat]) ht hl)
  | int64Vec vs =>
    exact packedCase rfl (runs_packed (enc := fun _ w => encodeInt64 w) (fun x => v x.toUInt64)
      (fun x => by rw [flatten_singletons, int64_toNat]) ht hl)
  | uint32Vec vs =>
    exact packedCase rfl (runs_packed (enc := fun _ w => encodeUint32 w) (fun x => v x.toUInt64)
      (fun x => by rw [flatten_singletons, UInt32.toNat_toUInt64]) ht hl)
  | uint64Vec vs =>
    exact packedCase rfl (runs_packed (enc := fun _ w => encodeUint64 w) (fun x => v x)
      (fun x => by rw [flatten_singletons]) ht hl)
  | sint32Vec vs =>
    exact packedCase rfl (runs_packed (enc := fun _ w => encodeSint32 w)
      (fun x => v ((x <<< 1) ^^^ (x >>> 31)).toUInt32.toUInt64)
      (fun x => by rw [flatten_singletons, UInt32.toNat_toUInt64, zigzag32]) ht hl)
  | sint64Vec vs =>
    exact packedCase rfl (runs_packed (enc := fun _ w => encodeSint64 w) (fun x => v ((x <<< 1) ^^^ (x >>> 63)).toUInt64)
      (fun x => by rw [flatten_singletons, zigzag64]) ht hl)
  | fixed32Vec vs =>
    exact packedCase rfl (runs_packed (enc := fun _ w => encodeFixed32 w) (fun x => runs_write (leBytes32 x) 4)
      (fun x => by simp [le32]) ht hl)
  | fixed64Vec vs =>
    exact packedCase rfl (runs_packed (enc := fun _ w => encodeFixed64 w) (fun x => runs_write (leBytes64 x) 8)
      (fun x => by simp [le64]) ht hl)
  | sfixed32Vec vs =>
    exact packedCase rfl (runs_packed (enc := fun _ w => encodeSfixed32 w) (fun x => runs_write (leBytes32 x.toUInt32) 4)
      (fun x => by simp [le32, int32_toNat]) ht hl)
  | sfixed64Vec vs =>
    exact packedCase rfl (runs_packed (enc := fun _ w => encodeSfixed64 w) (fun x => runs_write (leBytes64 x.toUInt64) 8)
      (fun x => by simp [le64, int64_toNat]) ht hl)
  | floatVec vs =>
    exact packedCase rfl (runs_packed (enc := fun _ w => encodeFloat w) (fun x => runs_write (leBytes32 x) 4)
      (fun x => by simp [le32]) ht hl)
  | doubleVec vs =>
    exact packedCase rfl (runs_packed (enc := fun _ w => encodeDouble w) (fun x => runs_write (leBytes64 x) 8)
      (fun x => by simp [le64]) ht hl)

/-- The `_vec` methods never fail before they reach the key. -/
theorem packed_total {σ α : Type} {enc : ∀ σ : Type, Writer σ → α → M σ EncoderError Nat}
    (h : ∀ v, ∃ plan n, Runs (fun σ w => enc σ w v) plan n) (vs : List α) (k : Bytes → M σ EncoderError Nat) :
    ∃ data, packed (enc Bytes vecWriter) vs k = k data :=
  have h1 : ∀ v, Runs (fun σ w => enc σ w v) (h v).choose (h v).choose_spec.choose := fun v => (h v).choose_spec.choose_spec
  ⟨_, packed_eq h1 (fun _ => rfl) vs k⟩

theorem keyThen_invalid {σ : Type} (w : Writer σ) (s : σ) {tag : UInt32} (h : ¬ ValidTag tag) (typ : Typ) (m : M σ EncoderError Nat) :
    keyThen w tag typ m s = (.err .invalidTag, s) :=
  M.bind_of_err (encodeKey_invalid w s h typ)

/-- With an invalid tag nothing is written, whatever the field. -/
theorem encode_invalid {σ : Type} (w : Writer σ) (s : σ) {tag : UInt32} (h : ¬ ValidTag tag) (lit : EncoderLit) :
    Encoder.encode w tag lit s = (.err .invalidTag, s) := by
  have pk : ∀ {α : Type} {enc : ∀ σ : Type, Writer σ → α → M σ EncoderError Nat}
      (_ : ∀ v, ∃ plan n, Runs (fun σ w => enc σ w v) plan n) (vs : List α),
      packed (enc Bytes vecWriter) vs (Encoder.bytes w tag) s = (.err .invalidTag, s) := by
    intro α enc h1 vs
    obtain ⟨data, e⟩ := packed_total (σ := σ) h1 vs (Encoder.bytes w tag)
    rw [e]
    exact keyThen_invalid w s h _ _
  cases lit with
  | bytes | bool | int32 | int64 | uint32 | uint64 | sint32 | sint64 | fixed32 | fixed64 | sfixed32 | sfixed64 | float | double =>
    exact keyThen_invalid w s h _ _
  | boolVec vs => exact pk (enc := fun _ w => encodeBool w) (fun v => ⟨_, _, runs_varint _⟩) vs
  | int32Vec vs => exact pk (enc := fun _ w => encodeInt32 w) (fun v => ⟨_, _, runs_varint _⟩) vs
  | int64Vec vs => exact pk (enc := fun _ w => encodeInt64 w) (fun v => ⟨_, _, runs_varint _⟩) vs
  | uint32Vec vs => exact pk (enc := fun _ w => encodeUint32 w) (fun v => ⟨_, _, runs_varint _⟩) vs
  | uint64Vec vs => exact pk (enc := fun _ w => encodeUint64 w) (fun v => ⟨_, _, runs_varint _⟩) vs
  | sint32Vec vs => exact pk (enc := fun _ w => encodeSint32 w) (fun v => ⟨_, _, runs_varint _⟩) vs
  | sint64Vec vs => exact pk (enc := fun _ w => encodeSint64 w) (fun v => ⟨_, _, runs_varint _⟩) vs
  | fixed32Vec vs => exact pk (enc := fun _ w => encodeFixed32 w) (fun v => ⟨_, _, runs_write _ _⟩) vs
  | fixed64Vec vs => exact pk (enc := fun _ w => encodeFixed64 w) (fun v => ⟨_, _, runs_write _ _⟩) vs
  | sfixed32Vec vs => exact pk (enc := fun _ w => encodeSfixed32 w) (fun v => ⟨_, _, runs_write _ _⟩) vs
  | sfixed64Vec vs => exact pk (enc := fun _ w => encodeSfixed64 w) (fun v => ⟨_, _, runs_write _ _⟩) vs
  | floatVec vs => exact pk (enc := fun _ w => encodeFloat w) (fun v => ⟨_, _, runs_write _ _⟩) vs
  | doubleVec vs => exact pk (enc := fun _ w => encodeDouble w) (fun v => ⟨_, _, runs_write _ _⟩) vs

/-! ### The specified varints -/

theorem varint_isCont (n : Nat) : IsCont (varint n) := by
  induction n using Nat.strongRecOn with
  | _ n ih =>
    by_cases h : n < 128
    · rw [varint_lt h]
      show (UInt8.ofNat n).toNat < 128
      rw [UInt8.toNat_ofNat']; omega
    · rw [varint_ge h]
      have := ih (n / 128) (by omega)
      rw [Hpack.isCont_cons this.ne_nil]
      refine ⟨?_, this⟩
      rw [UInt8.toNat_ofNat']; omega

theorem varint_contVal (n : Nat) : contVal (varint n) = n := by
  induction n using Nat.strongRecOn with
  | _ n ih =>
    by_cases h : n < 128
    · rw [varint_lt h]
      simp only [contVal, UInt8.toNat_ofNat']; omega
    · rw [varint_ge h]
      simp only [contVal, ih (n / 128) (by omega), UInt8.toNat_ofNat']; omega

theorem varint_length_le (n k : Nat) (hk : 1 ≤ k) : (varint n).length ≤ k ↔ n < 128 ^ k := by
  induction n using Nat.strongRecOn generalizing k with
  | _ n ih =>
    have h1 : 128 ^ 1 ≤ 128 ^ k := Nat.pow_le_pow_right (by decide) hk
    by_cases h : n < 128
    · rw [varint_lt h]
      simp only [List.length_singleton]; omega
    · rw [varint_ge h, List.length_cons]
      have hp := (varint_isCont (n / 128)).pos
      rcases Nat.lt_or_ge 1 k with hk1 | hk1
      · obtain ⟨j, rfl⟩ : ∃ j, k = j + 1 := ⟨k - 1, by omega⟩
        have := ih (n / 128) (by omega) j (by omega)
        rw [Nat.add_le_add_iff_right, this, Nat.pow_succ, Nat.div_lt_iff_lt_mul (by decide)]
      · obtain rfl : k = 1 := by omega
        simp only [Nat.pow_one]
        omega

theorem varint_wire (chk : Bool) {n : Nat} (h : n < 2 ^ 64) : VarintWire chk (varint n) n := by
  have hl : (varint n).length ≤ 10 := (varint_length_le n 10 (by decide)).mpr (Nat.lt_trans h (by decide))
  exact ⟨varint_isCont n, fun _ => by rw [varint_contVal, Nat.mod_eq_of_lt h], fun h => by omega⟩
