import Verif.Spec.Bits
/-! Lemmas about bit strings. -/
namespace Verif.Spec

@[simp] theorem bitsVal_nil : bitsVal [] = 0 := rfl

theorem foldl_bits (bs : List Bool) (a : Nat) :
    bs.foldl (fun acc b => 2 * acc + b.toNat) a = a * 2 ^ bs.length + bitsVal bs := by
  induction bs generalizing a with
  | nil => simp
  | cons b bs ih =>
    simp only [List.foldl_cons, List.length_cons, bitsVal]
    rw [ih, ih (2 * 0 + b.toNat), Nat.pow_succ]
    simp only [Nat.mul_zero, Nat.zero_add, Nat.add_mul]
    rw [show 2 * a * 2 ^ bs.length = a * (2 ^ bs.length * 2) by
      rw [Nat.mul_comm 2 a, Nat.mul_assoc, Nat.mul_comm 2]]
    omega

theorem bitsVal_append (xs ys : List Bool) : bitsVal (xs ++ ys) = bitsVal xs * 2 ^ ys.length + bitsVal ys := by
  rw [bitsVal, List.foldl_append, foldl_bits ys]; rfl

theorem bitsVal_cons (b : Bool) (bs : List Bool) : bitsVal (b :: bs) = b.toNat * 2 ^ bs.length + bitsVal bs := by
  have := bitsVal_append [b] bs
  simpa [bitsVal] using this

theorem bitsVal_lt (bs : List Bool) : bitsVal bs < 2 ^ bs.length := by
  induction bs with
  | nil => simp
  | cons b bs ih =>
    rw [bitsVal_cons, List.length_cons, Nat.pow_succ]
    cases b <;> simp <;> omega

@[simp] theorem natBits_length (n v : Nat) : (natBits n v).length = n := by
  induction n with
  | zero => rfl
  | succ n ih => simp [natBits, ih]

theorem testBit_toNat_eq (v n : Nat) : (v.testBit n).toNat = v / 2 ^ n % 2 := Nat.toNat_testBit v n

theorem bitsVal_natBits (n v : Nat) : bitsVal (natBits n v) = v % 2 ^ n := by
  induction n with
  | zero => simp [natBits, Nat.mod_one]
  | succ n ih =>
    rw [natBits, bitsVal_cons, ih, natBits_length, testBit_toNat_eq, Nat.pow_succ, Nat.mod_mul,
      Nat.mul_comm, Nat.add_comm]

theorem bitsVal_inj {xs ys : List Bool} (hl : xs.length = ys.length) (hv : bitsVal xs = bitsVal ys) : xs = ys := by
  induction xs generalizing ys with
  | nil => cases ys with
    | nil => rfl
    | cons _ _ => simp at hl
  | cons x xs ih =>
    cases ys with
    | nil => simp at hl
    | cons y ys =>
      simp at hl
      rw [bitsVal_cons, bitsVal_cons, hl] at hv
      have h1 := bitsVal_lt xs
      have h2 := bitsVal_lt ys
      rw [hl] at h1
      have hxy : x = y := by cases x <;> cases y <;> simp at hv ⊢ <;> omega
      subst hxy
      rw [ih hl (by omega)]

theorem natBits_bitsVal (bs : List Bool) : natBits bs.length (bitsVal bs) = bs :=
  bitsVal_inj (by simp) (by rw [bitsVal_natBits, Nat.mod_eq_of_lt (bitsVal_lt bs)])

theorem natBits_eq_iff {n v : Nat} (hv : v < 2 ^ n) (bs : List Bool) :
    natBits n v = bs ↔ bs.length = n ∧ bitsVal bs = v := by
  constructor
  · rintro rfl; simp [bitsVal_natBits, Nat.mod_eq_of_lt hv]
  · rintro ⟨rfl, rfl⟩; exact natBits_bitsVal bs

theorem natBits_append (m n a b : Nat) (hb : b < 2 ^ n) :
    natBits (m + n) (a * 2 ^ n + b) = natBits m a ++ natBits n b := by
  apply bitsVal_inj
  · simp
  · rw [bitsVal_natBits, bitsVal_append, bitsVal_natBits, bitsVal_natBits, natBits_length, Nat.mod_eq_of_lt hb,
      Nat.add_comm m n, Nat.pow_add, Nat.mod_mul]
    rw [Nat.mul_add_mod_of_lt' hb, Nat.mul_comm a, Nat.mul_add_div (Nat.two_pow_pos n), Nat.div_eq_of_lt hb]
    simp [Nat.mul_comm, Nat.add_comm]
where
  Nat.mul_add_mod_of_lt' {a n b : Nat} (hb : b < 2 ^ n) : (a * 2 ^ n + b) % 2 ^ n = b := by
    rw [Nat.mul_comm, Nat.mul_add_mod, Nat.mod_eq_of_lt hb]

/-- Splitting a numeral in high and low part. -/
theorem natBits_split (m n v : Nat) : natBits (m + n) v = natBits m (v / 2 ^ n) ++ natBits n v := by
  apply bitsVal_inj
  · simp
  · rw [bitsVal_natBits, bitsVal_append, bitsVal_natBits, bitsVal_natBits, natBits_length,
      Nat.add_comm m n, Nat.pow_add, Nat.mod_mul]
    simp [Nat.mul_comm, Nat.add_comm]

theorem natBits_inj {n a b : Nat} (ha : a < 2 ^ n) (hb : b < 2 ^ n) (h : natBits n a = natBits n b) : a = b := by
  have := congrArg bitsVal h
  rwa [bitsVal_natBits, bitsVal_natBits, Nat.mod_eq_of_lt ha, Nat.mod_eq_of_lt hb] at this

@[simp] theorem byteBits_length (b : UInt8) : (byteBits b).length = 8 := by simp [byteBits]

@[simp] theorem bytesBits_nil : bytesBits [] = [] := rfl
@[simp] theorem bytesBits_cons (b : UInt8) (bs : List UInt8) : bytesBits (b :: bs) = byteBits b ++ bytesBits bs := rfl
@[simp] theorem bytesBits_append (a b : List UInt8) : bytesBits (a ++ b) = bytesBits a ++ bytesBits b := by
  simp [bytesBits]

@[simp] theorem bytesBits_length (bs : List UInt8) : (bytesBits bs).length = 8 * bs.length := by
  induction bs with
  | nil => rfl
  | cons b bs ih => simp [ih]; omega

theorem bitsVal_byteBits (b : UInt8) : bitsVal (byteBits b) = b.toNat := by
  rw [byteBits, bitsVal_natBits, Nat.mod_eq_of_lt]
  exact b.toNat_lt

theorem byteBits_inj {a b : UInt8} (h : byteBits a = byteBits b) : a = b := by
  have := congrArg bitsVal h
  rw [bitsVal_byteBits, bitsVal_byteBits] at this
  exact UInt8.toNat_inj.mp this

theorem bytesBits_inj {a b : List UInt8} (h : bytesBits a = bytesBits b) : a = b := by
  induction a generalizing b with
  | nil =>
    have := congrArg List.length h
    simp at this
    cases b with
    | nil => rfl
    | cons _ _ => simp at this
  | cons x xs ih =>
    cases b with
    | nil => have := congrArg List.length h; simp at this
    | cons y ys =>
      simp only [bytesBits_cons] at h
      have := List.append_inj h (by simp)
      rw [byteBits_inj this.1, ih this.2]

end Verif.Spec
