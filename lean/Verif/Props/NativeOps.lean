import Verif.Huffman.Native
import Verif.Hpack.NativeCodec
/-! C105, the arithmetic it is about: the operations of the model with build profiles are those of machine integers.

Lean's `UInt64` and `UInt32` wrap around and take shift amounts modulo the width, as Rust does without overflow checks. -/
namespace Verif.Props
open Verif Verif.Huffman

/-- C105. Release builds, 64 bits: the operations are those of machine integers. -/
theorem C105_release_ops_64 {σ ε : Type} (a b : UInt64) :
    (addOn false 64 a.toNat b.toNat : M σ ε Nat) = pure (a + b).toNat ∧
    (subOn false 64 a.toNat b.toNat : M σ ε Nat) = pure (a - b).toNat ∧
    (mulOn false 64 a.toNat b.toNat : M σ ε Nat) = pure (a * b).toNat ∧
    (shlOn false 64 a.toNat b.toNat : M σ ε Nat) = pure (a <<< b).toNat ∧
    (shrOn false 64 a.toNat b.toNat : M σ ε Nat) = pure (a >>> b).toNat := by
  have ha := a.toNat_lt
  have hb := b.toNat_lt
  refine ⟨?_, ?_, ?_, ?_, ?_⟩
  · rw [addOn, UInt64.toNat_add]
    split
    · rename_i h; rw [Nat.mod_eq_of_lt h]
    · rfl
  · rw [subOn, UInt64.toNat_sub]
    split
    · rename_i h
      congr 1; omega
    · rename_i h
      simp only [Bool.false_eq_true, if_false]
      congr 1; omega
  · rw [mulOn, UInt64.toNat_mul]
    split
    · rename_i h; rw [Nat.mod_eq_of_lt h]
    · rfl
  · rw [shlOn, UInt64.toNat_shiftLeft, Nat.shiftLeft_eq]
    split
    · rename_i h; rw [Nat.mod_eq_of_lt h]
    · rfl
  · rw [shrOn, UInt64.toNat_shiftRight, Nat.shiftRight_eq_div_pow]
    split
    · rename_i h; rw [Nat.mod_eq_of_lt h]
    · rfl

/-- C105. Release builds, 32 bits. -/
theorem C105_release_ops_32 {σ ε : Type} (a b : UInt32) :
    (addOn false 32 a.toNat b.toNat : M σ ε Nat) = pure (a + b).toNat ∧
    (subOn false 32 a.toNat b.toNat : M σ ε Nat) = pure (a - b).toNat ∧
    (mulOn false 32 a.toNat b.toNat : M σ ε Nat) = pure (a * b).toNat ∧
    (shlOn false 32 a.toNat b.toNat : M σ ε Nat) = pure (a <<< b).toNat ∧
    (shrOn false 32 a.toNat b.toNat : M σ ε Nat) = pure (a >>> b).toNat := by
  have ha := a.toNat_lt
  have hb := b.toNat_lt
  refine ⟨?_, ?_, ?_, ?_, ?_⟩
  · rw [addOn, UInt32.toNat_add]
    split
    · rename_i h; rw [Nat.mod_eq_of_lt h]
    · rfl
  · rw [subOn, UInt32.toNat_sub]
    split
    · rename_i h
      congr 1; omega
    · rename_i h
      simp only [Bool.false_eq_true, if_false]
      congr 1; omega
  · rw [mulOn, UInt32.toNat_mul]
    split
    · rename_i h; rw [Nat.mod_eq_of_lt h]
    · rfl
  · rw [shlOn, UInt32.toNat_shiftLeft, Nat.shiftLeft_eq]
    split
    · rename_i h; rw [Nat.mod_eq_of_lt h]
    · rfl
  · rw [shrOn, UInt32.toNat_shiftRight, Nat.shiftRight_eq_div_pow]
    split
    · rename_i h; rw [Nat.mod_eq_of_lt h]
    · rfl

/-- C105. Debug builds: an addition, subtraction or multiplication whose true result is not a number of the type panics, and so does a shift by the
width or more; otherwise the true result is returned (of a left shift what fits into the type). -/
theorem C105_debug_ops {σ ε : Type} (w a b : Nat) :
    (addOn true w a b : M σ ε Nat) = (if a + b < 2 ^ w then pure (a + b) else M.panic) ∧
    (subOn true w a b : M σ ε Nat) = (if b ≤ a then pure (a - b) else M.panic) ∧
    (mulOn true w a b : M σ ε Nat) = (if a * b < 2 ^ w then pure (a * b) else M.panic) ∧
    (shlOn true w a b : M σ ε Nat) = (if b < w then pure (a * 2 ^ b % 2 ^ w) else M.panic) ∧
    (shrOn true w a b : M σ ε Nat) = (if b < w then pure (a / 2 ^ b) else M.panic) := by
  refine ⟨?_, ?_, ?_, ?_, ?_⟩ <;> rfl

/-- C105. The additions to `total` in the HPACK decoder, 64 bits. -/
theorem C105_hpack_total_ops {ε : Type} (a b : UInt64) :
    Hpack.addOn false 64 (ε := ε) a.toNat b.toNat = .ok (a + b).toNat ∧
    Hpack.addOn true 64 (ε := ε) a.toNat b.toNat = (if a.toNat + b.toNat < 2 ^ 64 then .ok (a.toNat + b.toNat) else .panic) := by
  constructor
  · rw [Hpack.addOn, UInt64.toNat_add]
    rfl
  · rw [Hpack.addOn]
    by_cases h : a.toNat + b.toNat < 2 ^ 64
    · rw [if_neg (fun c => absurd c.2 (by omega)), if_pos h, Nat.mod_eq_of_lt h]
    · rw [if_pos ⟨rfl, by omega⟩, if_neg h]

example : (addOn false 64 (2 ^ 64 - 1) 2 : M Unit Unit Nat) () = (.ok 1, ()) := by decide +kernel
example : (shlOn false 32 1 33 : M Unit Unit Nat) () = (.ok 2, ()) := by decide +kernel
example : (shlOn true 32 1 33 : M Unit Unit Nat) () = (.panic, ()) := by decide +kernel

end Verif.Props
