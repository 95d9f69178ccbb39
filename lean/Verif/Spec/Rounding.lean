/-! What IEEE 754 promises of the result of one operation: the exact result is replaced by `rnd` of it. -/
namespace Verif.Spec

/-- `rnd` is a rounding to a binary format with `p` bits of precision: it respects the order, and leaves alone every number
which the format has, here those `m / 2 ^ k` with `|m| ≤ 2 ^ p` and `k ≤ 100`. All rounding modes of IEEE 754 have these two
properties; `p` is 24 for `f32` and 53 for `f64`. (Ranges of exponents do not matter here: `2 ^ -100 .. 2 ^ 100` is well within both.) -/
structure Rounding (p : Nat) (rnd : Rat → Rat) : Prop where
  mono : ∀ {a b : Rat}, a ≤ b → rnd a ≤ rnd b
  exact : ∀ (m : Int) (k : Nat), m.natAbs ≤ 2 ^ p → k ≤ 100 → rnd (m / ((2 ^ k : Nat) : Rat)) = m / ((2 ^ k : Nat) : Rat)

end Verif.Spec
