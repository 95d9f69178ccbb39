import Verif.Huffman.Float
import Verif.Spec.Rounding
import Verif.Lemmas.HuffFlatten
import Verif.Lemmas.HuffPad
/-! Property theorems C84: floating point rounding never shows in the results of the Huffman crate. -/
namespace Verif.Props
open Verif Verif.Huffman Verif.Spec

theorem div_one (n : Rat) : n / ((1 : Nat) : Rat) = n := by
  have h := Rat.div_mul_cancel (a := n) (b := ((1 : Nat) : Rat)) (by decide)
  have e : ((1 : Nat) : Rat) = 1 := by decide
  rw [e] at h ⊢
  rwa [Rat.mul_one] at h

theorem rnd_nat {p : Nat} {rnd : Rat → Rat} (h : Rounding p rnd) {n : Nat} (hn : n ≤ 2 ^ p) : rnd (n : Rat) = n := by
  have := h.exact (n : Int) 0 (by simpa using hn) (by omega)
  have e : ((n : Int) : Rat) / ((2 ^ 0 : Nat) : Rat) = (n : Rat) := by
    rw [Rat.intCast_natCast, Nat.pow_zero, div_one]
  rwa [e] at this

theorem div_le_div {a b c d : Nat} (hb : 0 < b) (hd : 0 < d) (h : a * d ≤ c * b) : (a : Rat) / b ≤ (c : Rat) / d := by
  have hb' : (0 : Rat) < b := Rat.natCast_pos.mpr hb
  have hd' : (0 : Rat) < d := Rat.natCast_pos.mpr hd
  rw [← Rat.not_lt]
  intro hlt
  rw [Rat.lt_div_iff hb'] at hlt
  have h2 : ((c : Rat) / d * b) * d < a * d := (Rat.mul_lt_mul_right hd').mpr hlt
  rw [Rat.mul_assoc, Rat.mul_comm (b : Rat), ← Rat.mul_assoc, Rat.div_mul_cancel (by exact_mod_cast (Nat.ne_of_gt hd))] at h2
  have h3 : c * b < a * d := by exact_mod_cast h2
  omega

/-- C84. The quotient rounded up is the exact one, for every rounding mode: `x` of at most `p - 3` bits, `s` from 1 to 8. -/
theorem C84_ceil {p : Nat} {rnd : Rat → Rat} (h : Rounding p rnd) (hp : 3 ≤ p) {x s : Nat} (hx : x ≤ 2 ^ (p - 3)) (hs1 : 1 ≤ s) (hs : s ≤ 8) :
    ceilFloat rnd x s = (x + s - 1) / s := by
  have hpow : 2 ^ p = 8 * 2 ^ (p - 3) := by
    rw [show (8 : Nat) = 2 ^ 3 by rfl, ← Nat.pow_add]; congr 1; omega
  have hpos := Nat.two_pow_pos (p - 3)
  obtain ⟨b1, b2⟩ := ceilDiv_bounds (L := x) (s := s) (by omega)
  have hdef : ceilDiv x s = (x + s - 1) / s := rfl
  rw [← hdef]
  generalize ceilDiv x s = n at b1 b2
  have hnx : n ≤ x := by
    rcases Nat.eq_zero_or_pos n with h0 | h0
    · omega
    · have hm : (n - 1) * s + s = n * s := by rw [← Nat.succ_mul]; congr 1; omega
      have : (n - 1) * 1 ≤ (n - 1) * s := Nat.mul_le_mul_left _ hs1
      omega
  unfold ceilFloat
  rw [rnd_nat h (n := x) (by omega), rnd_nat h (n := s) (by omega)]
  have up : rnd ((x : Rat) / s) ≤ ((n : Int) : Rat) := by
    have := h.mono (div_le_div (a := x) (b := s) (c := n) (d := 1) (by omega) (by omega) (by omega))
    rw [div_one, rnd_nat h (n := n) (by omega)] at this
    rwa [Rat.intCast_natCast]
  have hup := Rat.ceil_le_iff.mpr up
  rcases Nat.eq_zero_or_pos n with h0 | h0
  · subst h0; omega
  · have hm : (n - 1) * s + s = n * s := by rw [← Nat.succ_mul]; congr 1; omega
    have h8 : (8 * (n - 1) + 1) * s ≤ x * 8 := by
      have : (8 * (n - 1) + 1) * s = 8 * ((n - 1) * s) + s := by rw [Nat.succ_mul, Nat.mul_assoc]
      omega
    have lo := h.mono (div_le_div (a := 8 * (n - 1) + 1) (b := 8) (c := x) (d := s) (by omega) (by omega) h8)
    have he := h.exact ((8 * (n - 1) + 1 : Nat) : Int) 3 (by rw [Int.natAbs_natCast]; omega) (by omega)
    rw [Rat.intCast_natCast] at he
    rw [show (2 ^ 3 : Nat) = 8 by rfl] at he
    rw [he] at lo
    have hlt : (((n - 1 : Nat) : Int) : Rat) < rnd ((x : Rat) / s) := by
      refine Std.lt_of_lt_of_le ?_ lo
      rw [Rat.intCast_natCast, Rat.lt_div_iff (by exact_mod_cast (by omega : 0 < 8))]
      have : (n - 1) * 8 < 8 * (n - 1) + 1 := by omega
      exact_mod_cast this
    have := Rat.lt_ceil_iff.mpr hlt
    omega

/-- C84. The decoder with the `f64` division of the code gives the result of the decoder with exact division. -/
theorem C84_decode {rnd : Rat → Rat} (h : Rounding 53 rnd) (src dst : Bytes) (speed : Speed) :
    decodeFloat rnd src dst speed = decode src dst speed := by
  have hs1 : 1 ≤ speed.toNat := by cases speed <;> simp [Speed.toNat]
  have hs : speed.toNat ≤ 5 := by cases speed <;> simp [Speed.toNat]
  have key : (do readLoop src; finalizeFloat rnd : M Reader DecErr Unit) (Reader.new speed.toNat dst) =
      (do readLoop src; finalize : M Reader DecErr Unit) (Reader.new speed.toNat dst) := by
    rw [M.bind_apply, M.bind_apply]
    obtain ⟨path, ht⟩ := speed_tableOk speed
    have h0 : RInv speed.toNat (tableOf speed.toNat) path dst (Reader.new speed.toNat dst) [] [] [] :=
      ⟨rfl, ht.rows, ht.path0, rfl, rfl, rfl, by simp [Reader.new]⟩
    rcases readLoop_spec ht rfl hs1 hs src h0 (by simp only [List.length_nil]; omega) with
      ⟨r1, o1, p1, q1, he1, hinv1, hl1, hb1⟩ | ⟨r1, o1, q1, he1, hd1, hb1⟩
    · rw [he1]
      show finalizeFloat rnd r1 = finalize r1
      have hc : ceilFloat rnd r1.bufSize r1.speed = (r1.bufSize + r1.speed - 1) / r1.speed := by
        refine C84_ceil h (by omega) ?_ (by rw [hinv1.speed]; omega) (by rw [hinv1.speed]; omega)
        have : r1.bufSize < 5 := by rw [hinv1.bufSize]; omega
        have : (5 : Nat) ≤ 2 ^ (53 - 3) := by decide
        omega
      show (subU (ceilFloat rnd r1.bufSize r1.speed * r1.speed) r1.bufSize >>= _) r1 = _
      rw [hc]
      rfl
    · rw [he1]
  unfold decodeFloat decode
  rw [key]

/-- C84. `flatten` with the `f32` divisions of the code gives the result of `flatten` with exact division, for codes whose
lengths are given as `u8`. -/
theorem C84_flatten {rnd : Rat → Rat} (h : Rounding 24 rnd) (codings : List (Nat × Nat)) (hc : ∀ c ∈ codings, c.1 < 256) (speed : Speed) :
    flattenFloat rnd codings speed = flatten codings speed := by
  have hs1 : 1 ≤ speed.toNat := by cases speed <;> simp [Speed.toNat]
  have hs : speed.toNat ≤ 5 := by cases speed <;> simp [Speed.toNat]
  have hceil : ∀ c ∈ codings, ceilFloat rnd c.1 speed.toNat = ceilDiv c.1 speed.toNat := fun c hm => by
    refine C84_ceil h (by omega) ?_ hs1 (by omega)
    have := hc c hm
    have : (256 : Nat) ≤ 2 ^ (24 - 3) := by decide
    omega
  have hloop : ∀ (cs : List (Nat × Nat)) (t : List (List Cell)) (a : Nat), (∀ c ∈ cs, ceilFloat rnd c.1 speed.toNat = ceilDiv c.1 speed.toNat) →
      flattenLoopFloat rnd speed.toNat t a cs = flattenLoop speed.toNat t a cs := by
    intro cs
    induction cs with
    | nil => intro t a _; rfl
    | cons c cs ih =>
      intro t a hcs
      have hcode : flattenCodeFloat rnd speed.toNat t a c = flattenCode speed.toNat t a c := by
        have hpaths : codingPathsFloat rnd c speed.toNat = codingPaths c speed.toNat := by
          unfold codingPathsFloat codingPaths
          rw [hcs c List.mem_cons_self]
          show chunksOf _ _ _ _ >>= _ = chunksOf _ _ _ _ >>= _
          congr 1
        unfold flattenCodeFloat flattenCode
        rw [hcs c List.mem_cons_self, hpaths]
        show codingPaths _ _ >>= _ = codingPaths _ _ >>= _
        congr 1
      unfold flattenLoopFloat flattenLoop
      rw [hcode]
      congr 1
      funext t'
      exact ih t' (a + 1) fun c hm => hcs c (List.mem_cons_of_mem _ hm)
  exact hloop codings _ 0 hceil

/-- Cutting off all bits after the 100th is a rounding, for every precision. -/
theorem cut_rounding (p : Nat) : Rounding p fun q => ((q * (2 ^ 100 : Nat)).floor : Rat) / ((2 ^ 100 : Nat) : Rat) := by
  have hpos : (0 : Rat) < ((2 ^ 100 : Nat) : Rat) := by decide
  have hne : ((2 ^ 100 : Nat) : Rat) ≠ 0 := by decide
  constructor
  · intro a b hab
    rw [Rat.div_def, Rat.div_def]
    refine Rat.mul_le_mul_of_nonneg_right ?_ (Std.le_of_lt (Rat.inv_pos.mpr hpos))
    have := Rat.floor_monotone (Rat.mul_le_mul_of_nonneg_right hab (Std.le_of_lt hpos))
    exact_mod_cast this
  · intro m k _ hk
    have hk0 : ((2 ^ k : Nat) : Rat) ≠ 0 := by exact_mod_cast (Nat.ne_of_gt (Nat.two_pow_pos k))
    have e : ((2 ^ 100 : Nat) : Rat) = ((2 ^ k : Nat) : Rat) * ((2 ^ (100 - k) : Nat) : Rat) := by
      rw [← Rat.natCast_mul, ← Nat.pow_add]; congr 2; omega
    have e2 : (m : Rat) / ((2 ^ k : Nat) : Rat) * ((2 ^ 100 : Nat) : Rat) = ((m * (2 ^ (100 - k) : Nat) : Int) : Rat) := by
      rw [e, ← Rat.mul_assoc, Rat.div_mul_cancel hk0, Rat.intCast_mul, Rat.intCast_natCast]
    rw [e2, Rat.floor_intCast, ← e2, Rat.mul_div_cancel hne]

/-- With it, `o` is decoded in chunks of three bits, the last of which needs one more bit. -/
example : decodeFloat (fun q => ((q * (2 ^ 100 : Nat)).floor : Rat) / ((2 ^ 100 : Nat) : Rat)) [0x3f] [] .ThreeBits = (.ok (), [111]) := by
  rw [C84_decode (cut_rounding 53)]
  decide +kernel

/-- Two codes, `0` and `1`, read in chunks of two bits. -/
example : flattenFloat (fun q => ((q * (2 ^ 100 : Nat)).floor : Rat) / ((2 ^ 100 : Nat) : Rat)) [(1, 0), (1, 1)] .TwoBits =
    .ok [[(none, some 0, 1), (none, some 0, 1), (none, some 1, 1), (none, some 1, 1)]] := by
  rw [C84_flatten (cut_rounding 24) _ (by decide)]
  decide +kernel

end Verif.Props
