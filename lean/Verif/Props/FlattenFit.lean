import Verif.Props.FlattenTotal
/-! C12, continued: which codes are within the limits of `flatten`, and what happens to the others. -/
namespace Verif.Props
open Verif Verif.Huffman Verif.Spec Verif.Spec.Matrix

/-- C12. Which codes fit: at 1, 2 and 4 bits at a time all of up to 32 bits; at 3 and at 5 bits at a time all of up to 30
bits, and longer ones if enough of their leading bits are zeros. (`c.2 < 2 ^ 32`: the values are `u32`.) -/
theorem C12_fits_exactly (c : Nat × Nat) (hv : c.2 < 2 ^ c.1) (hu : c.2 < 2 ^ 32) :
    (Fits32 1 c ↔ c.1 ≤ 32) ∧ (Fits32 2 c ↔ c.1 ≤ 32) ∧ (Fits32 4 c ↔ c.1 ≤ 32) ∧
    (Fits32 3 c ↔ c.1 ≤ 30 ∨ (c.1 = 31 ∧ c.2 < 2 ^ 30) ∨ (c.1 = 32 ∧ c.2 < 2 ^ 31) ∨ c.1 = 33) ∧
    (Fits32 5 c ↔ c.1 ≤ 30 ∨ (c.1 ≤ 35 ∧ c.2 < 2 ^ (c.1 - 3))) := by
  have small : ∀ s, 0 < s → c.1 ≤ filled s c.1 → filled s c.1 ≤ 32 → Fits32 s c := by
    intro s h0 h1 h2
    refine ⟨by omega, ?_⟩
    calc c.2 * 2 ^ (filled s c.1 - c.1) < 2 ^ c.1 * 2 ^ (filled s c.1 - c.1) := Nat.mul_lt_mul_of_pos_right hv (Nat.two_pow_pos _)
      _ = 2 ^ filled s c.1 := by rw [← Nat.pow_add]; congr 1; omega
      _ ≤ 2 ^ 32 := Nat.pow_le_pow_right (by decide) h2
  have big : ∀ s k, filled s c.1 - c.1 = k → filled s c.1 < 32 + s → k ≤ 32 → (Fits32 s c ↔ c.2 < 2 ^ (32 - k)) := by
    intro s k hk h1 h2
    unfold Fits32
    rw [hk, show 2 ^ 32 = 2 ^ (32 - k) * 2 ^ k by rw [← Nat.pow_add]; congr 1; omega]
    exact ⟨fun h => Nat.lt_of_mul_lt_mul_right h.2, fun h => ⟨h1, Nat.mul_lt_mul_of_pos_right h (Nat.two_pow_pos _)⟩⟩
  refine ⟨⟨fun h => ?_, fun h => small 1 (by decide) ?_ ?_⟩, ⟨fun h => ?_, fun h => small 2 (by decide) ?_ ?_⟩,
    ⟨fun h => ?_, fun h => small 4 (by decide) ?_ ?_⟩, ?_, ?_⟩
  · have := h.1; unfold filled at this; omega
  · unfold filled; omega
  · unfold filled; omega
  · have := h.1; unfold filled at this; omega
  · unfold filled; omega
  · unfold filled; omega
  · have := h.1; unfold filled at this; omega
  · unfold filled; omega
  · unfold filled; omega
  · by_cases h30 : c.1 ≤ 30
    · exact ⟨fun _ => .inl h30, fun _ => small 3 (by decide) (by unfold filled; omega) (by unfold filled; omega)⟩
    by_cases h31 : c.1 = 31
    · rw [big 3 2 (by unfold filled; omega) (by unfold filled; omega) (by decide)]; omega
    by_cases h32 : c.1 = 32
    · rw [big 3 1 (by unfold filled; omega) (by unfold filled; omega) (by decide)]; omega
    by_cases h33 : c.1 = 33
    · rw [big 3 0 (by unfold filled; omega) (by unfold filled; omega) (by decide)]; omega
    refine ⟨fun h => ?_, fun h => by omega⟩
    have := h.1; unfold filled at this; omega
  · by_cases h30 : c.1 ≤ 30
    · exact ⟨fun _ => .inl h30, fun _ => small 5 (by decide) (by unfold filled; omega) (by unfold filled; omega)⟩
    by_cases h35 : c.1 ≤ 35
    · rw [big 5 (35 - c.1) (by unfold filled; omega) (by unfold filled; omega) (by omega), show 32 - (35 - c.1) = c.1 - 3 by omega]
      exact ⟨fun h => .inr ⟨h35, h⟩, fun h => by rcases h with h | h; omega; exact h.2⟩
    refine ⟨fun h => ?_, fun h => by omega⟩
    have := h.1; unfold filled at this; omega

/-- The bits of a value that `flatten` looks at. -/
def seenBits (s : Nat) (c : Nat × Nat) : Nat × Nat := (c.1, c.2 % 2 ^ (32 - (filled s c.1 - c.1)))

theorem codingPaths_seen {s : Nat} (hs : 0 < s) (hs5 : s ≤ 5) (c : Nat × Nat) : codingPaths (seenBits s c) s = codingPaths c s := by
  have ⟨b1, b2⟩ := ceilDiv_bounds (L := c.1) hs
  have e : c.2 % 2 ^ (32 - (filled s c.1 - c.1)) * 2 ^ (ceilDiv c.1 s * s - c.1) % 2 ^ 32 = c.2 * 2 ^ (ceilDiv c.1 s * s - c.1) % 2 ^ 32 := by
    show c.2 % 2 ^ (32 - (ceilDiv c.1 s * s - c.1)) * 2 ^ (ceilDiv c.1 s * s - c.1) % 2 ^ 32 = _
    generalize hl : ceilDiv c.1 s * s - c.1 = l
    have : l ≤ 32 := by omega
    conv => lhs; rw [show 2 ^ 32 = 2 ^ (32 - l) * 2 ^ l by rw [← Nat.pow_add]; congr 1; omega]
    conv => rhs; rw [show 2 ^ 32 = 2 ^ (32 - l) * 2 ^ l by rw [← Nat.pow_add]; congr 1; omega]
    rw [Nat.mul_mod_mul_right, Nat.mul_mod_mul_right, Nat.mod_mod]
  unfold codingPaths seenBits
  simp only [e]

/-- C12. The other bits are dropped without any sign of it, whatever the codes: only the low `32 - l` bits of a value count,
`l` being the number of bits missing in the last chunk. -/
theorem C12_lost_bits (codes : List (Nat × Nat)) (speed : Speed) :
    flatten codes speed = flatten (codes.map (seenBits speed.toNat)) speed := by
  have hs : 0 < speed.toNat := by cases speed <;> decide
  have hs5 : speed.toNat ≤ 5 := by cases speed <;> decide
  have hc : ∀ t a c, flattenCode speed.toNat t a (seenBits speed.toNat c) = flattenCode speed.toNat t a c := by
    intro t a c
    unfold flattenCode
    simp only [codingPaths_seen hs hs5]
    rfl
  have hl : ∀ (todo : List (Nat × Nat)) t n, flattenLoop speed.toNat t n (todo.map (seenBits speed.toNat)) = flattenLoop speed.toNat t n todo := by
    intro todo
    induction todo with
    | nil => intro t n; rfl
    | cons c cs ih =>
      intro t n
      rw [List.map_cons]
      unfold flattenLoop
      rw [hc]
      congr 1; funext t'; exact ih t' (n + 1)
  exact (hl codes _ 0).symm

/-- C12. So the limit is real: two codes of 31 bits that differ only in the first bit are entered at the same place. Walking the
code of symbol 1 at three bits at a time does not find it, walking that of symbol 0 finds symbol 1. -/
theorem C12_lost_bit_mixes_up : ∃ codes t, codes = [(31, 5), (31, 2 ^ 30 + 5)] ∧ PrefixFree codes ∧ flatten codes .ThreeBits = .ok t ∧ t.length ≤ 256 ∧
    (∃ keys key c next, codes[0]? = some c ∧ chunkBits 3 (keys ++ [key]) = codeBits c ++ [false, false] ∧
      visit t keys key = some (next, some 1, 2)) ∧
    (∃ keys key c, codes[1]? = some c ∧ chunkBits 3 (keys ++ [key]) = codeBits c ++ [false, false] ∧ visit t keys key = none) := by
  refine ⟨_, (match flatten [(31, 5), (31, 2 ^ 30 + 5)] .ThreeBits with | .ok t => t | _ => []), rfl, ?_, by decide +kernel, by decide +kernel,
    ⟨[0, 0, 0, 0, 0, 0, 0, 0, 0, 2], 4, (31, 5), none, rfl, by decide +kernel, by decide +kernel⟩,
    ⟨[4, 0, 0, 0, 0, 0, 0, 0, 0, 2], 4, (31, 2 ^ 30 + 5), rfl, by decide +kernel, by decide +kernel⟩⟩
  intro a b ca cb r ha hb e
  have hr : r = [] := by
    have h2 : ∀ (n : Nat) (c : Nat × Nat), [(31, 5), (31, 2 ^ 30 + 5)][n]? = some c → c.1 = 31 := by
      intro n c h
      rcases List.mem_of_getElem? h with _ | ⟨_, h⟩
      · rfl
      · cases h with
        | head => rfl
        | tail _ h => cases h
    have := congrArg List.length e
    rw [List.length_append, codeBits, codeBits, natBits_length, natBits_length, h2 a ca ha, h2 b cb hb] at this
    exact List.eq_nil_of_length_eq_zero (by omega)
  subst hr
  rw [List.append_nil] at e
  match a, b, ha, hb with
  | 0, 0, _, _ => rfl
  | 1, 1, _, _ => rfl
  | 0, 1, ha, hb => cases ha; cases hb; exact absurd e (by decide +kernel)
  | 1, 0, ha, hb => cases ha; cases hb; exact absurd e (by decide +kernel)
  | n + 2, _, ha, _ => simp at ha
  | _, n + 2, _, hb => simp at hb

/-! Codes of 32 bits are fine at four bits at a time. -/
example : WellFormedAt 4 [(1, 0), (32, 2 ^ 31), (32, 2 ^ 32 - 1)] := by
  intro c hc
  simp only [List.mem_cons, List.not_mem_nil, or_false] at hc
  rcases hc with rfl | rfl | rfl <;> exact ⟨by decide, by unfold Fits32; decide, by decide⟩

end Verif.Props
