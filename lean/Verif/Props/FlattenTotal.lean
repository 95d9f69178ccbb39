import Verif.Props.Flatten
/-! C107: `flatten` on every list of codes, also on lists that are no prefix code: exactly when it panics, and the shape of the
matrix otherwise. -/
namespace Verif.Props
open Verif Verif.Huffman Verif.Spec Verif.Spec.Matrix

/-- The chunks of a code of any length that does not need a shift of 32 or more. -/
theorem codingPaths_ok {s : Nat} {c : Nat × Nat} (hs : 0 < s) (hs5 : s ≤ 5) (h1 : 1 ≤ c.1) (h : ceilDiv c.1 s * s < 32 + s) :
    ∃ init last, (∀ k ∈ init, k < 2 ^ s) ∧ init.length + 1 = ceilDiv c.1 s ∧
      codingPaths c s = .ok ((List.range (2 ^ (ceilDiv c.1 s * s - c.1))).map fun i => init ++ [last + i]) ∧
      ∀ i, i < 2 ^ (ceilDiv c.1 s * s - c.1) → last + i < 2 ^ s := by
  have ⟨b1, b2⟩ := ceilDiv_bounds (L := c.1) hs
  generalize hm : ceilDiv c.1 s = m at b1 b2 h
  generalize hleft : m * s - c.1 = left at *
  have hml : m * s = c.1 + left := by omega
  have hpos : 0 < m := by
    rcases Nat.eq_zero_or_pos m with h | h
    · subst h; simp at hml; omega
    · exact h
  have hleft_s : left ≤ s := by omega
  generalize hb : c.2 * 2 ^ left % 2 ^ 32 = bits
  have hd : 2 ^ left ∣ bits := by
    rw [← hb]
    exact (Nat.dvd_mod_iff (Nat.pow_dvd_pow 2 (by omega))).mpr (Nat.dvd_mul_left _ _)
  obtain ⟨l, e1, e2, e3, e4, e5⟩ := chunksOf_spec (bits := bits) (n := m) (s := s) (m := m) h hs
  have e5 := e5 hpos
  obtain ⟨init, hl⟩ := List.getLast?_eq_some_iff.mp e5
  generalize hlast : bits % 2 ^ s = last at *
  have hdvd : 2 ^ left ∣ last := by
    rw [← hlast]
    exact (Nat.dvd_mod_iff (Nat.pow_dvd_pow 2 hleft_s)).mpr hd
  have hlastlt : last < 2 ^ s := by rw [← hlast]; exact Nat.mod_lt _ (Nat.two_pow_pos s)
  refine ⟨init, last, fun k hk => e3 k (by rw [hl]; simp [hk]), ?_, ?_, ?_⟩
  · rw [← e2, hl]; simp
  · unfold codingPaths
    rw [hm]
    simp only [hleft, hb, e1, Res.bind_ok, e5]
    simp [hl]
  · intro i hi
    obtain ⟨x, hx⟩ := hdvd
    obtain ⟨y, hy⟩ := Nat.pow_dvd_pow 2 hleft_s
    rw [hx, hy] at hlastlt
    have : x < y := Nat.lt_of_mul_lt_mul_left hlastlt
    calc last + i < 2 ^ left * x + 2 ^ left := by omega
      _ = 2 ^ left * (x + 1) := by rw [Nat.mul_succ]
      _ ≤ 2 ^ left * y := Nat.mul_le_mul_left _ this
      _ = 2 ^ s := hy.symm

/-- A code that needs a shift of 32 or more, or is empty, panics. -/
theorem codingPaths_panic {s : Nat} {c : Nat × Nat} (hs : 0 < s) (h : c.1 = 0 ∨ 32 + s ≤ ceilDiv c.1 s * s) :
    codingPaths c s = .panic := by
  unfold codingPaths
  rcases h with h | h
  · have : ceilDiv c.1 s = 0 := by rw [h]; unfold ceilDiv; rw [Nat.zero_add]; exact Nat.div_eq_of_lt (by omega)
    simp only [this, chunksOf, Res.bind_ok, List.getLast?_nil]
  · cases hm : ceilDiv c.1 s with
    | zero => rw [hm] at h; omega
    | succ m =>
      rw [hm, Nat.succ_mul] at h
      simp only [chunksOf]
      rw [if_pos (by omega)]
      rfl

theorem walkCreate_length_le {s : Nat} {t t' : Mat} {id id' : Nat} {keys : List Nat}
    (hw : walkCreate s t id keys = .ok (t', id')) : t'.length ≤ t.length + keys.length := by
  induction keys generalizing t id with
  | nil =>
    simp only [walkCreate, Res.ok.injEq, Prod.mk.injEq] at hw
    rw [hw.1]; exact Nat.le_refl _
  | cons x xs ih =>
    unfold walkCreate at hw
    split at hw
    · cases hw
    · split at hw
      · cases hw
      · have := ih hw; simp; omega
      · have := ih hw
        simp at this ⊢; omega

/-- Entering one code of any length: no panic, if the code is not empty and no shift of 32 or more is needed. -/
theorem flattenCode_ok {s : Nat} (hs : 0 < s) (hs5 : s ≤ 5) {t : Mat} (h : Shape s t) {c : Nat × Nat} (h1 : 1 ≤ c.1)
    (h32 : ceilDiv c.1 s * s < 32 + s) (a : Nat) :
    ∃ t', flattenCode s t a c = .ok t' ∧ Shape s t' ∧ t'.length + 1 ≤ t.length + ceilDiv c.1 s := by
  obtain ⟨init, last, hi, hlen, hp, hcov⟩ := codingPaths_ok hs hs5 h1 h32
  obtain ⟨t1, id, w, sh1, hid⟩ := walkCreate_total h h.pos hi
  have hw := walkCreate_length_le w
  obtain ⟨t2, e2, sh2, l2, _⟩ := setTargets_spec (a := a % 2 ^ 16) (l := (ceilDiv c.1 s * s - c.1) % 2 ^ 8) (init := init) (f := fun i => last + i) sh1 hid
    (Nat.mod_lt _ (by decide)) (Nat.mod_lt _ (by decide)) (List.range (2 ^ (ceilDiv c.1 s * s - c.1)))
    (fun i hi' => hcov i (List.mem_range.mp hi'))
  rw [← setTargets_mod] at e2
  refine ⟨t2, ?_, sh2, by omega⟩
  unfold flattenCode
  rw [hp]
  simp only [Res.bind_ok]
  have hcons : ∃ rest, List.range (2 ^ (ceilDiv c.1 s * s - c.1)) = 0 :: rest := by
    have := Nat.two_pow_pos (ceilDiv c.1 s * s - c.1)
    rw [show 2 ^ (ceilDiv c.1 s * s - c.1) = (2 ^ (ceilDiv c.1 s * s - c.1) - 1) + 1 by omega, List.range_succ_eq_map]
    exact ⟨_, rfl⟩
  obtain ⟨rest, hr⟩ := hcons
  rw [hr] at e2 ⊢
  simp only [List.map_cons, Nat.add_zero, List.dropLast_concat, w, Res.bind_ok] at e2 ⊢
  exact e2

/-- The longest code `flatten` can read at each speed: the last multiple of the speed before a shift of 32. -/
def longestCode : Speed → Nat
  | .OneBit => 32
  | .TwoBits => 32
  | .ThreeBits => 33
  | .FourBits => 32
  | .FiveBits => 35

theorem longest_iff (speed : Speed) (n : Nat) : 32 + speed.toNat ≤ ceilDiv n speed.toNat * speed.toNat ↔ longestCode speed < n := by
  cases speed <;> simp only [longestCode, Speed.toNat, ceilDiv] <;> omega

/-- One after the other. -/
theorem flattenLoop_ok {sp : Speed} {todo : List (Nat × Nat)} (hw : ∀ c ∈ todo, 1 ≤ c.1 ∧ c.1 ≤ longestCode sp) :
    ∀ {t : Mat} (n : Nat), Shape sp.toNat t →
    ∃ t', flattenLoop sp.toNat t n todo = .ok t' ∧ Shape sp.toNat t' ∧
      t'.length ≤ t.length + (todo.map fun c => ceilDiv c.1 sp.toNat - 1).sum := by
  have hs : 0 < sp.toNat := by cases sp <;> decide
  have hs5 : sp.toNat ≤ 5 := by cases sp <;> decide
  induction todo with
  | nil => intro t n h; exact ⟨t, rfl, h, by simp⟩
  | cons c cs ih =>
    intro t n h
    obtain ⟨a1, a2⟩ := hw c (by simp)
    have := longest_iff sp c.1
    obtain ⟨t1, e1, s1, l1⟩ := flattenCode_ok hs hs5 h a1 (by omega) n
    obtain ⟨t2, e2, s2, l2⟩ := ih (fun x hx => hw x (by simp [hx])) (n + 1) s1
    refine ⟨t2, by unfold flattenLoop; rw [e1]; exact e2, s2, ?_⟩
    simp only [List.map_cons, List.sum_cons]
    omega

theorem flattenLoop_panic {sp : Speed} {todo : List (Nat × Nat)} (hw : ∃ c ∈ todo, c.1 = 0 ∨ longestCode sp < c.1) :
    ∀ {t : Mat} (n : Nat), Shape sp.toNat t → flattenLoop sp.toNat t n todo = .panic := by
  have hs : 0 < sp.toNat := by cases sp <;> decide
  have hs5 : sp.toNat ≤ 5 := by cases sp <;> decide
  induction todo with
  | nil => obtain ⟨c, hc, _⟩ := hw; cases hc
  | cons c cs ih =>
    intro t n h
    by_cases hc : c.1 = 0 ∨ longestCode sp < c.1
    · unfold flattenLoop flattenCode
      rw [codingPaths_panic hs (by rw [longest_iff]; exact hc)]
      rfl
    · have := longest_iff sp c.1
      obtain ⟨t1, e1, s1, _⟩ := flattenCode_ok hs hs5 h (c := c) (by omega) (by omega) n
      unfold flattenLoop
      rw [e1]
      refine ih ?_ (n + 1) s1
      obtain ⟨d, hd, hd'⟩ := hw
      rcases List.mem_cons.mp hd with rfl | hd
      · exact absurd hd' hc
      · exact ⟨d, hd, hd'⟩

/-- C107. With overflow checks `flatten` panics exactly when some code is empty or longer than the last multiple of the speed
before a shift of 32 bits; otherwise it returns a matrix. There is no restriction on the list: it need not be a prefix code, and
the values may have more bits than the lengths say. -/
theorem C107_panics_exactly (codes : List (Nat × Nat)) (speed : Speed) :
    (flatten codes speed = .panic ↔ ∃ c ∈ codes, c.1 = 0 ∨ longestCode speed < c.1) ∧
    ((∃ t, flatten codes speed = .ok t) ↔ ∀ c ∈ codes, 1 ≤ c.1 ∧ c.1 ≤ longestCode speed) := by
  have sh := (built_nil speed.toNat).1
  by_cases h : ∃ c ∈ codes, c.1 = 0 ∨ longestCode speed < c.1
  · have e : flatten codes speed = .panic := flattenLoop_panic h 0 sh
    refine ⟨⟨fun _ => h, fun _ => e⟩, ⟨fun ⟨t, ht⟩ => (by rw [e] at ht; cases ht), fun ha => ?_⟩⟩
    obtain ⟨c, hc, hc'⟩ := h
    have := ha c hc
    omega
  · have h' : ∀ c ∈ codes, 1 ≤ c.1 ∧ c.1 ≤ longestCode speed := by
      intro c hc
      have : ¬ (c.1 = 0 ∨ longestCode speed < c.1) := fun hh => h ⟨c, hc, hh⟩
      omega
    obtain ⟨t, e, _⟩ := flattenLoop_ok h' 0 sh
    have e : flatten codes speed = .ok t := e
    exact ⟨⟨fun hp => (by rw [e] at hp; cases hp), fun hp => absurd hp h⟩, ⟨fun _ => h', fun _ => ⟨t, e⟩⟩⟩

/-- C107. Whatever the list, a matrix returned can be walked safely: every row has a cell for every chunk, every pointer leads to a row of the
matrix; and there is at most one row more than the codes have chunks before their last one. -/
theorem C107_safe_matrix (codes : List (Nat × Nat)) (speed : Speed) (t : Mat) (h : flatten codes speed = .ok t) :
    0 < t.length ∧ (∀ row ∈ t, row.length = 2 ^ speed.toNat) ∧
    (∀ i k next cell', cell t i k = some (some next, cell') → next < t.length) ∧
    t.length ≤ 1 + (codes.map fun c => (c.1 + speed.toNat - 1) / speed.toNat - 1).sum := by
  have h' := (C107_panics_exactly codes speed).2.mp ⟨t, h⟩
  obtain ⟨t', e, sh, hl⟩ := flattenLoop_ok h' 0 (built_nil speed.toNat).1
  have e : flatten codes speed = .ok t' := e
  rw [h] at e
  cases e
  refine ⟨sh.pos, ?_, ?_, ?_⟩
  · intro row hr
    obtain ⟨i, hi, e⟩ := List.mem_iff_getElem.mp hr
    exact sh.width i row (by rw [List.getElem?_eq_getElem hi, e])
  · intro i k next cell' hc
    exact sh.inside i k next (by rw [nextOf, hc]; rfl)
  · simpa [ceilDiv] using hl

example : flatten [(2, 0), (2, 1), (33, 5)] .TwoBits = .panic := (C107_panics_exactly _ _).1.mpr ⟨(33, 5), by simp, Or.inr (by decide)⟩
example : ∃ t, flatten [(2, 0), (35, 77), (1, 1000)] .FiveBits = .ok t := (C107_panics_exactly _ _).2.mpr (by decide)
example : flatten [(0, 0)] .OneBit = .panic := by decide

end Verif.Props
