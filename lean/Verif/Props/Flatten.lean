import Verif.Lemmas.HuffFlatten
import Verif.Lemmas.HuffCode
/-! C12: `flatten` is correct for every prefix code. -/
namespace Verif.Props
open Verif Verif.Huffman Verif.Spec Verif.Spec.Matrix

theorem visit_target (t : Mat) (keys : List Nat) (key a l : Nat) :
    (∃ next, visit t keys key = some (next, some a, l)) ↔ targetOf t keys key = some (a, l) := by
  unfold visit targetOf dataOf
  cases rowAt t 0 keys with
  | none => simp
  | some i =>
    simp only [Option.bind_some]
    cases cell t i key with
    | none => simp
    | some c =>
      obtain ⟨n, x, y⟩ := c
      cases x <;> simp

theorem visit_next (t : Mat) (keys : List Nat) (key : Nat) :
    (∃ next cell, visit t keys key = some (some next, cell)) ↔ (rowAt t 0 (keys ++ [key])).isSome = true := by
  rw [rowAt_snoc]
  unfold visit nextOf
  cases rowAt t 0 keys with
  | none => simp
  | some i =>
    simp only [Option.bind_some]
    cases cell t i key with
    | none => simp
    | some c =>
      obtain ⟨n, x, y⟩ := c
      cases n <;> simp

/-- C12: codes of 1 to 30 bits are within the limits of `flatten` at every speed. -/
theorem C12_thirty_bits (codes : List (Nat × Nat)) (speed : Speed) (hw : WellFormed codes) : WellFormedAt speed.toNat codes := by
  intro c hc
  obtain ⟨h1, h30, hv⟩ := hw c hc
  have hb : filled speed.toNat c.1 ≤ 32 ∧ c.1 ≤ filled speed.toNat c.1 := by
    unfold filled
    cases speed <;> simp only [Speed.toNat] <;> omega
  have hs : 0 < speed.toNat := by cases speed <;> decide
  refine ⟨h1, ⟨by omega, ?_⟩, hv⟩
  calc c.2 * 2 ^ (filled speed.toNat c.1 - c.1) < 2 ^ c.1 * 2 ^ (filled speed.toNat c.1 - c.1) := Nat.mul_lt_mul_of_pos_right hv (Nat.two_pow_pos _)
    _ = 2 ^ filled speed.toNat c.1 := by rw [← Nat.pow_add]; congr 1; omega
    _ ≤ 2 ^ 32 := Nat.pow_le_pow_right (by decide) hb.1

example : WellFormedAt 3 [(2, 0), (2, 1), (3, 4), (3, 5), (2, 3)] := C12_thirty_bits _ .ThreeBits (by unfold WellFormed; decide)

/-- C12: `flatten` returns a matrix (it never panics) for every list of codes that fit in 32 bits. -/
theorem C12_flatten_total (codes : List (Nat × Nat)) (speed : Speed) (hw : WellFormedAt speed.toNat codes) :
    ∃ t, flatten codes speed = .ok t := by
  have hs : 0 < speed.toNat := by cases speed <;> decide
  have hs5 : speed.toNat ≤ 5 := by cases speed <;> decide
  obtain ⟨t, e, _⟩ := flattenLoop_total hs hs5 (built_nil speed.toNat).1 (n := 0) hw
  exact ⟨t, e⟩

example : ∃ t, flatten [(2, 0), (2, 1), (3, 4), (3, 5), (2, 3)] .ThreeBits = .ok t :=
  C12_flatten_total _ .ThreeBits (C12_thirty_bits _ .ThreeBits (by unfold WellFormed; decide))

/-- C12: walking the matrix of a prefix code finds symbol `a` with `l` unused bits exactly when the bits walked are the code
of `a` followed by `l` bits, fewer than one chunk. -/
theorem C12_finds_symbol (codes : List (Nat × Nat)) (speed : Speed) (hw : WellFormedAt speed.toNat codes)
    (hp : PrefixFree codes) (t : Mat) (ht : flatten codes speed = .ok t) (hrows : t.length ≤ 256)
    (keys : List Nat) (key : Nat) (hk : ∀ k ∈ keys ++ [key], k < 2 ^ speed.toNat) (a l : Nat) :
    (∃ next, visit t keys key = some (next, some a, l)) ↔
      ∃ c rest, codes[a]? = some c ∧ rest.length = l ∧ l < speed.toNat ∧
        chunkBits speed.toNat (keys ++ [key]) = codeBits c ++ rest := by
  have hs : 0 < speed.toNat := by cases speed <;> decide
  have b := flatten_built hw hp ht hrows
  have hlen : ∀ c : Nat × Nat, Covers speed.toNat (keys ++ [key]) c → ∀ rest, chunkBits speed.toNat (keys ++ [key]) = codeBits c ++ rest →
      rest.length = ceilDiv c.1 speed.toNat * speed.toNat - c.1 := by
    intro c hc rest e
    have := congrArg List.length e
    rw [chunkBits_length, covers_length hs hc, List.length_append (as := codeBits c), codeBits, natBits_length] at this
    omega
  rw [visit_target, b.target]
  constructor
  · rintro ⟨c, hc, hcov, rfl⟩
    obtain ⟨_, rest, hr, e⟩ := id hcov
    have := hlen c hcov rest e
    exact ⟨c, rest, hc, this, by omega, e⟩
  · rintro ⟨c, rest, hc, rfl, hlt, e⟩
    have hcov : Covers speed.toNat (keys ++ [key]) c := ⟨hk, rest, hlt, e⟩
    exact ⟨c, hc, hcov, hlen c hcov rest e⟩

/-- C12: a cell leads to another row exactly when the bits walked are a proper prefix of some code. -/
theorem C12_continues (codes : List (Nat × Nat)) (speed : Speed) (hw : WellFormedAt speed.toNat codes)
    (hp : PrefixFree codes) (t : Mat) (ht : flatten codes speed = .ok t) (hrows : t.length ≤ 256)
    (keys : List Nat) (key : Nat) (hk : ∀ k ∈ keys ++ [key], k < 2 ^ speed.toNat) :
    (∃ next cell, visit t keys key = some (some next, cell)) ↔
      ∃ c ∈ codes, ∃ rest, rest ≠ [] ∧ codeBits c = chunkBits speed.toNat (keys ++ [key]) ++ rest := by
  have hs : 0 < speed.toNat := by cases speed <;> decide
  have hs5 : speed.toNat ≤ 5 := by cases speed <;> decide
  have b := flatten_built hw hp ht hrows
  rw [visit_next, b.rows]
  constructor
  · rintro (h | ⟨c, hc, r, k, _, suf, hsuf, e⟩)
    · simp at h
    · refine ⟨c, hc, ?_⟩
      rw [List.append_assoc, chunkBits_append] at e
      have h1 := congrArg List.length e
      rw [List.length_append, chunkBits_length (ks := r ++ [k])] at h1
      have h2 : (r ++ [k]).length * speed.toNat = r.length * speed.toNat + speed.toNat := by simp [Nat.succ_mul]
      rw [List.length_append (as := codeBits c)] at h1
      rcases List.append_eq_append_iff.mp e with ⟨x, h3, h4⟩ | ⟨x, h3, h4⟩
      · refine ⟨x, ?_, h3⟩
        rintro rfl
        rw [List.append_nil] at h3
        rw [h3] at h1; omega
      · exfalso
        have := congrArg List.length h3
        rw [List.length_append] at this; omega
  · rintro ⟨c, hc, rest, hr, e⟩
    obtain ⟨a1, a2, a3⟩ := hw c hc
    obtain ⟨init, last, hinit, _, hcov⟩ := codingPaths_spec hs hs5 a1 a2 a3
    have hcv := (hcov init last).mpr ⟨rfl, 0, Nat.two_pow_pos _, by simp⟩
    have hall := hcv.1
    obtain ⟨_, suf, hsuf, e2⟩ := id hcv
    have hlen := congrArg List.length e
    rw [List.length_append, chunkBits_length] at hlen
    have hpos : 0 < rest.length := List.length_pos_iff.mpr hr
    have hlen2 := congrArg List.length e2
    rw [chunkBits_length, List.length_append (as := codeBits c), List.length_append (as := init), List.length_singleton, Nat.succ_mul] at hlen2
    -- the walked chunks are the first chunks of `init`
    have hle : (keys ++ [key]).length ≤ init.length := by
      have : (keys ++ [key]).length * speed.toNat < (init.length + 1) * speed.toNat := by rw [Nat.succ_mul]; omega
      have := Nat.lt_of_mul_lt_mul_right this
      omega
    have htake : init.take (keys ++ [key]).length = keys ++ [key] := by
      apply chunkBits_inj (s := speed.toNat)
      · rw [List.length_take]; omega
      · intro k hk'; exact hinit k (List.mem_of_mem_take hk')
      · exact hk
      · have e3 : chunkBits speed.toNat (init.take (keys ++ [key]).length) ++
            chunkBits speed.toNat (init.drop (keys ++ [key]).length ++ [last]) =
            chunkBits speed.toNat (keys ++ [key]) ++ (rest ++ suf) := by
          rw [← chunkBits_append, ← List.append_assoc, List.take_append_drop, e2, e, List.append_assoc]
        exact (List.append_inj e3 (by rw [chunkBits_length, chunkBits_length, List.length_take]; congr 1; omega)).1
    refine .inr ⟨c, hc, init.drop (keys ++ [key]).length, last, ?_⟩
    rw [← htake, List.length_take, Nat.min_eq_left (by omega), List.take_append_drop]
    exact hcv

/-- C12: no cell of the matrix of a prefix code both yields a symbol and leads on. -/
theorem C12_never_both (codes : List (Nat × Nat)) (speed : Speed) (hw : WellFormedAt speed.toNat codes)
    (hp : PrefixFree codes) (t : Mat) (ht : flatten codes speed = .ok t) (hrows : t.length ≤ 256)
    (keys : List Nat) (key : Nat) (hk : ∀ k ∈ keys ++ [key], k < 2 ^ speed.toNat) (next a l : Nat) :
    visit t keys key ≠ some (some next, some a, l) := by
  intro h
  obtain ⟨c, r, hc, _, _, e⟩ := (C12_finds_symbol codes speed hw hp t ht hrows keys key hk a l).mp ⟨_, h⟩
  obtain ⟨c', hc', r', hr', e'⟩ := (C12_continues codes speed hw hp t ht hrows keys key hk).mp ⟨_, _, h⟩
  obtain ⟨b, hb⟩ := List.getElem?_of_mem hc'
  rw [e, List.append_assoc] at e'
  have := hp a b c c' _ hc hb e'
  subst this
  rw [hc] at hb; cases hb
  have := congrArg List.length e'
  rw [List.length_append, List.length_append] at this
  have : 0 < r'.length := List.length_pos_iff.mpr hr'
  omega

instance (codes : List (Nat × Nat)) : Decidable (WellFormed codes) := by unfold WellFormed; infer_instance

/-- Prefix-freeness by a Boolean check of the code tree. -/
theorem prefixFree_of_check {codes : List (Nat × Nat)} (h : prefixFreeB 30 (codes.map codeBits) = true) : PrefixFree codes := by
  have hp := prefixFreeB_pairwise h
  rw [List.pairwise_map, List.pairwise_iff_getElem] at hp
  intro a b ca cb r ha hb e
  obtain ⟨la, rfl⟩ := List.getElem?_eq_some_iff.mp ha
  obtain ⟨lb, rfl⟩ := List.getElem?_eq_some_iff.mp hb
  rcases Nat.lt_trichotomy a b with hab | hab | hab
  · exact absurd ⟨r, e⟩ (hp a b la lb hab).1
  · exact hab
  · exact absurd ⟨r, e⟩ (hp b a lb la hab).2

/-- Eleven 30-bit codes that need more than 256 one-bit rows. -/
def bigCode : List (Nat × Nat) :=
  [(30, 206200431), (30, 671088639), (30, 769511731), (30, 872415231), (30, 671088640), (30, 536870912), (30, 1073741823),
   (30, 335544319), (30, 896619393), (30, 176607976), (30, 335544320)]

/-- Evaluation of the generator on `bigCode`. -/
def bigCheck (r : Res Unit Mat) : Bool :=
  match r with
  | .ok t => decide (256 < t.length) &&
      decide (visit t (((natBits 30 176607976).map Bool.toNat).dropLast) 0 = some (some 7, some 10, 0))
  | _ => false

theorem bigCheck_true : bigCheck (flatten bigCode .OneBit) = true := by decide +kernel

/-- C12, the limit of 256 rows is real: row numbers are stored in an octet, so for a larger code the matrix is wrong without
any sign of it. Here walking the code of symbol 9 finds symbol 10. -/
theorem C12_too_many_rows : ∃ codes t, WellFormed codes ∧ PrefixFree codes ∧ flatten codes .OneBit = .ok t ∧ 256 < t.length ∧
    ∃ keys key c next, codes[9]? = some c ∧ chunkBits 1 (keys ++ [key]) = codeBits c ∧ visit t keys key = some (next, some 10, 0) := by
  obtain ⟨t, ht⟩ := C12_flatten_total bigCode .OneBit (C12_thirty_bits _ _ (by decide))
  have := bigCheck_true
  rw [ht] at this
  simp only [bigCheck, Bool.and_eq_true, decide_eq_true_eq] at this
  exact ⟨bigCode, t, by decide, prefixFree_of_check (by decide +kernel), ht, this.1,
    ((natBits 30 176607976).map Bool.toNat).dropLast, 0, (30, 176607976), some 7, rfl, by decide +kernel, this.2⟩

/-! Concrete cases: the code A=00, B=01, C=100, D=101, E=11 of the documentation of the flattener, and the HPACK code. -/

example : WellFormed [(2, 0), (2, 1), (3, 4), (3, 5), (2, 3)] ∧ PrefixFree [(2, 0), (2, 1), (3, 4), (3, 5), (2, 3)] ∧
    ∃ t, flatten [(2, 0), (2, 1), (3, 4), (3, 5), (2, 3)] .TwoBits = .ok t ∧ t.length = 2 ∧
      visit t [2] 3 = some (none, some 3, 1) ∧ visit t [] 2 = some (some 1, none, 0) :=
  ⟨by decide, prefixFree_of_check (by decide +kernel), _, rfl, by decide, by decide, by decide⟩

example : WellFormed ENCODE_TABLE ∧ PrefixFree ENCODE_TABLE ∧
    flatten ENCODE_TABLE .OneBit = .ok DECODE_TABLE1 ∧ DECODE_TABLE1.length = 256 :=
  ⟨by decide +kernel, prefixFree_of_check (by decide +kernel), by decide +kernel, by decide +kernel⟩

end Verif.Props
