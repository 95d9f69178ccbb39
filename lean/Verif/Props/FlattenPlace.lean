import Verif.Props.FlattenNative
import Verif.Props.FlattenRows
/-! C107, continued: where a release build of `flatten` puts a code, in particular one that is too long. -/
namespace Verif.Props
open Verif Verif.Huffman Verif.Spec Verif.Spec.Matrix

/-- The path of a code in a matrix made by a release build, but for the last chunk: the value, filled up to `m` chunks and cut to 32 bits, is
shifted by multiples of the speed taken modulo 32. -/
def releasePath (s : Nat) (c : Nat × Nat) : List Nat :=
  (List.range (filled s c.1 / s - 1)).map fun j =>
    c.2 * 2 ^ (filled s c.1 - c.1) % 2 ^ 32 / 2 ^ ((filled s c.1 / s - 1 - j) * s % 32) % 2 ^ s

theorem chunksOfOn_list (bits s m : Nat) :
    chunksOfOn false bits s m = .ok ((List.range m).map fun j => bits / 2 ^ ((m - 1 - j) * s % 32) % 2 ^ s) := by
  induction m with
  | zero => rfl
  | succ m ih =>
    unfold chunksOfOn
    rw [if_neg (fun c => absurd c.1 (by decide)), ih, List.range_succ_eq_map]
    simp only [Res.bind_ok, List.map_cons, List.map_map, Res.ok.injEq, List.cons.injEq]
    refine ⟨by simp, List.map_congr_left fun j hj => ?_⟩
    simp only [Function.comp]
    rw [show m + 1 - 1 - j.succ = m - 1 - j by omega]

theorem filled_div {s : Nat} (hs : 0 < s) (n : Nat) : filled s n / s = ceilDiv n s := by
  unfold filled ceilDiv; exact Nat.mul_div_cancel _ hs

theorem codingPathsOn_release {s : Nat} (hs : 0 < s) {c : Nat × Nat} (h1 : 1 ≤ c.1) :
    codingPathsOn false c s = .ok ((List.range (2 ^ (filled s c.1 - c.1))).map fun i =>
      releasePath s c ++ [c.2 * 2 ^ (filled s c.1 - c.1) % 2 ^ 32 % 2 ^ s + i]) ∧
    (∀ k ∈ releasePath s c, k < 2 ^ s) ∧
    (∀ i, i < 2 ^ (filled s c.1 - c.1) → s ≤ 5 → c.2 * 2 ^ (filled s c.1 - c.1) % 2 ^ 32 % 2 ^ s + i < 2 ^ s) := by
  have ⟨b1, b2⟩ := ceilDiv_bounds (L := c.1) hs
  have hf : filled s c.1 = ceilDiv c.1 s * s := rfl
  have hd := filled_div hs c.1
  generalize hm : ceilDiv c.1 s = m at b1 b2 hf hd
  have hpos : 0 < m := by
    rcases Nat.eq_zero_or_pos m with h | h
    · subst h; simp at b1; omega
    · exact h
  refine ⟨?_, ?_, ?_⟩
  · unfold codingPathsOn releasePath
    rw [hm, hd, hf]
    simp only [chunksOfOn_list, Res.bind_ok]
    obtain ⟨n, rfl⟩ : ∃ n, m = n + 1 := ⟨m - 1, by omega⟩
    rw [List.range_succ]
    simp
  · intro k hk
    obtain ⟨j, _, rfl⟩ := List.mem_map.mp hk
    exact Nat.mod_lt _ (Nat.two_pow_pos s)
  · intro i hi hs5
    have hleft : filled s c.1 - c.1 ≤ s := by omega
    generalize filled s c.1 - c.1 = left at *
    have hdvd : 2 ^ left ∣ c.2 * 2 ^ left % 2 ^ 32 % 2 ^ s := by
      refine (Nat.dvd_mod_iff (Nat.pow_dvd_pow 2 hleft)).mpr ?_
      exact (Nat.dvd_mod_iff (Nat.pow_dvd_pow 2 (by omega))).mpr (Nat.dvd_mul_left _ _)
    have hlt : c.2 * 2 ^ left % 2 ^ 32 % 2 ^ s < 2 ^ s := Nat.mod_lt _ (Nat.two_pow_pos s)
    generalize c.2 * 2 ^ left % 2 ^ 32 % 2 ^ s = last at *
    obtain ⟨x, hx⟩ := hdvd
    obtain ⟨y, hy⟩ := Nat.pow_dvd_pow 2 hleft
    rw [hx, hy] at hlt
    have : x < y := Nat.lt_of_mul_lt_mul_left hlt
    calc last + i < 2 ^ left * x + 2 ^ left := by omega
      _ = 2 ^ left * (x + 1) := by rw [Nat.mul_succ]
      _ ≤ 2 ^ left * y := Nat.mul_le_mul_left _ this
      _ = 2 ^ s := hy.symm

/-- C107. Where a release build puts a code: the matrix of a single code of any length from 1 to 255 holds the symbol at the path described by
`releasePath` (and the last chunk of the value with every filling), and nowhere else. -/
theorem C107_release_place (c : Nat × Nat) (speed : Speed) (h1 : 1 ≤ c.1) (h8 : c.1 < 256) (t : Mat)
    (ht : flattenOn false [c] speed = .ok t) (keys : List Nat) (key a l : Nat) :
    (∃ next, visit t keys key = some (next, some a, l)) ↔
      a = 0 ∧ l = filled speed.toNat c.1 - c.1 ∧ keys = releasePath speed.toNat c ∧
        ∃ i, i < 2 ^ l ∧ key = c.2 * 2 ^ l % 2 ^ 32 % 2 ^ speed.toNat + i := by
  have hs : 0 < speed.toNat := by cases speed <;> decide
  have hs5 : speed.toNat ≤ 5 := by cases speed <;> decide
  have ht : flattenLoopOn false speed.toNat [blankTransition speed.toNat] 0 [c] = .ok t := ht
  generalize speed.toNat = s at hs hs5 ht ⊢
  obtain ⟨hp, hi, hcov⟩ := codingPathsOn_release hs h1
  have ⟨b1, b2⟩ := ceilDiv_bounds (L := c.1) hs
  have hf : filled s c.1 = ceilDiv c.1 s * s := rfl
  have hcov := fun i hi' => hcov i hi' hs5
  generalize hlast : c.2 * 2 ^ (filled s c.1 - c.1) % 2 ^ 32 % 2 ^ s = last at hp hcov
  obtain ⟨sh0, bt0⟩ := built_nil s
  obtain ⟨t1, id, w, sh1, hid⟩ := walkCreate_total sh0 sh0.pos hi
  have hlen := walkCreate_length_le w
  have hrl : (releasePath s c).length + 1 ≤ 256 := by
    unfold releasePath
    rw [List.length_map, List.length_range, filled_div hs]
    have : ceilDiv c.1 s ≤ c.1 + s - 1 := Nat.div_le_self _ _
    have : ceilDiv c.1 s * 1 ≤ ceilDiv c.1 s * s := Nat.mul_le_mul_left _ hs
    have : ceilDiv c.1 s ≤ c.1 := by
      unfold ceilDiv
      rcases (show s = 1 ∨ s = 2 ∨ s = 3 ∨ s = 4 ∨ s = 5 by omega) with rfl | rfl | rfl | rfl | rfl <;> omega
    omega
  obtain ⟨t2, e2, sh2, l2, n2, d2⟩ := setTargets_spec (a := 0) (l := filled s c.1 - c.1) (init := releasePath s c) (f := fun i => last + i) sh1 hid
    (by decide) (by omega) (List.range (2 ^ (filled s c.1 - c.1))) (fun i hi' => hcov i (List.mem_range.mp hi'))
  have ht2 : t = t2 := by
    obtain ⟨rest, hr⟩ : ∃ rest, List.range (2 ^ (filled s c.1 - c.1)) = 0 :: rest := by
      have := Nat.two_pow_pos (filled s c.1 - c.1)
      rw [show 2 ^ (filled s c.1 - c.1) = (2 ^ (filled s c.1 - c.1) - 1) + 1 by omega, List.range_succ_eq_map]
      exact ⟨_, rfl⟩
    have hfl : flattenCodeOn false s [blankTransition s] 0 c = .ok t2 := by
      unfold flattenCodeOn
      rw [hp]
      simp only [Res.bind_ok]
      rw [hr] at e2 ⊢
      simp only [List.map_cons, Nat.add_zero, List.dropLast_concat, w, Res.bind_ok] at e2 ⊢
      exact e2
    unfold flattenLoopOn at ht
    rw [hfl] at ht
    exact (Res.ok.inj ht).symm
  subst ht2
  obtain ⟨_, rest⟩ := walkCreate_spec sh0 bt0.tree (p := []) rfl hi w
  obtain ⟨tr1, r1, d1, m1, k1⟩ := rest (by simp only [List.length_singleton] at hlen; omega)
  rw [List.nil_append] at r1 k1
  have hrow : ∀ q i, rowAt t i q = rowAt t1 i q := by
    intro q
    induction q with
    | nil => intro i; rfl
    | cons x xs ih => intro i; rw [rowAt_cons, rowAt_cons, n2]; congr 1; funext j; exact ih j
  rw [visit_target]
  unfold targetOf
  rw [hrow]
  constructor
  · intro h
    cases hr : rowAt t1 0 keys with
    | none => rw [hr] at h; cases h
    | some j =>
      rw [hr] at h
      have h : dataOf t j key = some (a, l) := h
      rw [d2] at h
      by_cases hh : j = id ∧ key ∈ (List.range (2 ^ (filled s c.1 - c.1))).map fun i => last + i
      · rw [if_pos hh] at h
        obtain ⟨e1, hm⟩ := hh
        rw [e1] at hr
        obtain ⟨i, hi', e3⟩ := List.mem_map.mp hm
        simp only [Option.some.injEq, Prod.mk.injEq] at h
        obtain ⟨rfl, rfl⟩ := h
        exact ⟨rfl, rfl, tr1.inj hr r1, i, List.mem_range.mp hi', by rw [hlast]; exact e3.symm⟩
      · rw [if_neg hh, d1, dataOf_blank] at h; cases h
  · rintro ⟨rfl, rfl, rfl, i, hi', rfl⟩
    rw [r1, hlast]
    show dataOf t id (last + i) = _
    rw [d2, if_pos ⟨rfl, List.mem_map.mpr ⟨i, List.mem_range.mpr hi', rfl⟩⟩]

/-- C107. So a code is found where it belongs exactly if the chunks of its release path are its chunks. -/
theorem C107_release_found_iff (c : Nat × Nat) (speed : Speed) (h1 : 1 ≤ c.1) (h8 : c.1 < 256) (t : Mat)
    (ht : flattenOn false [c] speed = .ok t) :
    (∃ keys key rest next l, (∀ k ∈ keys ++ [key], k < 2 ^ speed.toNat) ∧ rest.length < speed.toNat ∧
      chunkBits speed.toNat (keys ++ [key]) = codeBits c ++ rest ∧ visit t keys key = some (next, some 0, l)) ↔
    releasePath speed.toNat c = firstChunks speed.toNat c (filled speed.toNat c.1 / speed.toNat - 1) := by
  have hs : 0 < speed.toNat := by cases speed <;> decide
  have hs5 : speed.toNat ≤ 5 := by cases speed <;> decide
  have place := C107_release_place c speed h1 h8 t ht
  generalize speed.toNat = s at hs hs5 place ⊢
  have ⟨b1, b2⟩ := ceilDiv_bounds (L := c.1) hs
  have hf : filled s c.1 = ceilDiv c.1 s * s := rfl
  have hd := filled_div hs c.1
  obtain ⟨n, hn⟩ : ∃ n, ceilDiv c.1 s = n + 1 := by
    rcases Nat.eq_zero_or_pos (ceilDiv c.1 s) with h | h
    · rw [h] at b1; simp at b1; omega
    · exact ⟨ceilDiv c.1 s - 1, by omega⟩
  rw [hn] at hf hd b1 b2
  rw [Nat.succ_mul] at hf b1 b2
  rw [hd, show n + 1 - 1 = n by omega]
  have hsp := codeBits_split (s := s) c n (by omega)
  constructor
  · rintro ⟨keys, key, rest, next, l, hk, hr, e, hv⟩
    obtain ⟨_, _, rfl, _⟩ := (place keys key 0 l).mp ⟨next, hv⟩
    have hlen := congrArg List.length e
    rw [chunkBits_length, List.length_append, List.length_append, codeBits, natBits_length, List.length_singleton, Nat.succ_mul] at hlen
    have hkl : (releasePath s c).length = n := by unfold releasePath; rw [List.length_map, List.length_range, hd]; rfl
    rw [hsp, chunkBits_append, List.append_assoc] at e
    have := List.append_inj e (by rw [chunkBits_length, chunkBits_length, hkl]; simp [firstChunks])
    exact chunkBits_inj (by rw [hkl]; simp [firstChunks]) (fun k hk' => hk k (by simp [hk'])) (firstChunks_lt c n) this.1
  · intro h
    obtain ⟨hp, hi, hcov⟩ := codingPathsOn_release hs h1
    have hlt := hcov 0 (Nat.two_pow_pos _) hs5
    rw [Nat.add_zero] at hlt
    obtain ⟨next, hv⟩ := (place (releasePath s c) (c.2 * 2 ^ (filled s c.1 - c.1) % 2 ^ 32 % 2 ^ s) 0 (filled s c.1 - c.1)).mpr
      ⟨rfl, rfl, rfl, 0, Nat.two_pow_pos _, rfl⟩
    refine ⟨_, _, natBits (filled s c.1 - c.1) 0, next, _, fun k hk => ?_, by rw [natBits_length]; omega, ?_, hv⟩
    · rcases List.mem_append.mp hk with hk | hk
      · exact hi k hk
      · rw [List.mem_singleton.mp hk]; exact hlt
    · rw [chunkBits_append, h, hsp, List.append_assoc, ← natBits_append _ _ _ _ (Nat.two_pow_pos _), Nat.add_zero]
      congr 1
      rw [show c.1 - n * s + (filled s c.1 - c.1) = s by omega, show ∀ x, chunkBits s [x] = natBits s x from fun x => by simp [chunkBits]]
      apply bitsVal_inj
      · simp
      · rw [bitsVal_natBits, bitsVal_natBits, Nat.mod_mod, Nat.mod_mod_of_dvd _ (Nat.pow_dvd_pow 2 (show s ≤ 32 by omega))]

/-- C107. At one bit at a time: a code of more than 32 bits is found where it belongs exactly if the bits of its value that stand for its
leading zeros once more are zeros. From 64 bits on that leaves only the value 0. -/
theorem C107_release_one_bit (n v : Nat) (h1 : 32 < n) (h8 : n < 256) (hv : v < 2 ^ 32) (t : Mat) (ht : flattenOn false [(n, v)] .OneBit = .ok t) :
    (∃ keys key next l, chunkBits 1 (keys ++ [key]) = codeBits (n, v) ∧ visit t keys key = some (next, some 0, l)) ↔
      ∀ p, 32 ≤ p → p < n → v.testBit (p % 32) = false := by
  have h := C107_release_found_iff (n, v) .OneBit (by show 1 ≤ n; omega) h8 t ht
  have place := C107_release_place (n, v) .OneBit (by show 1 ≤ n; omega) h8 t ht
  have hfill : filled 1 n = n := by unfold filled; omega
  obtain ⟨_, hi, hcov⟩ := codingPathsOn_release (s := 1) (by decide) (c := (n, v)) (by show 1 ≤ n; omega)
  have hq : releasePath 1 (n, v) = firstChunks 1 (n, v) (filled 1 n / 1 - 1) ↔ ∀ p, 32 ≤ p → p < n → v.testBit (p % 32) = false := by
    have tb : ∀ k, v.testBit k = false ↔ v / 2 ^ k % 2 = 0 := by
      intro k
      rw [Nat.testBit_eq_decide_div_mod_eq]
      simp
    have hbig : ∀ k, 32 ≤ k → v / 2 ^ k = 0 := fun k hk =>
      Nat.div_eq_of_lt (Nat.lt_of_lt_of_le hv (Nat.pow_le_pow_right (by decide) hk))
    unfold releasePath firstChunks
    show List.map _ (List.range (filled 1 n / 1 - 1)) = _ ↔ _
    simp only [hfill, Nat.div_one, Nat.sub_self, Nat.pow_zero, Nat.mul_one, Nat.pow_one, Nat.mod_eq_of_lt hv, List.map_inj_left, List.mem_range]
    constructor
    · intro hh p hp hpn
      have := hh (n - 1 - p) (by omega)
      rw [show n - 1 - (n - 1 - p) = p by omega, show n - (n - 1 - p + 1) = p by omega, hbig p hp] at this
      exact (tb _).mpr this
    · intro hh j hj
      by_cases hp : 32 ≤ n - 1 - j
      · rw [show n - (j + 1) = n - 1 - j by omega, hbig _ hp]
        exact (tb _).mp (hh _ hp (by omega))
      · rw [Nat.mod_eq_of_lt (show n - 1 - j < 32 by omega), show n - (j + 1) = n - 1 - j by omega]
  refine Iff.trans ⟨?_, ?_⟩ (h.trans hq)
  · rintro ⟨keys, key, next, l, e, hv'⟩
    obtain ⟨_, hl, hkeys, i, hi', hkey⟩ := (place keys key 0 l).mp ⟨next, hv'⟩
    refine ⟨keys, key, [], next, l, fun k hk => ?_, by decide, by rw [List.append_nil]; exact e, hv'⟩
    rcases List.mem_append.mp hk with hk | hk
    · rw [hkeys] at hk; exact hi k hk
    · rw [List.mem_singleton.mp hk, hkey, hl]
      rw [hl] at hi'
      exact hcov i hi' (by decide)
  · rintro ⟨keys, key, rest, next, l, _, hr, e, hv'⟩
    have hr : rest = [] := List.eq_nil_of_length_eq_zero (Nat.lt_one_iff.mp hr)
    rw [hr, List.append_nil] at e
    exact ⟨keys, key, next, l, e, hv'⟩

/-! The code of 40 bits with the value 1 is misplaced (the bits 32 to 39 stand for the bits 0 to 7), the one with the value 256 is not. -/
example : ¬ ∀ p, 32 ≤ p → p < 40 → Nat.testBit 1 (p % 32) = false := fun h => absurd (h 32 (by decide) (by decide)) (by decide)
example : (∀ p, 32 ≤ p → p < 40 → Nat.testBit 256 (p % 32) = false) ∧ ∃ t, flattenOn false [(40, 256)] .OneBit = .ok t :=
  ⟨fun p h1 h2 => (by
    rcases (show p = 32 ∨ p = 33 ∨ p = 34 ∨ p = 35 ∨ p = 36 ∨ p = 37 ∨ p = 38 ∨ p = 39 by omega) with
      rfl | rfl | rfl | rfl | rfl | rfl | rfl | rfl <;> decide), (C107_release_panics_exactly _ _).2.mpr (by decide)⟩

end Verif.Props
