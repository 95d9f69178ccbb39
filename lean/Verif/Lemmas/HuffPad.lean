import Verif.Lemmas.HuffDecoder
import Verif.Lemmas.HuffEncoder
/-! Which remainders are accepted as padding. -/
namespace Verif.Huffman
open Verif.Spec

/-- Whole-domain check: bit strings of fewer than 30 bits with an accepted value. -/
def padCheck (n v : Nat) : Bool :=
  if v < 2 ^ n then
    if lenientPads.contains (natBits n v) then rfcCodes.all (fun c => !c.isPrefixOf (natBits n v))
    else rfcCodes.any (fun c => c.isPrefixOf (natBits n v))
  else true

theorem padCheck_all : ((List.range 30).all fun n => padVals.all fun v => padCheck n v) = true := by decide +kernel

theorem isPrefixOf_iff (c l : List Bool) : c.isPrefixOf l = true ↔ IsPrefix c l := by
  rw [List.isPrefixOf_iff_prefix]
  exact ⟨fun ⟨r, h⟩ => ⟨r, h.symm⟩, fun ⟨r, h⟩ => ⟨r, h.symm⟩⟩

theorem lenientPads_val : (lenientPads.all fun t => padVals.contains (bitsVal t) && decide (t.length ≤ 7)) = true := by
  decide +kernel

theorem pad_iff (t : List Bool) : (NoCode t ∧ bitsVal t ∈ padVals) ↔ t ∈ lenientPads := by
  have key : t.length < 30 → bitsVal t ∈ padVals → padCheck t.length (bitsVal t) = true := by
    intro h1 h2
    have := padCheck_all
    rw [List.all_eq_true] at this
    have := this t.length (List.mem_range.mpr h1)
    rw [List.all_eq_true] at this
    exact this _ h2
  have hlt := bitsVal_lt t
  constructor
  · rintro ⟨hn, hv⟩
    have h := key hn.length_lt hv
    simp only [padCheck, if_pos hlt, natBits_bitsVal] at h
    split at h
    · rename_i hc; simpa using hc
    · rw [List.any_eq_true] at h
      obtain ⟨c, hc, hp⟩ := h
      obtain ⟨a, ha, rfl⟩ := List.mem_iff_getElem.mp hc
      have ha' : a ≤ 256 := by rw [rfcCodes_length] at ha; omega
      exact absurd ((isPrefixOf_iff _ _).mp hp) (by rw [← code_eq_getElem ha']; exact hn a ha')
  · intro hm
    have h := lenientPads_val
    rw [List.all_eq_true] at h
    have h := h t hm
    simp only [Bool.and_eq_true, decide_eq_true_eq, List.contains_iff_mem] at h
    refine ⟨?_, h.1⟩
    have h2 := key (by omega) h.1
    simp only [padCheck, if_pos hlt, natBits_bitsVal] at h2
    rw [if_pos (by simpa using hm), List.all_eq_true] at h2
    intro a ha hp
    have := h2 (rfcCodes[a]'(by rw [rfcCodes_length]; omega)) (List.getElem_mem _)
    rw [← code_eq_getElem ha] at this
    simp [(isPrefixOf_iff _ _).mpr hp] at this

theorem lenientPads_length {t : List Bool} (h : t ∈ lenientPads) : t.length ≤ 7 := by
  have h1 := lenientPads_val
  rw [List.all_eq_true] at h1
  have h1 := h1 t h
  simp only [Bool.and_eq_true, decide_eq_true_eq] at h1
  exact h1.2

theorem padOnes_mem {k : Nat} (h : k < 8) : padOnes k ∈ lenientPads :=
  List.mem_append_left _ (List.mem_map.mpr ⟨k, List.mem_range.mpr h, rfl⟩)

theorem codesOf_length (s : Bytes) : (codesOf s).length = codeLenSum s := by
  simp [codesOf, codeLenSum, List.length_flatMap]

theorem codeLenSum_bounds (s : Bytes) : 5 * s.length ≤ codeLenSum s ∧ codeLenSum s ≤ 30 * s.length := by
  induction s with
  | nil => simp [codeLenSum]
  | cons b s ih =>
    have h1 := code_length_ge (UInt8.toNat_le_256 b)
    have h2 := code_length_le (UInt8.toNat_le_256 b)
    simp only [codeLenSum, List.map_cons, List.sum_cons, List.length_cons] at *
    omega

/-- The state of the reader after the bytes read so far. -/
theorem readLoop_bounds (src dst : Bytes) (sp : Speed) (r : Reader)
    (h : readLoop src (Reader.new sp.toNat dst) = (.ok (), r)) : r.buf < 2 ^ 5 ∧ r.tail < 2 ^ 30 := by
  obtain ⟨path, ht⟩ := speed_tableOk sp
  have hs1 : 1 ≤ sp.toNat := by cases sp <;> simp [Speed.toNat]
  have hs : sp.toNat ≤ 5 := by cases sp <;> simp [Speed.toNat]
  have h0 : RInv sp.toNat (tableOf sp.toNat) path dst (Reader.new sp.toNat dst) [] [] [] :=
    ⟨rfl, ht.rows, ht.path0, rfl, rfl, rfl, by simp [Reader.new]⟩
  rcases readLoop_spec ht rfl hs1 hs src h0 (by simp only [List.length_nil]; omega) with
    ⟨r1, o1, p1, q1, he1, hinv1, hl1, hb1⟩ | ⟨r1, o1, q1, he1, hd1, hb1⟩
  · rw [h] at he1
    simp only [Prod.mk.injEq, true_and] at he1
    subst he1
    have hp : p1.length < 30 := by
      have := ht.internal _ hinv1.id
      rw [hinv1.path] at this
      exact this.length_lt
    constructor
    · rw [hinv1.buf]
      exact Nat.lt_of_lt_of_le (bitsVal_lt _) (Nat.pow_le_pow_right (by omega) (by omega))
    · rw [hinv1.tail]
      exact Nat.lt_of_lt_of_le (bitsVal_lt _) (Nat.pow_le_pow_right (by omega) (by omega))
  · rw [h] at he1; simp at he1

end Verif.Huffman
