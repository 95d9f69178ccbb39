import Verif.Spec.Huffman
import Verif.Huffman.Table
import Verif.Lemmas.Bits
/-! Facts about the RFC code table: whole-table kernel checks, lifted to bit strings. -/
namespace Verif.Spec

/-- Rests of the lists of `L` that start with `b`. -/
def halves (b : Bool) (L : List (List Bool)) : List (List Bool) :=
  L.filterMap fun c => match c with
    | [] => none
    | x :: r => if x = b then some r else none

/-- Boolean check (walking the code tree) that no list of `L` is a prefix of another one. -/
def prefixFreeB : Nat → List (List Bool) → Bool
  | 0, L => L.length ≤ 1
  | n + 1, L => L.length ≤ 1 ||
      (!L.contains [] && (prefixFreeB n (halves false L) && prefixFreeB n (halves true L)))

theorem pairwise_of_length_le_one {α : Type} {R : α → α → Prop} {L : List α} (h : L.length ≤ 1) :
    L.Pairwise R := by
  match L, h with
  | [], _ => exact .nil
  | [a], _ => simp

theorem prefixFreeB_pairwise {n : Nat} {L : List (List Bool)} (h : prefixFreeB n L = true) :
    L.Pairwise (fun c d => ¬ IsPrefix c d ∧ ¬ IsPrefix d c) := by
  induction n generalizing L with
  | zero => exact pairwise_of_length_le_one (by simpa [prefixFreeB] using h)
  | succ n ih =>
    simp only [prefixFreeB, Bool.or_eq_true, decide_eq_true_eq, Bool.and_eq_true, Bool.not_eq_true',
      ← Bool.not_eq_true, List.contains_iff_mem] at h
    rcases h with h | ⟨h0, hf, ht⟩
    · exact pairwise_of_length_le_one h
    · have hf := ih hf
      have ht := ih ht
      simp only [halves, List.pairwise_filterMap] at hf ht
      refine (List.Pairwise.and hf ht).imp_of_mem ?_
      rintro c d hc hd ⟨h1, h2⟩
      cases c with
      | nil => exact absurd hc h0
      | cons x c =>
        cases d with
        | nil => exact absurd hd h0
        | cons y d =>
          have key : x = y → ¬ IsPrefix c d ∧ ¬ IsPrefix d c := by
            rintro rfl
            cases x
            · simpa using h1
            · simpa using h2
          constructor
          · rintro ⟨r, hr⟩
            simp only [List.cons_append, List.cons.injEq] at hr
            exact (key hr.1.symm).1 ⟨r, hr.2⟩
          · rintro ⟨r, hr⟩
            simp only [List.cons_append, List.cons.injEq] at hr
            exact (key hr.1).2 ⟨r, hr.2⟩

/-- Boolean check that every bit string of `n` bits starts with an element of `L`. -/
def completeB : Nat → List (List Bool) → Bool
  | 0, L => L.contains []
  | n + 1, L => L.contains [] || (completeB n (halves false L) && completeB n (halves true L))

theorem completeB_sound {n : Nat} {L : List (List Bool)} (h : completeB n L = true) {bs : List Bool}
    (hl : n ≤ bs.length) : ∃ c ∈ L, IsPrefix c bs := by
  induction n generalizing L bs with
  | zero =>
    simp only [completeB, List.contains_iff_mem] at h
    exact ⟨[], h, bs, rfl⟩
  | succ n ih =>
    simp only [completeB, Bool.or_eq_true, List.contains_iff_mem, Bool.and_eq_true] at h
    rcases h with h | h
    · exact ⟨[], h, bs, rfl⟩
    · cases bs with
      | nil => simp at hl
      | cons b bs =>
        have hl' : n ≤ bs.length := by simpa using hl
        have : completeB n (halves b L) = true := by cases b <;> simp [h]
        obtain ⟨c, hc, r, rfl⟩ := ih this hl'
        simp only [halves, List.mem_filterMap] at hc
        obtain ⟨d, hd, heq⟩ := hc
        cases d with
        | nil => simp at heq
        | cons x d =>
          simp only [Option.ite_none_right_eq_some, Option.some.injEq] at heq
          obtain ⟨rfl, rfl⟩ := heq
          exact ⟨x :: d, hd, r, rfl⟩

theorem rfcCodes_length : rfcCodes.length = 257 := by decide +kernel
theorem rfcCodes_prefixFree : prefixFreeB 30 rfcCodes = true := by decide +kernel
theorem rfcCodes_complete : completeB 30 rfcCodes = true := by decide +kernel

theorem code_eq_getElem {a : Nat} (h : a ≤ 256) : code a = rfcCodes[a]'(by rw [rfcCodes_length]; omega) := by
  have h' : a < rfcCodes.length := by rw [rfcCodes_length]; omega
  simp [code, List.getD_eq_getElem?_getD, List.getElem?_eq_getElem h']

theorem code_prefix_free {a b : Nat} (ha : a ≤ 256) (hb : b ≤ 256) (h : IsPrefix (code a) (code b)) : a = b := by
  have hp := prefixFreeB_pairwise rfcCodes_prefixFree
  rw [List.pairwise_iff_getElem] at hp
  have hla : a < rfcCodes.length := by rw [rfcCodes_length]; omega
  have hlb : b < rfcCodes.length := by rw [rfcCodes_length]; omega
  rw [code_eq_getElem ha, code_eq_getElem hb] at h
  rcases Nat.lt_trichotomy a b with hab | hab | hab
  · exact absurd h (hp a b hla hlb hab).1
  · exact hab
  · exact absurd h (hp b a hlb hla hab).2

theorem code_complete {bs : List Bool} (hl : 30 ≤ bs.length) : ∃ a, a ≤ 256 ∧ IsPrefix (code a) bs := by
  obtain ⟨c, hc, hp⟩ := completeB_sound rfcCodes_complete hl
  obtain ⟨a, ha, rfl⟩ := List.mem_iff_getElem.mp hc
  have : a ≤ 256 := by rw [rfcCodes_length] at ha; omega
  exact ⟨a, this, by rw [code_eq_getElem this]; exact hp⟩

/-- Table entry and spec code agree. -/
def entryOk (e : Nat × Nat) (c : List Bool) : Bool :=
  c == natBits e.1 e.2 && decide (e.2 < 2 ^ e.1) && decide (5 ≤ e.1) && decide (e.1 ≤ 30)

theorem encTable_zip : (Huffman.ENCODE_TABLE.zipWith entryOk rfcCodes).all id = true := by decide +kernel
theorem encTable_length : Huffman.ENCODE_TABLE.length = 257 := by decide +kernel

theorem encTable_entry {a : Nat} (ha : a ≤ 256) :
    ∃ l c, Huffman.ENCODE_TABLE[a]? = some (l, c) ∧ code a = natBits l c ∧ c < 2 ^ l ∧ 5 ≤ l ∧ l ≤ 30 := by
  have h1 : a < Huffman.ENCODE_TABLE.length := by rw [encTable_length]; omega
  have h2 : a < rfcCodes.length := by rw [rfcCodes_length]; omega
  have h := encTable_zip
  rw [List.all_eq_true] at h
  have hz : a < (Huffman.ENCODE_TABLE.zipWith entryOk rfcCodes).length := by
    rw [List.length_zipWith]; omega
  have := h _ (List.getElem_mem hz)
  rw [List.getElem_zipWith] at this
  simp only [entryOk, id, Bool.and_eq_true, beq_iff_eq, decide_eq_true_eq] at this
  refine ⟨_, _, List.getElem?_eq_getElem h1, ?_, this.1.1.2, this.1.2, this.2⟩
  rw [code_eq_getElem ha]; exact this.1.1.1

theorem code_length_ge {a : Nat} (ha : a ≤ 256) : 5 ≤ (code a).length := by
  obtain ⟨l, c, _, h, _, h5, _⟩ := encTable_entry ha
  rw [h]; simpa
theorem code_length_le {a : Nat} (ha : a ≤ 256) : (code a).length ≤ 30 := by
  obtain ⟨l, c, _, h, _, _, h5⟩ := encTable_entry ha
  rw [h]; simpa

theorem IsPrefix.length_le {p l : List Bool} (h : IsPrefix p l) : p.length ≤ l.length := by
  obtain ⟨r, rfl⟩ := h; simp

theorem IsPrefix.refl (p : List Bool) : IsPrefix p p := ⟨[], by simp⟩
theorem IsPrefix.append (p r : List Bool) : IsPrefix p (p ++ r) := ⟨r, rfl⟩
theorem IsPrefix.trans {p q r : List Bool} (h : IsPrefix p q) (h' : IsPrefix q r) : IsPrefix p r := by
  obtain ⟨a, rfl⟩ := h; obtain ⟨b, rfl⟩ := h'; exact ⟨a ++ b, by simp⟩

/-- Two prefixes of one list: the shorter is a prefix of the longer. -/
theorem IsPrefix.of_le {p q l : List Bool} (hp : IsPrefix p l) (hq : IsPrefix q l) (h : p.length ≤ q.length) :
    IsPrefix p q := by
  obtain ⟨a, rfl⟩ := hp; obtain ⟨b, hb⟩ := hq
  refine ⟨q.drop p.length, ?_⟩
  have : p = q.take p.length := by
    have := congrArg (List.take p.length) hb
    rw [List.take_append_of_le_length (by omega), List.take_append_of_le_length h] at this
    simpa using this
  calc q = q.take p.length ++ q.drop p.length := (List.take_append_drop _ _).symm
    _ = _ := by rw [← this]

/-- At most one code starts at the front of a bit string. -/
theorem code_front_unique {a b : Nat} (ha : a ≤ 256) (hb : b ≤ 256) {l : List Bool}
    (h1 : IsPrefix (code a) l) (h2 : IsPrefix (code b) l) : a = b := by
  rcases Nat.le_total (code a).length (code b).length with h | h
  · exact code_prefix_free ha hb (h1.of_le h2 h)
  · exact (code_prefix_free hb ha (h2.of_le h1 h)).symm

theorem noCode_of_short {r : List Bool} (h : r.length < 5) : NoCode r := fun a ha hp => by
  have := hp.length_le; have := code_length_ge ha; omega

theorem NoCode.length_lt {r : List Bool} (h : NoCode r) : r.length < 30 := by
  rcases Nat.lt_or_ge r.length 30 with h' | h'
  · exact h'
  · obtain ⟨a, ha, hp⟩ := code_complete h'
    exact absurd hp (h a ha)

theorem UInt8.toNat_le_256 (b : UInt8) : b.toNat ≤ 256 := by have := b.toNat_lt; omega

@[simp] theorem codesOf_nil : codesOf [] = [] := rfl
@[simp] theorem codesOf_cons (b : UInt8) (s : List UInt8) : codesOf (b :: s) = code b.toNat ++ codesOf s := rfl
@[simp] theorem codesOf_append (s t : List UInt8) : codesOf (s ++ t) = codesOf s ++ codesOf t := by simp [codesOf]

/-- Greedy parsing is unambiguous. The rest is either without a code or starts with EOS. -/
theorem codes_unique {s t : List UInt8} {r q : List Bool}
    (hr : ∀ a, a < 256 → ¬ IsPrefix (code a) r) (hq : ∀ a, a < 256 → ¬ IsPrefix (code a) q)
    (h : codesOf s ++ r = codesOf t ++ q) : s = t ∧ r = q := by
  induction s generalizing t with
  | nil =>
    cases t with
    | nil => exact ⟨rfl, by simpa using h⟩
    | cons b t =>
      simp only [codesOf_nil, List.nil_append, codesOf_cons, List.append_assoc] at h
      exact absurd ⟨_, h⟩ (hr b.toNat b.toNat_lt)
  | cons a s ih =>
    cases t with
    | nil =>
      simp only [codesOf_nil, List.nil_append, codesOf_cons, List.append_assoc] at h
      exact absurd ⟨_, h.symm⟩ (hq a.toNat a.toNat_lt)
    | cons b t =>
      simp only [codesOf_cons, List.append_assoc] at h
      have hab : a.toNat = b.toNat :=
        code_front_unique (UInt8.toNat_le_256 a) (UInt8.toNat_le_256 b) ⟨_, rfl⟩ ⟨_, h⟩
      have hab' : a = b := UInt8.toNat_inj.mp hab
      subst hab'
      have := ih (List.append_cancel_left h)
      exact ⟨by rw [this.1], this.2⟩

theorem eos_noByte {r : List Bool} : ∀ a, a < 256 → ¬ IsPrefix (code a) (code 256 ++ r) := fun a ha hp => by
  have := code_front_unique (by omega) (Nat.le_refl 256) hp ⟨r, rfl⟩
  omega

theorem NoCode.noByte {r : List Bool} (h : NoCode r) : ∀ a, a < 256 → ¬ IsPrefix (code a) r :=
  fun a ha => h a (by omega)

end Verif.Spec
