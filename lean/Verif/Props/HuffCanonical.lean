import Verif.Props.Huffman
/-! Property theorem C128: the code is canonical, so encodings compare like the texts. -/
namespace Verif.Props
open Verif Verif.Spec Verif.Huffman

/-- The canonical order of symbols: shorter codes first, equally long ones by the symbol. -/
def CodeBefore (a b : Nat) : Prop :=
  (code a).length < (code b).length ∨ (code a).length = (code b).length ∧ a < b

instance (a b : Nat) : Decidable (CodeBefore a b) := by unfold CodeBefore; infer_instance

/-- The value a canonical code gives to symbol `a`, computed from nothing but the lengths `len` of the codes of `0 … n - 1`: every symbol
that comes earlier takes its share of the code words of the length of `a`. -/
def canonicalValue (n : Nat) (len : Nat → Nat) (a : Nat) : Nat :=
  ((List.range n).map fun b => if len b < len a ∨ len b = len a ∧ b < a then 2 ^ (len a - len b) else 0).sum

theorem rfcCodes_indexed : rfcCodes.zipIdx = (List.range 257).map fun a => (code a, a) := by
  apply List.ext_getElem?
  intro i
  by_cases h : i < 257
  · have hl : i < rfcCodes.length := by rw [rfcCodes_length]; exact h
    simp [List.getElem?_range h, code, hl]
  · have hl : rfcCodes.length ≤ i := by rw [rfcCodes_length]; omega
    rw [List.getElem?_eq_none (by simpa using hl), List.getElem?_eq_none (by simp; omega)]

theorem canonical_values :
    (rfcCodes.zipIdx.all fun x => decide (bitsVal x.1 = (rfcCodes.zipIdx.map fun y =>
      if y.1.length < x.1.length ∨ y.1.length = x.1.length ∧ y.2 < x.2 then 2 ^ (x.1.length - y.1.length) else 0).sum)) = true := by
  decide +kernel

theorem code_indexed {a : Nat} (ha : a ≤ 256) : (code a, a) ∈ rfcCodes.zipIdx := by
  rw [rfcCodes_indexed]
  exact List.mem_map.mpr ⟨a, List.mem_range.mpr (by omega), rfl⟩

/-- C128. The shipped table is the canonical code of its lengths: the code word of each symbol is determined by the lengths alone. -/
theorem C128_canonical (a : Nat) (ha : a ≤ 256) :
    ENCODE_TABLE[a]? = some ((code a).length, canonicalValue 257 (fun b => (code b).length) a) := by
  rw [C11_columns_agree a ha]
  have h := canonical_values
  rw [List.all_eq_true] at h
  have h := of_decide_eq_true (h _ (code_indexed ha))
  rw [h, rfcCodes_indexed, List.map_map]
  rfl

example : ENCODE_TABLE[97]? = some ((code 97).length, canonicalValue 257 (fun b => (code b).length) 97) := C128_canonical 97 (by decide)

/-- At the first bit where `p` and `q` differ, `p` has 0 and `q` has 1. -/
def lowerBits : List Bool → List Bool → Bool
  | x :: p, y :: q => if x = y then lowerBits p q else !x
  | _, _ => false

theorem lowerBits_split {p q : List Bool} (h : lowerBits p q = true) :
    ∃ c r t, p = c ++ false :: r ∧ q = c ++ true :: t := by
  induction p generalizing q with
  | nil => simp [lowerBits] at h
  | cons x p ih =>
    cases q with
    | nil => simp [lowerBits] at h
    | cons y q =>
      by_cases hxy : x = y
      · subst hxy
        simp only [lowerBits, if_true] at h
        obtain ⟨c, r, t, h1, h2⟩ := ih h
        exact ⟨x :: c, r, t, by rw [h1]; rfl, by rw [h2]; rfl⟩
      · simp only [lowerBits, if_neg hxy, Bool.not_eq_true'] at h
        subst h
        have : y = true := by cases y <;> simp_all
        subst this
        exact ⟨[], p, q, rfl, rfl⟩

theorem codes_ordered :
    ((rfcCodes.zipIdx).all fun x => (rfcCodes.zipIdx).all fun y =>
      !decide (x.1.length < y.1.length ∨ x.1.length = y.1.length ∧ x.2 < y.2) || lowerBits x.1 y.1) = true := by
  decide +kernel

theorem code_lower {a b : Nat} (ha : a ≤ 256) (hb : b ≤ 256) (h : CodeBefore a b) : lowerBits (code a) (code b) = true := by
  have hall := codes_ordered
  rw [List.all_eq_true] at hall
  have h1 := hall _ (code_indexed ha)
  rw [List.all_eq_true] at h1
  have h2 := h1 _ (code_indexed hb)
  have h' : (code a).length < (code b).length ∨ (code a).length = (code b).length ∧ a < b := h
  simp only [h', decide_true, Bool.not_true, Bool.false_or] at h2
  exact h2

theorem lowerBits_append_right {p q : List Bool} (h : lowerBits p q = true) (x y : List Bool) :
    lowerBits (p ++ x) (q ++ y) = true := by
  induction p generalizing q with
  | nil => simp [lowerBits] at h
  | cons a p ih =>
    cases q with
    | nil => simp [lowerBits] at h
    | cons b q =>
      simp only [List.cons_append, lowerBits] at h ⊢
      split at h
      · rename_i hab
        rw [if_pos hab]
        exact ih h
      · rename_i hab
        rw [if_neg hab]
        exact h

theorem lowerBits_append_left (c p q : List Bool) : lowerBits (c ++ p) (c ++ q) = lowerBits p q := by
  induction c with
  | nil => rfl
  | cons x c ih => simp [lowerBits, ih]

theorem lowerBits_split' {u v p q : List Bool} (hl : u.length = v.length) (h : lowerBits (u ++ p) (v ++ q) = true) :
    lowerBits u v = true ∨ u = v ∧ lowerBits p q = true := by
  induction u generalizing v with
  | nil =>
    cases v with
    | nil => exact Or.inr ⟨rfl, h⟩
    | cons y v => simp at hl
  | cons x u ih =>
    cases v with
    | nil => simp at hl
    | cons y v =>
      simp only [List.cons_append, lowerBits] at h ⊢
      split at h
      · rename_i hxy
        subst hxy
        rcases ih (by simpa using hl) h with h' | ⟨rfl, h'⟩
        · exact Or.inl (by rw [if_pos rfl]; exact h')
        · exact Or.inr ⟨rfl, h'⟩
      · rename_i hxy
        exact Or.inl (by rw [if_neg hxy]; exact h)

theorem lowerBits_val {u v : List Bool} (hl : u.length = v.length) (h : lowerBits u v = true) : bitsVal u < bitsVal v := by
  obtain ⟨c, r, t, rfl, rfl⟩ := lowerBits_split h
  have hr : r.length = t.length := by simpa using hl
  rw [bitsVal_append, bitsVal_append, bitsVal_cons, bitsVal_cons]
  simp only [List.length_cons, hr]
  have h1 := bitsVal_lt r
  rw [hr] at h1
  simp
  omega

theorem lower_bytes {p q : Bytes} (h : lowerBits (bytesBits p) (bytesBits q) = true) : p < q := by
  induction p generalizing q with
  | nil => simp [lowerBits] at h
  | cons x p ih =>
    cases q with
    | nil => simp [lowerBits] at h
    | cons y q =>
      rw [bytesBits_cons, bytesBits_cons] at h
      rcases lowerBits_split' (by simp) h with h' | ⟨h', h''⟩
      · have := lowerBits_val (by simp) h'
        rw [bitsVal_byteBits, bitsVal_byteBits] at this
        exact List.Lex.rel (UInt8.lt_iff_toNat_lt.mpr this)
      · rw [byteBits_inj h']
        exact List.Lex.cons (ih h'')

theorem encodings_lower {s p x y : Bytes} {a b : UInt8} (h : CodeBefore a.toNat b.toNat) {q r : Bytes}
    (hq : encode (s ++ a :: x) p = (.ok (), p ++ q)) (hr : encode (s ++ b :: y) p = (.ok (), p ++ r)) : q < r := by
  obtain ⟨q', hq', k, _, hqb⟩ := encode_spec (s ++ a :: x) p
  obtain ⟨r', hr', j, _, hrb⟩ := encode_spec (s ++ b :: y) p
  rw [hq] at hq'
  rw [hr] at hr'
  simp only [Prod.mk.injEq, List.append_cancel_left_eq, true_and] at hq' hr'
  subst hq' hr'
  apply lower_bytes
  rw [hqb, hrb, codesOf_append, codesOf_append, List.append_assoc, List.append_assoc, lowerBits_append_left]
  have e : ∀ (c : UInt8) (z : Bytes), codesOf (c :: z) = code c.toNat ++ codesOf z := fun _ _ => rfl
  rw [e, e, List.append_assoc, List.append_assoc]
  exact lowerBits_append_right (code_lower (UInt8.toNat_le_256 a) (UInt8.toNat_le_256 b) h) _ _

theorem codeBefore_total {a b : Nat} (h : a ≠ b) : CodeBefore a b ∨ CodeBefore b a := by
  unfold CodeBefore
  omega

/-- C128. Encodings compare like the texts: where two texts first differ, the one with the earlier character (in the canonical order) has
the encoding that is smaller as an octet string (the order of Rust's `Vec<u8>`), whatever follows. -/
theorem C128_order (s x y : Bytes) (a b : UInt8) (h : a ≠ b) :
    ∃ q r, encode (s ++ a :: x) [] = (.ok (), q) ∧ encode (s ++ b :: y) [] = (.ok (), r) ∧
      (q < r ↔ CodeBefore a.toNat b.toNat) ∧ q ≠ r := by
  obtain ⟨q, hq, _⟩ := encode_spec (s ++ a :: x) []
  obtain ⟨r, hr, _⟩ := encode_spec (s ++ b :: y) []
  refine ⟨q, r, hq, hr, ?_⟩
  have hne : a.toNat ≠ b.toNat := fun e => h (UInt8.toNat_inj.mp e)
  rcases codeBefore_total hne with hc | hc
  · have hlt := encodings_lower hc hq hr
    refine ⟨⟨fun _ => hc, fun _ => hlt⟩, ?_⟩
    rintro rfl
    exact List.lt_irrefl _ hlt
  · have hlt := encodings_lower hc hr hq
    refine ⟨⟨fun hl => absurd hl (List.lt_asymm hlt), fun hc' => ?_⟩, ?_⟩
    · unfold CodeBefore at hc hc'
      omega
    · rintro rfl
      exact List.lt_irrefl _ hlt

/-! "a" (five bits) comes before "b" (six bits) and before "A"; "0" before "a". -/
example : CodeBefore 97 98 ∧ CodeBefore 97 65 ∧ CodeBefore 48 97 ∧ ¬ CodeBefore 98 97 := by decide +kernel
example : encode [97, 98, 97] [] = (.ok (), [0x1c, 0x63]) ∧ encode [97, 65, 98] [] = (.ok (), [0x1c, 0x31, 0xff]) := by
  decide +kernel
/-! A text and its continuation are not ordered in general: "a" encodes to 1f, "a0" to 18 3f. -/
example : encode [97] [] = (.ok (), [0x1f]) ∧ encode [97, 48] [] = (.ok (), [0x18, 0x3f]) := by decide +kernel
/-! The value of the code of "b" (35, six bits): of the 36 symbols with shorter or equal codes, ten have five bits. -/
example : canonicalValue 257 (fun b => (code b).length) 98 = 35 := by decide +kernel

end Verif.Props
