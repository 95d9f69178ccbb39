import Verif.Spec.RustSource
import Verif.Huffman.Examples
/-! Lemmas for C112: what the example programs print is read back. -/
namespace Verif.Spec.RustSource
open Verif.Huffman

/-! ### Numbers -/

theorem digitVal_digitChar {d : Nat} (h : d < 16) : digitVal d.digitChar = some d := by
  have : ∀ d : Fin 16, digitVal d.val.digitChar = some d.val := by decide +kernel
  exact this ⟨d, h⟩

theorem wordChar_digitChar {d : Nat} (h : d < 16) : wordChar d.digitChar = true := by
  have : ∀ d : Fin 16, wordChar d.val.digitChar = true := by decide +kernel
  exact this ⟨d, h⟩

theorem digitsVal_append (b acc : Nat) (xs ys : List Char) :
    digitsVal b acc (xs ++ ys) = (digitsVal b acc xs).bind fun a => digitsVal b a ys := by
  induction xs generalizing acc with
  | nil => rfl
  | cons c cs ih =>
    simp only [List.cons_append, digitsVal]
    cases digitVal c with
    | none => rfl
    | some d =>
      simp only
      split
      · exact ih _
      · rfl

theorem toDigits_spec {b : Nat} (hb : 1 < b) (hb' : b ≤ 16) (n : Nat) :
    digitsVal b 0 (Nat.toDigits b n) = some n ∧ (∀ c ∈ Nat.toDigits b n, wordChar c = true) := by
  induction n using Nat.strongRecOn with
  | _ n ih =>
    by_cases h : n < b
    · rw [Nat.toDigits_of_lt_base h]
      refine ⟨?_, ?_⟩
      · simp [digitsVal, digitVal_digitChar (Nat.lt_of_lt_of_le h hb'), h]
      · intro c hc
        rw [List.mem_singleton] at hc
        rw [hc]; exact wordChar_digitChar (by omega)
    · have hd : n / b < n := Nat.div_lt_self (by omega) hb
      have hm : n % b < b := Nat.mod_lt _ (by omega)
      rw [Nat.toDigits_of_base_le hb (by omega)]
      obtain ⟨h1, h2⟩ := ih (n / b) hd
      refine ⟨?_, ?_⟩
      · rw [digitsVal_append, h1]
        simp only [Option.bind_some, digitsVal, digitVal_digitChar (Nat.lt_of_lt_of_le hm hb'), hm, if_true]
        rw [Nat.div_add_mod]
      · intro c hc
        rw [List.mem_append, List.mem_singleton] at hc
        rcases hc with hc | rfl
        · exact h2 c hc
        · exact wordChar_digitChar (by omega)

theorem toDigits10_head (n : Nat) : ∀ c ∈ Nat.toDigits 10 n, c ≠ 'x' ∧ c ≠ '\n' := by
  intro c hc
  have := Nat.isDigit_of_mem_toDigits (by decide) (by decide) hc
  refine ⟨?_, ?_⟩ <;> (rintro rfl; exact absurd this (by decide))

theorem classify_dec (n : Nat) : classify (showDec n) = .num n := by
  unfold classify showDec
  split
  · rename_i c cs h
    have := toDigits10_head n 'x' (by rw [h]; simp)
    exact absurd rfl this.1
  · rw [(toDigits_spec (by decide) (by decide) n).1]

theorem digitsVal_zeros (b k acc : Nat) (hb : 0 < b) (xs : List Char) (ha : acc = 0) :
    digitsVal b acc (List.replicate k '0' ++ xs) = digitsVal b 0 xs := by
  subst ha
  induction k with
  | zero => rfl
  | succ k ih =>
    rw [List.replicate_succ, List.cons_append, digitsVal]
    have : digitVal '0' = some 0 := by decide
    simp only [this, hb, if_true, Nat.mul_zero, Nat.zero_add]
    exact ih

theorem classify_hex (n : Nat) : classify ('0' :: 'x' :: showHex2 n) = .num n := by
  have hne : showHex2 n ≠ [] := by
    unfold showHex2
    have := Nat.toDigits_ne_nil (n := n) (b := 16)
    simp [this]
  have hv : digitsVal 16 0 (showHex2 n) = some n := by
    unfold showHex2
    rw [digitsVal_zeros 16 _ 0 (by decide) _ rfl]
    exact (toDigits_spec (by decide) (by decide) n).1
  cases h : showHex2 n with
  | nil => exact absurd h hne
  | cons c cs =>
    rw [h] at hv
    simp only [classify, hv]

theorem showHex2_word (n : Nat) : ∀ c ∈ showHex2 n, wordChar c = true := by
  intro c hc
  unfold showHex2 at hc
  rw [List.mem_append, List.mem_replicate] at hc
  rcases hc with ⟨_, rfl⟩ | hc
  · decide
  · exact (toDigits_spec (by decide) (by decide) n).2 c hc

/-! ### Lexer -/

theorem lex_inWord (w ds rest : List Char) (h : ∀ c ∈ ds, wordChar c = true) :
    lex (.inWord w) (ds ++ rest) = lex (.inWord (w ++ ds)) rest := by
  induction ds generalizing w with
  | nil => simp
  | cons d ds ih =>
    rw [List.cons_append, lex, if_pos (h d (by simp)), ih _ (fun c hc => h c (by simp [hc]))]
    simp

theorem lex_stop (w cs : List Char) (c : Char) (h : wordChar c = false) :
    lex (.inWord w) (c :: cs) = classify w :: lex .between (c :: cs) := by
  rw [lex, lex]
  simp only [h, Bool.false_eq_true, if_false]
  split
  · rfl
  · split
    · rfl
    · rfl

theorem lex_run (ds cs : List Char) (c : Char) (hne : ds ≠ []) (h : ∀ c ∈ ds, wordChar c = true) (hc : wordChar c = false) :
    lex .between (ds ++ c :: cs) = classify ds :: lex .between (c :: cs) := by
  cases ds with
  | nil => exact absurd rfl hne
  | cons d ds =>
    rw [List.cons_append, lex, if_pos (h d (by simp)), lex_inWord _ _ _ (fun c hc => h c (by simp [hc])), lex_stop _ _ _ hc]
    rfl

theorem lex_dec (n : Nat) (c : Char) (cs : List Char) (hc : wordChar c = false) :
    lex .between (showDec n ++ c :: cs) = .num n :: lex .between (c :: cs) := by
  rw [lex_run (showDec n) _ _ Nat.toDigits_ne_nil (toDigits_spec (by decide) (by decide) n).2 hc, classify_dec]

theorem lex_hex (n : Nat) (c : Char) (cs : List Char) (hc : wordChar c = false) :
    lex .between ('0' :: 'x' :: (showHex2 n ++ c :: cs)) = .num n :: lex .between (c :: cs) := by
  have := lex_run ('0' :: 'x' :: showHex2 n) cs c (by simp) (by
    intro d hd
    simp only [List.mem_cons] at hd
    rcases hd with rfl | rfl | hd
    · decide
    · decide
    · exact showHex2_word n d hd) hc
  rw [classify_hex] at this
  exact this

theorem lex_comment (ds rest : List Char) (h : ∀ c ∈ ds, c ≠ '\n') : lex .comment (ds ++ '\n' :: rest) = lex .between rest := by
  induction ds with
  | nil => rfl
  | cons d ds ih =>
    rw [List.cons_append, lex, if_neg (h d (by simp))]
    exact ih (fun c hc => h c (by simp [hc]))

/-! ### Cells -/

/-- Tokens of an option. -/
def optToks : Option Nat → List Tok
  | none => [.word ['N', 'o', 'n', 'e']]
  | some n => [.word ['S', 'o', 'm', 'e'], .punct '(', .num n, .punct ')']

/-- Tokens of a cell. -/
def cellToks (c : Option Nat × Option Nat × Nat) : List Tok :=
  .punct '(' :: (optToks c.1 ++ .punct ',' :: (optToks c.2.1 ++ [.punct ',', .num c.2.2, .punct ')']))

/-- Tokens of a pair. -/
def pairToks (c : Nat × Nat) : List Tok := [.punct '(', .num c.1, .punct ',', .num c.2, .punct ')']

/-- Tokens of items separated by commas. -/
def seps {α : Type} (tk : α → List Tok) : List α → List Tok
  | [] => []
  | [a] => tk a
  | a :: b :: l => tk a ++ .punct ',' :: seps tk (b :: l)

theorem lex_opt (o : Option Nat) (c : Char) (cs : List Char) (hc : wordChar c = false) :
    lex .between (showOpt o ++ c :: cs) = optToks o ++ lex .between (c :: cs) := by
  cases o with
  | none =>
    rw [showOpt, lex_run _ _ _ (by decide) (by decide) hc]
    rfl
  | some n =>
    have e : showOpt (some n) ++ c :: cs = ['S', 'o', 'm', 'e'] ++ '(' :: (showDec n ++ ')' :: (c :: cs)) := by
      simp [showOpt, lit]
    rw [e, lex_run _ _ _ (by decide) (by decide) (by decide)]
    have e2 : ∀ r, lex .between ('(' :: r) = .punct '(' :: lex .between r := fun r => rfl
    have e3 : ∀ r, lex .between (')' :: r) = .punct ')' :: lex .between r := fun r => rfl
    rw [e2, lex_dec _ _ _ (by decide), e3]
    rfl

theorem lex_cell (c : Cell) (rest : List Char) :
    lex .between (showCell c ++ rest) = cellToks c ++ lex .between rest := by
  have e : showCell c ++ rest = '(' :: (showOpt c.1 ++ ',' :: (' ' :: (showOpt c.2.1 ++ ',' :: (' ' :: (showDec c.2.2 ++ ')' :: rest))))) := by
    simp [showCell, lit]
  have e1 : ∀ r, lex .between ('(' :: r) = .punct '(' :: lex .between r := fun r => rfl
  have e2 : ∀ r, lex .between (',' :: ' ' :: r) = .punct ',' :: lex .between r := fun r => rfl
  have e3 : ∀ r, lex .between (')' :: r) = .punct ')' :: lex .between r := fun r => rfl
  rw [e, e1, lex_opt _ _ _ (by decide), e2, lex_opt _ _ _ (by decide), e2, lex_dec _ _ _ (by decide), e3]
  simp [cellToks]

theorem lex_cells (tl j : Nat) (cs : List Cell) (rest : List Char) (h : j + cs.length = tl) :
    lex .between (showCells tl j cs ++ rest) = seps cellToks cs ++ lex .between rest := by
  induction cs generalizing j with
  | nil => rfl
  | cons c cs ih =>
    have e8 : ∀ r, lex .between (lit "        " ++ r) = lex .between r := fun r => rfl
    have e9 : ∀ r, lex .between (lit "\n" ++ r) = lex .between r := fun r => rfl
    have e10 : ∀ r, lex .between (lit "," ++ r) = .punct ',' :: lex .between r := fun r => rfl
    simp only [List.length_cons] at h
    simp only [showCells, List.append_assoc]
    rw [e8, lex_cell]
    cases cs with
    | nil =>
      rw [if_neg (by simp at h; omega), List.nil_append, e9]
      simp only [seps, showCells, List.nil_append]
    | cons c' cs =>
      rw [if_pos (by simp only [List.length_cons] at h; omega), e10, e9, ih (j + 1) (by omega)]
      simp [seps]

/-- Tokens of a row. -/
def rowToks (row : List Cell) : List Tok := .punct '[' :: (seps cellToks row ++ [.punct ']'])

theorem lex_rows (hl tl i : Nat) (rows : List (List Cell)) (rest : List Char) (h : i + rows.length = hl)
    (hr : ∀ r ∈ rows, r.length = tl) :
    lex .between (showRows hl tl i rows ++ rest) = seps rowToks rows ++ lex .between rest := by
  induction rows generalizing i with
  | nil => rfl
  | cons row rows ih =>
    have e7 : ∀ r, lex .between (lit "    [ // " ++ r) = .punct '[' :: lex .comment r := fun r => rfl
    have e8 : ∀ r, lex .between (lit "    ]" ++ r) = .punct ']' :: lex .between r := fun r => rfl
    have e9 : ∀ r, lex .between (lit "\n" ++ r) = lex .between r := fun r => rfl
    have e10 : ∀ r, lex .between (lit "," ++ r) = .punct ',' :: lex .between r := fun r => rfl
    have e11 : ∀ r, lit "\n" ++ r = '\n' :: r := fun r => rfl
    have hrow := hr row (by simp)
    simp only [List.length_cons] at h
    simp only [showRows, List.append_assoc]
    rw [e7, e11, lex_comment (showDec i) _ (fun c hc => (toDigits10_head i c hc).2), lex_cells tl 0 row _ (by omega), e8]
    cases rows with
    | nil =>
      rw [if_neg (by simp at h; omega), List.nil_append, e9]
      simp [seps, showRows, rowToks]
    | cons row' rows =>
      rw [if_pos (by simp only [List.length_cons] at h; omega), e10, e9, ih (i + 1) (by omega) (fun r hr' => hr r (by simp [hr']))]
      simp [seps, rowToks]

theorem lex_codings (i : Nat) (cs : List (Nat × Nat)) (rest : List Char) (hcs : cs ≠ []) :
    lex .between (showCodings i cs ++ rest) = (if i > 0 then [.punct ','] else []) ++ seps pairToks cs ++ lex .between rest := by
  induction cs generalizing i with
  | nil => exact absurd rfl hcs
  | cons c cs ih =>
    have hone : ∀ rest, lex .between (lit "  (" ++ (showDec c.1 ++ (lit ", 0x" ++ (showHex2 c.2 ++ (lit ")" ++ rest))))) =
        pairToks c ++ lex .between rest := by
      intro rest
      have e1 : ∀ r, lex .between (lit "  (" ++ r) = .punct '(' :: lex .between r := fun r => rfl
      have e2 : ∀ r, lit ", 0x" ++ r = ',' :: ' ' :: '0' :: 'x' :: r := fun r => rfl
      have e3 : ∀ r, lex .between (',' :: ' ' :: r) = .punct ',' :: lex .between r := fun r => rfl
      have e4 : ∀ r, lit ")" ++ r = ')' :: r := fun r => rfl
      have e5 : ∀ r, lex .between (')' :: r) = .punct ')' :: lex .between r := fun r => rfl
      rw [e1, e2, lex_dec _ _ _ (by decide), e3, e4, lex_hex _ _ _ (by decide), e5]
      rfl
    have hsep : ∀ r, lex .between ((if i > 0 then lit ",\n" else []) ++ r) = (if i > 0 then [.punct ','] else []) ++ lex .between r := by
      intro r
      split
      · rfl
      · rfl
    simp only [showCodings, List.append_assoc]
    rw [hsep, hone]
    cases cs with
    | nil => simp [seps, showCodings]
    | cons c' cs =>
      rw [ih (i + 1) (by simp)]
      simp [seps]

/-! ### Readers -/

theorem option_spec (o : Option Nat) (ts : List Tok) : option (optToks o ++ ts) = some (o, ts) := by
  cases o <;> rfl

theorem cell_spec (c : Option Nat × Option Nat × Nat) (ts : List Tok) : cell (cellToks c ++ ts) = some (c, ts) := by
  obtain ⟨a, b, n⟩ := c
  cases a <;> cases b <;> rfl

theorem pair_spec (c : Nat × Nat) (ts : List Tok) : pair (pairToks c ++ ts) = some (c, ts) := rfl

theorem items_spec {α : Type} (p : Reader α) (tk : α → List Tok) (hp : ∀ a ts, p (tk a ++ ts) = some (a, ts)) (l : List α)
    (hl : l ≠ []) (fuel : Nat) (hf : l.length ≤ fuel) (ts : List Tok) :
    items p fuel (seps tk l ++ .punct ']' :: ts) = some (l, ts) := by
  induction l generalizing fuel with
  | nil => exact absurd rfl hl
  | cons a l ih =>
    cases fuel with
    | zero => simp at hf
    | succ fuel =>
      cases l with
      | nil => simp only [seps, items, hp]
      | cons b l =>
        simp only [seps, items, List.append_assoc, List.cons_append, hp]
        rw [ih (by simp) fuel (by simpa using hf)]

theorem seps_length {α : Type} (tk : α → List Tok) (h : ∀ a, tk a ≠ []) (l : List α) : l.length ≤ (seps tk l).length := by
  induction l with
  | nil => simp
  | cons a l ih =>
    have := List.length_pos_iff.mpr (h a)
    cases l with
    | nil => simp only [seps, List.length_cons, List.length_nil]; omega
    | cons b l => simp only [seps, List.length_cons, List.length_append] at ih ⊢; omega

theorem array_spec {α : Type} (p : Reader α) (tk : α → List Tok) (hp : ∀ a ts, p (tk a ++ ts) = some (a, ts))
    (hh : ∀ a, ∃ c ts, tk a = .punct c :: ts ∧ c ≠ ']') (l : List α) (ts : List Tok) :
    array p (.punct '[' :: (seps tk l ++ .punct ']' :: ts)) = some (l, ts) := by
  cases l with
  | nil => rfl
  | cons a l =>
    have hlen := seps_length tk (fun a => by obtain ⟨c, ts, h, _⟩ := hh a; rw [h]; simp) (a :: l)
    have hhead : ∃ c us, seps tk (a :: l) ++ .punct ']' :: ts = .punct c :: us ∧ c ≠ ']' := by
      obtain ⟨c, us, h, hc⟩ := hh a
      cases l with
      | nil => exact ⟨c, _, by rw [seps, h]; rfl, hc⟩
      | cons b l => exact ⟨c, _, by rw [seps, h]; rfl, hc⟩
    have hi := items_spec p tk hp (a :: l) (by simp) (seps tk (a :: l) ++ .punct ']' :: ts).length (by
      rw [List.length_append]; omega) ts
    obtain ⟨c, us, hu, hc⟩ := hhead
    rw [hu] at hi ⊢
    unfold array
    split
    · rename_i h
      simp only [List.cons.injEq, Tok.punct.injEq] at h
      exact absurd h.2.1 hc
    · rename_i h
      simp only [List.cons.injEq, true_and] at h
      rw [← h]; exact hi
    · rename_i h
      exact absurd rfl (h _)

theorem expect_spec (pre ts : List Tok) : expect pre (pre ++ ts) = some ((), ts) := by
  unfold expect
  rw [if_pos (by simp)]
  simp

end Verif.Spec.RustSource
