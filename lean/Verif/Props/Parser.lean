import Verif.Huffman.Parser
import Verif.Spec.CodeText
import Verif.Lemmas.Bits
import Verif.Lemmas.HuffGen
/-! Property theorem C76. -/
namespace Verif.Huffman
open Verif Verif.Spec Verif.Spec.CodeText

theorem hex_lt {n : Nat} (h : n < 16) : hex n = [hexChar n] := by rw [hex, if_pos h]
theorem hex_ge {n : Nat} (h : 16 ≤ n) : hex n = hex (n / 16) ++ [hexChar (n % 16)] := by rw [hex, if_neg (by omega)]

theorem hexChar_digit : ∀ d < 16, hexDigit (hexChar d) = some d := by decide
theorem hexChar_not : ∀ d < 16, isWs1 (hexChar d) = false ∧ hexChar d < 0x80 ∧ hexChar d ≠ 43 ∧ hexChar d ≠ 10 ∧
    hexChar d ≠ 13 := by decide

theorem hex_mem (n : Nat) : ∀ b ∈ hex n, ∃ d < 16, b = hexChar d := by
  induction n using Nat.strongRecOn with
  | ind n ih =>
    intro b hb
    rcases Nat.lt_or_ge n 16 with h | h
    · rw [hex_lt h] at hb; exact ⟨n, h, by simpa using hb⟩
    · rw [hex_ge h] at hb
      rcases List.mem_append.mp hb with hb | hb
      · exact ih (n / 16) (by omega) b hb
      · exact ⟨n % 16, by omega, by simpa using hb⟩

theorem hex_ne (n : Nat) : hex n ≠ [] := by
  rcases Nat.lt_or_ge n 16 with h | h
  · rw [hex_lt h]; simp
  · rw [hex_ge h]; simp

theorem hex_length (k : Nat) : ∀ n, n < 16 ^ (k + 1) → (hex n).length ≤ k + 1 := by
  induction k with
  | zero => intro n h; rw [hex_lt (by omega)]; simp
  | succ k ih =>
    intro n h
    rcases Nat.lt_or_ge n 16 with h' | h'
    · rw [hex_lt h']; simp
    · rw [hex_ge h', List.length_append]
      have := ih (n / 16) (by rw [Nat.div_lt_iff_lt_mul (by decide), ← Nat.pow_succ]; exact h)
      simpa using this

theorem hexDigits_append (acc : Nat) (a : Bytes) (b : UInt8) :
    hexDigits acc (a ++ [b]) = (hexDigits acc a).bind fun x => hexDigits x [b] := by
  induction a generalizing acc with
  | nil => simp [hexDigits]
  | cons c a ih =>
    simp only [List.cons_append, hexDigits]
    cases hexDigit c with
    | none => rfl
    | some d =>
      simp only
      split
      · rw [ih]; rfl
      · rfl

theorem hexDigits_hex (n : Nat) (h : n < 2 ^ 32) : hexDigits 0 (hex n) = some n := by
  induction n using Nat.strongRecOn with
  | ind n ih =>
    rcases Nat.lt_or_ge n 16 with h' | h'
    · rw [hex_lt h']
      simp only [hexDigits, hexChar_digit n h']
      rw [if_pos (by omega)]; simp
    · rw [hex_ge h', hexDigits_append, ih (n / 16) (by omega) (by omega)]
      simp only [Option.bind_some, hexDigits, hexChar_digit (n % 16) (by omega)]
      rw [if_pos (by omega)]
      congr 1; omega

theorem fromStrRadix16_hex (n : Nat) (h : n < 2 ^ 32) : fromStrRadix16 (hex n) = some n := by
  have h1 := hexDigits_hex n h
  have hne := hex_ne n
  have hm := hex_mem n
  cases hx : hex n with
  | nil => exact absurd hx hne
  | cons b bs =>
    rw [hx] at h1 hm
    have hb : b ≠ 43 := by
      obtain ⟨d, hd, rfl⟩ := hm b List.mem_cons_self
      exact (hexChar_not d hd).2.2.1
    unfold fromStrRadix16
    split
    · rename_i h'; cases h'
    · rename_i h'; simp only [List.cons.injEq] at h'; exact absurd h'.1 hb
    · rename_i h'; simp only [List.cons.injEq] at h'; exact absurd h'.1 hb
    · exact h1

theorem isWs_ascii : ∀ a : UInt8, isWs1 a = false → a < 0x80 → ∀ b c, isWs2 a b = false ∧ isWs2 b a = false ∧ isWs3 a b c = false ∧ isWs3 c b a = false := by
  intro a _ ha b c
  have : ∀ n : UInt8, 0x80 ≤ n → a ≠ n := by
    rintro n hn rfl
    exact absurd (UInt8.lt_of_le_of_lt hn ha) (by simp)
  have e : ∀ n : UInt8, 0x80 ≤ n → (a == n) = false := fun n hn => by simpa using this n hn
  have l : (0x80 ≤ a) = False := by simp [ha]
  simp [isWs2, isWs3, e 0xC2, e 0x85, e 0xA0, e 0xE1, e 0xE2, e 0xE3, e 0x80, e 0xA8, e 0xA9, e 0xAF, e 0x9F, l]

theorem trimLoop_stop {f : Bytes → Option Bytes} {l : Bytes} (h : f l = none) : ∀ fuel, trimLoop f fuel l = l
  | 0 => rfl
  | fuel + 1 => by rw [trimLoop, h]

/-- No white space at the front of a text whose first character is ASCII and not white space, and likewise at the end. -/
theorem ws_none {a : UInt8} {l : Bytes} (h : isWs1 a = false) (ha : a < 0x80) : wsFront (a :: l) = none ∧ wsBack (a :: l) = none := by
  have k := isWs_ascii a h ha
  match l with
  | [] => simp [wsFront, wsBack, h]
  | [b] => simp [wsFront, wsBack, h, k b b]
  | b :: c :: r => simp [wsFront, wsBack, h, k b c]

theorem wsFront_space (l : Bytes) : wsFront (32 :: l) = some l := by
  match l with
  | [] => rfl
  | [b] => rfl
  | b :: c :: r => rfl

theorem trim_hex (k n : Nat) : trim (List.replicate k 32 ++ hex n) = hex n := by
  have hp : ∀ b ∈ hex n, isWs1 b = false ∧ b < 0x80 := by
    intro b hb
    obtain ⟨d, hd, rfl⟩ := hex_mem n b hb
    exact ⟨(hexChar_not d hd).1, (hexChar_not d hd).2.1⟩
  have hn : ∀ l : Bytes, l ≠ [] → (∀ b ∈ l, isWs1 b = false ∧ b < 0x80) → wsFront l = none ∧ wsBack l = none := by
    intro l hl h
    cases l with
    | nil => exact absurd rfl hl
    | cons a l => exact ws_none (h a List.mem_cons_self).1 (h a List.mem_cons_self).2
  have h1 : ∀ fuel, k ≤ fuel → trimLoop wsFront fuel (List.replicate k (32 : UInt8) ++ hex n) = hex n := by
    induction k with
    | zero => intro fuel _; exact trimLoop_stop (hn _ (hex_ne n) hp).1 fuel
    | succ k ih =>
      intro fuel hf
      obtain ⟨g, rfl⟩ : ∃ g, fuel = g + 1 := ⟨fuel - 1, by omega⟩
      rw [List.replicate_succ, List.cons_append, trimLoop, wsFront_space]
      exact ih g (by omega)
  unfold trim
  simp only
  rw [h1 _ (by simp)]
  rw [trimLoop_stop (hn _ (by simp [hex_ne n]) (fun b hb => hp b (List.mem_reverse.mp hb))).2, List.reverse_reverse]

theorem column_length (bs : List Bool) : ∀ k, k ≤ 8 → bs ≠ [] → (column k bs).length ≤ bs.length + (k + bs.length - 1) / 8 := by
  induction bs with
  | nil => intro k _ h; exact absurd rfl h
  | cons b bs ih =>
    intro k hk _
    have hnil : ∀ j, (column j []).length = 0 := fun j => by cases j <;> rfl
    unfold column
    split
    · rename_i h8
      simp only [List.length_cons]
      by_cases hb : bs = []
      · subst hb; rw [hnil]; simp; omega
      · have := ih 1 (by omega) hb; omega
    · simp only [List.length_cons]
      by_cases hb : bs = []
      · subst hb; rw [hnil]; simp
      · have := ih (k + 1) (by omega) hb; omega

theorem column_le (bs : List Bool) (h : bs.length ≤ 30) : (column 0 bs).length ≤ 33 := by
  by_cases hb : bs = []
  · subst hb; simp [column]
  · have := column_length bs 0 (by omega) hb; omega

theorem binaryColumn_spaces (k : Nat) : binaryColumn (List.replicate k 32) = .ok [] := by
  induction k with
  | zero => rfl
  | succ k ih => rw [List.replicate_succ, binaryColumn, if_neg (by decide), if_neg (by decide), if_pos (by decide)]; exact ih

theorem binaryColumn_column (bs : List Bool) (k p : Nat) : binaryColumn (column k bs ++ List.replicate p 32) = .ok bs := by
  induction bs generalizing k with
  | nil => unfold column; exact binaryColumn_spaces p
  | cons b bs ih =>
    have step : ∀ l, binaryColumn l = .ok bs → binaryColumn ((if b then 49 else 48) :: l) = .ok (b :: bs) := by
      intro l hl
      cases b
      · rw [binaryColumn, if_neg (by decide), if_pos (by decide), hl]; rfl
      · rw [binaryColumn, if_pos (by decide), hl]; rfl
    unfold column
    split
    · rw [List.cons_append, binaryColumn, if_neg (by decide), if_neg (by decide), if_pos (by decide), List.cons_append]
      exact step _ (ih 1)
    · rw [List.cons_append]
      exact step _ (ih (k + 1))

theorem parseLine_text (l : Line) (h : l.Good) : parseLine l.text = .ok (l.bits.length, bitsVal l.bits) := by
  obtain ⟨h1, h2, h3, _⟩ := h
  have hc := column_le l.bits h3
  have hv : bitsVal l.bits < 2 ^ 30 := Nat.lt_of_lt_of_le (bitsVal_lt _) (Nat.pow_le_pow_right (by decide) h3)
  have hx := hex_length 7 (bitsVal l.bits) (by omega)
  have e1 : (l.text.drop 12).take 33 = column 0 l.bits ++ List.replicate (33 - (column 0 l.bits).length) 32 := by
    unfold Line.text
    simp only [List.append_assoc]
    rw [List.drop_left' h1, ← List.append_assoc, List.take_left']
    simp; omega
  have e2 : (l.text.drop 50).take 9 = List.replicate (9 - (hex (bitsVal l.bits)).length) 32 ++ hex (bitsVal l.bits) := by
    unfold Line.text
    simp only
    rw [List.append_assoc _ _ l.tail, List.drop_left', List.take_left']
    · simp; omega
    · simp; omega
  have hl : 59 ≤ l.text.length := by
    unfold Line.text
    simp; omega
  unfold parseLine
  rw [if_neg (by omega), e1, binaryColumn_column]
  simp only [Res.bind_ok]
  rw [if_neg (by omega), e2, trim_hex, fromStrRadix16_hex _ (by omega)]

theorem column_mem (bs : List Bool) (k : Nat) : ∀ b ∈ column k bs, b = 124 ∨ b = 48 ∨ b = 49 := by
  induction bs generalizing k with
  | nil => intro b hb; simp [column] at hb
  | cons c bs ih =>
    intro b hb
    unfold column at hb
    split at hb
    · simp only [List.mem_cons] at hb
      rcases hb with rfl | rfl | hb
      · simp
      · cases c <;> simp
      · exact ih 1 b hb
    · simp only [List.mem_cons] at hb
      rcases hb with rfl | hb
      · cases c <;> simp
      · exact ih (k + 1) b hb

theorem text_no_break (l : Line) (h : l.Good) : ∀ b ∈ l.text, b ≠ 10 ∧ b ≠ 13 := by
  obtain ⟨_, _, _, h4⟩ := h
  intro b hb
  unfold Line.text at hb
  simp only [List.mem_append] at hb
  rcases hb with (((hb | (hb | hb)) | hb) | (hb | hb)) | hb
  · exact h4 b (by simp [hb])
  · rcases column_mem _ _ b hb with rfl | rfl | rfl <;> decide
  · rw [(List.mem_replicate.mp hb).2]; decide
  · exact h4 b (by simp [hb])
  · rw [(List.mem_replicate.mp hb).2]; decide
  · obtain ⟨d, hd, rfl⟩ := hex_mem _ b hb
    exact (hexChar_not d hd).2.2.2
  · exact h4 b (by simp [hb])

theorem splitLines_other {b : UInt8} (h : b ≠ 10) (cur bs : Bytes) : splitLines cur (b :: bs) = splitLines (b :: cur) bs := by
  cases cur <;> simp only [splitLines, if_neg h]

theorem splitLines_end (cur bs : Bytes) :
    splitLines cur (10 :: bs) = (if cur.head? = some 13 then cur.tail.reverse else cur.reverse) :: splitLines [] bs := by
  cases cur with
  | nil => rfl
  | cons c cur =>
    simp only [splitLines, if_true, List.head?_cons, Option.some.injEq, List.tail_cons]
    congr 1
    split
    · rename_i c' h; simp only [List.cons.injEq] at h; rw [if_pos h.1, h.2]
    · rename_i h; rw [if_neg]; rintro rfl; exact h cur rfl

theorem splitLines_line (t rest : Bytes) (crlf : Bool) : ∀ cur : Bytes, (∀ b ∈ t, b ≠ 10 ∧ b ≠ 13) → (∀ b ∈ cur, b ≠ 13) →
    splitLines cur (t ++ (if crlf then [13, 10] else [10]) ++ rest) = (cur.reverse ++ t) :: splitLines [] rest := by
  induction t with
  | nil =>
    intro cur _ hc
    cases crlf
    · simp only [Bool.false_eq_true, if_false, List.nil_append, List.append_nil, List.cons_append]
      rw [splitLines_end, if_neg]
      intro h
      exact hc 13 (List.mem_of_mem_head? h) rfl
    · simp only [if_true, List.nil_append, List.append_nil, List.cons_append]
      rw [splitLines_other (by decide), splitLines_end, List.head?_cons, if_pos rfl, List.tail_cons]
  | cons b t ih =>
    intro cur h hc
    have hb := h b List.mem_cons_self
    rw [List.cons_append, List.cons_append, splitLines_other hb.1, ih (b :: cur) (fun x hx => h x (List.mem_cons_of_mem _ hx))]
    · simp
    · intro x hx
      rcases List.mem_cons.mp hx with rfl | hx
      · exact hb.2
      · exact hc x hx

end Verif.Huffman

namespace Verif.Props
open Verif Verif.Spec Verif.Spec.CodeText Verif.Huffman

/-- C76. `parse` reads every table in the format of the RFC, with any number of symbols and any codes of at most 30 bits: it
returns the length and the value of each code in order. -/
theorem C76_parse_format (ls : List Line) (h : ∀ l ∈ ls, l.Good) :
    parse (file ls) = .ok (ls.map fun l => (l.bits.length, bitsVal l.bits)) := by
  have hs : splitLines [] (file ls) = ls.map Line.text := by
    induction ls with
    | nil => rfl
    | cons l ls ih =>
      have := splitLines_line l.text (file ls) l.crlf [] (text_no_break l (h l List.mem_cons_self)) (by simp)
      rw [ih fun l hl => h l (List.mem_cons_of_mem _ hl)] at this
      simpa [file] using this
  unfold parse
  rw [hs]
  clear hs
  induction ls with
  | nil => rfl
  | cons l ls ih =>
    rw [List.map_cons, parseLines, parseLine_text l (h l List.mem_cons_self)]
    simp only [Res.bind_ok, ih fun l hl => h l (List.mem_cons_of_mem _ hl)]
    rfl

/-- The octets of an ASCII text. -/
def ascii (s : String) : Bytes := s.toList.map fun c => UInt8.ofNat c.toNat

/-- The line of symbol 10 in the RFC. -/
def line10 : Line := ⟨ascii "    ( 10)  |", List.replicate 28 true ++ [false, false], ascii "     ", ascii "  [30]", false⟩

example : line10.Good ∧ line10.text = ascii "    ( 10)  |11111111|11111111|11111111|111100      3ffffffc  [30]" ∧
    bitsVal line10.bits = 0x3ffffffc := by
  refine ⟨⟨rfl, rfl, by decide, by decide⟩, ?_, by decide⟩
  have : hex (bitsVal line10.bits) = ascii "3ffffffc" := by
    rw [show bitsVal line10.bits = 0x3ffffffc by decide]
    simp only [hex_ge, hex_lt, Nat.reduceDiv, Nat.reduceMod, Nat.reduceLT, Nat.reduceLeDiff]
    decide
  unfold Line.text
  rw [this]
  decide

end Verif.Props
