import Verif.Props.Parser
import Verif.Spec.ParseText
/-! Property theorems C92: exactly which texts `parse` accepts, and what it reads. -/
namespace Verif.Huffman
open Verif Verif.Spec Verif.Spec.CodeText

/-! ### Lines -/

theorem splitLines_cur (bs : Bytes) : ∀ cur : Bytes, 10 ∉ bs → cur.reverse ++ bs ≠ [] → splitLines cur bs = [cur.reverse ++ bs] := by
  induction bs with
  | nil =>
    intro cur _ h
    cases cur with
    | nil => simp at h
    | cons c cur => simp [splitLines]
  | cons b bs ih =>
    intro cur h _
    simp only [List.mem_cons, not_or] at h
    rw [splitLines_other (fun e => h.1 e.symm), ih (b :: cur) h.2 (by simp)]
    simp

theorem splitLines_run (t rest : Bytes) : ∀ cur : Bytes, 10 ∉ t → splitLines cur (t ++ 10 :: rest) = splitLines (t.reverse ++ cur) (10 :: rest) := by
  induction t with
  | nil => intro cur _; rfl
  | cons b t ih =>
    intro cur h
    simp only [List.mem_cons, not_or] at h
    rw [List.cons_append, splitLines_other (fun e => h.1 e.symm), ih (b :: cur) h.2]
    simp

theorem splitLines_of_isLines {bs : Bytes} {ls : List Bytes} (h : IsLines bs ls) : splitLines [] bs = ls := by
  induction h with
  | nil => rfl
  | @last t h h1 => have := splitLines_cur t [] h1 (by simpa using h); simpa using this
  | @lf t rest ls h h1 h2 ih =>
    rw [splitLines_run t rest [] h, List.append_nil, splitLines_end, ih, List.head?_reverse, if_neg h1, List.reverse_reverse]
  | @crlf t rest ls h h2 ih =>
    have e : t ++ 13 :: 10 :: rest = (t ++ [13]) ++ 10 :: rest := by simp
    rw [e, splitLines_run (t ++ [13]) rest [] (by simpa using h), List.append_nil, splitLines_end, ih, List.reverse_append]
    simp

theorem exists_isLines (n : Nat) : ∀ bs : Bytes, bs.length < n → ∃ ls, IsLines bs ls := by
  induction n with
  | zero => intro bs h; omega
  | succ n ih =>
    intro bs h
    by_cases hm : 10 ∈ bs
    · obtain ⟨t, rest, rfl, ht⟩ := List.eq_append_cons_of_mem hm
      obtain ⟨ls, hls⟩ := ih rest (by simp at h; omega)
      by_cases h13 : t.getLast? = some 13
      · obtain ⟨u, rfl⟩ : ∃ u, t = u ++ [13] := by
          have hne : t ≠ [] := by rintro rfl; simp at h13
          refine ⟨t.dropLast, ?_⟩
          have := List.dropLast_concat_getLast hne
          rw [List.getLast?_eq_some_getLast hne] at h13
          simp only [Option.some.injEq] at h13
          rw [h13] at this
          exact this.symm
        refine ⟨u :: ls, ?_⟩
        rw [List.append_assoc]
        exact .crlf (fun hu => ht (List.mem_append_left _ hu)) hls
      · exact ⟨t :: ls, .lf ht h13 hls⟩
    · cases bs with
      | nil => exact ⟨[], .nil⟩
      | cons b bs => exact ⟨_, .last (by simp) hm⟩

theorem splitLines_isLines (bs : Bytes) : IsLines bs (splitLines [] bs) := by
  obtain ⟨ls, h⟩ := exists_isLines _ bs (Nat.lt_succ_self _)
  rw [splitLines_of_isLines h]
  exact h

/-! ### Columns -/

theorem binaryColumn_spec (bs : Bytes) :
    ((∀ b ∈ bs, b ∈ [(48 : UInt8), 49, 124, 32]) ∧
      ∃ r, binaryColumn bs = .ok r ∧ r.length = bs.countP (fun b => b == 48 || b == 49)) ∨
    (¬ (∀ b ∈ bs, b ∈ [(48 : UInt8), 49, 124, 32]) ∧ binaryColumn bs = .panic) := by
  induction bs with
  | nil => exact Or.inl ⟨by simp, [], rfl, rfl⟩
  | cons b bs ih =>
    unfold binaryColumn
    by_cases h1 : b = 49
    · subst h1
      rcases ih with ⟨h2, r, h3, h4⟩ | ⟨h2, h3⟩
      · refine Or.inl ⟨?_, true :: r, ?_, ?_⟩
        · intro b hb
          rcases List.mem_cons.mp hb with rfl | hb
          · decide
          · exact h2 b hb
        · rw [if_pos rfl, h3]; rfl
        · simp [h4]
      · refine Or.inr ⟨fun h => h2 fun b hb => h b (List.mem_cons_of_mem _ hb), ?_⟩
        rw [if_pos rfl, h3]; rfl
    · rw [if_neg h1]
      by_cases h0 : b = 48
      · subst h0
        rcases ih with ⟨h2, r, h3, h4⟩ | ⟨h2, h3⟩
        · refine Or.inl ⟨?_, false :: r, ?_, ?_⟩
          · intro b hb
            rcases List.mem_cons.mp hb with rfl | hb
            · decide
            · exact h2 b hb
          · rw [if_pos rfl, h3]; rfl
          · simp [h4]
        · refine Or.inr ⟨fun h => h2 fun b hb => h b (List.mem_cons_of_mem _ hb), ?_⟩
          rw [if_pos rfl, h3]; rfl
      · rw [if_neg h0]
        by_cases hs : b = 124 ∨ b = 32
        · rw [if_pos hs]
          rcases ih with ⟨h2, r, h3, h4⟩ | ⟨h2, h3⟩
          · refine Or.inl ⟨?_, r, h3, ?_⟩
            · intro b hb
              rcases List.mem_cons.mp hb with rfl | hb
              · rcases hs with rfl | rfl <;> decide
              · exact h2 b hb
            · simp [h4, h0, h1]
          · exact Or.inr ⟨fun h => h2 fun b hb => h b (List.mem_cons_of_mem _ hb), h3⟩
        · rw [if_neg hs]
          refine Or.inr ⟨?_, rfl⟩
          intro h
          have := h b List.mem_cons_self
          simp only [List.mem_cons, List.not_mem_nil, or_false] at this
          rcases this with h | h | h | h
          · exact h0 h
          · exact h1 h
          · exact hs (Or.inl h)
          · exact hs (Or.inr h)

/-! ### Numbers -/

theorem hexDigit_iff (b : UInt8) (d : Nat) : hexDigit b = some d ↔ IsHexDigit b d := by
  have e : ∀ n : Nat, n < 256 → (UInt8.ofNat n ≤ b ↔ n ≤ b.toNat) ∧ (b ≤ UInt8.ofNat n ↔ b.toNat ≤ n) := by
    intro n hn
    rw [UInt8.le_iff_toNat_le, UInt8.le_iff_toNat_le, UInt8.toNat_ofNat_of_lt' hn]
    exact ⟨Iff.rfl, Iff.rfl⟩
  have e48 : (48 : UInt8) ≤ b ↔ 48 ≤ b.toNat := (e 48 (by decide)).1
  have e57 : b ≤ (57 : UInt8) ↔ b.toNat ≤ 57 := (e 57 (by decide)).2
  have e97 : (97 : UInt8) ≤ b ↔ 97 ≤ b.toNat := (e 97 (by decide)).1
  have e102 : b ≤ (102 : UInt8) ↔ b.toNat ≤ 102 := (e 102 (by decide)).2
  have e65 : (65 : UInt8) ≤ b ↔ 65 ≤ b.toNat := (e 65 (by decide)).1
  have e70 : b ≤ (70 : UInt8) ↔ b.toNat ≤ 70 := (e 70 (by decide)).2
  unfold hexDigit IsHexDigit
  simp only [e48, e57, e97, e102, e65, e70]
  split
  · simp only [Option.some.injEq]; omega
  · split
    · simp only [Option.some.injEq]; omega
    · split
      · simp only [Option.some.injEq]; omega
      · simp only [reduceCtorEq, false_iff]; omega

theorem foldl_ge (ds : List Nat) : ∀ a : Nat, a ≤ ds.foldl (fun a d => 16 * a + d) a := by
  induction ds with
  | nil => intro a; exact Nat.le_refl a
  | cons d ds ih =>
    intro a
    have := ih (16 * a + d)
    simp only [List.foldl_cons]; omega

theorem hexDigits_iff (bs : Bytes) : ∀ (acc v : Nat), acc < 2 ^ 32 →
    (hexDigits acc bs = some v ↔ ∃ ds, DigitText bs ds ∧ v = ds.foldl (fun a d => 16 * a + d) acc ∧ v < 2 ^ 32) := by
  induction bs with
  | nil =>
    intro acc v ha
    simp only [hexDigits, Option.some.injEq]
    constructor
    · rintro rfl; exact ⟨[], trivial, rfl, ha⟩
    · rintro ⟨ds, h1, h2, h3⟩
      cases ds with
      | nil => exact h2.symm
      | cons d ds => exact h1.elim
  | cons b bs ih =>
    intro acc v ha
    simp only [hexDigits]
    cases hd : hexDigit b with
    | none =>
      simp only [reduceCtorEq, false_iff]
      rintro ⟨ds, h1, h2, h3⟩
      cases ds with
      | nil => exact h1.elim
      | cons d ds => rw [(hexDigit_iff b d).mpr h1.1] at hd; cases hd
    | some d =>
      simp only
      have hd' := (hexDigit_iff b d).mp hd
      split
      · rename_i hlt
        rw [ih (acc * 16 + d) v hlt]
        constructor
        · rintro ⟨ds, h1, h2, h3⟩
          exact ⟨d :: ds, ⟨hd', h1⟩, by rw [List.foldl_cons, Nat.mul_comm 16 acc]; exact h2, h3⟩
        · rintro ⟨ds, h1, h2, h3⟩
          cases ds with
          | nil => exact h1.elim
          | cons d' ds =>
            have : some d' = some d := by rw [← hd, (hexDigit_iff b d').mpr h1.1]
            simp only [Option.some.injEq] at this
            subst this
            exact ⟨ds, h1.2, by rw [List.foldl_cons, Nat.mul_comm 16 acc] at h2; exact h2, h3⟩
      · rename_i hge
        simp only [reduceCtorEq, false_iff]
        rintro ⟨ds, h1, h2, h3⟩
        cases ds with
        | nil => exact h1.elim
        | cons d' ds =>
          have : some d' = some d := by rw [← hd, (hexDigit_iff b d').mpr h1.1]
          simp only [Option.some.injEq] at this
          subst this
          have := foldl_ge ds (16 * acc + d')
          rw [List.foldl_cons] at h2
          omega

theorem not_plus_digit : hexDigit 43 = none := by decide

theorem fromStrRadix16_iff (bs : Bytes) (v : Nat) : fromStrRadix16 bs = some v ↔ NumberText bs v := by
  have key : ∀ l : Bytes, hexDigits 0 l = some v ↔ ∃ ds, DigitText l ds ∧ v = ds.foldl (fun a d => 16 * a + d) 0 ∧ v < 2 ^ 32 :=
    fun l => hexDigits_iff l 0 v (by decide)
  unfold NumberText
  match bs with
  | [] =>
    simp only [fromStrRadix16, reduceCtorEq, false_iff]
    rintro ⟨digits, ds, h1, h2, _⟩
    rcases h1 with h | h
    · exact h2 h.symm
    · cases h
  | b :: bs =>
    by_cases hb : b = 43
    · subst hb
      have e : fromStrRadix16 (43 :: bs) = if bs = [] then none else hexDigits 0 bs := by
        cases bs with
        | nil => rfl
        | cons c r => rfl
      rw [e]
      have hno : ∀ ds, ¬ DigitText ((43 : UInt8) :: bs) ds := by
        intro ds h
        cases ds with
        | nil => exact h
        | cons d ds =>
          have := (hexDigit_iff 43 d).mpr h.1
          rw [not_plus_digit] at this; cases this
      by_cases hn : bs = []
      · rw [if_pos hn]
        simp only [reduceCtorEq, false_iff]
        rintro ⟨digits, ds, h1, h2, h3, _⟩
        rcases h1 with rfl | h
        · exact hno ds h3
        · simp only [List.cons.injEq, true_and] at h
          exact h2 (h.symm.trans hn)
      · rw [if_neg hn, key]
        constructor
        · rintro ⟨ds, h1, h2⟩
          exact ⟨bs, ds, Or.inr rfl, hn, h1, h2⟩
        · rintro ⟨digits, ds, h1, h2, h3, h4⟩
          rcases h1 with rfl | h
          · exact (hno ds h3).elim
          · simp only [List.cons.injEq, true_and] at h
            subst h
            exact ⟨ds, h3, h4⟩
    · have e : fromStrRadix16 (b :: bs) = hexDigits 0 (b :: bs) := by
        unfold fromStrRadix16
        split
        · rename_i h; cases h
        · rename_i h; simp only [List.cons.injEq] at h; exact absurd h.1 hb
        · rename_i h; simp only [List.cons.injEq] at h; exact absurd h.1 hb
        · rfl
      rw [e, key]
      constructor
      · rintro ⟨ds, h1, h2⟩
        exact ⟨b :: bs, ds, Or.inl rfl, by simp, h1, h2⟩
      · rintro ⟨digits, ds, h1, h2, h3, h4⟩
        rcases h1 with rfl | h
        · exact ⟨ds, h3, h4⟩
        · simp only [List.cons.injEq] at h; exact absurd h.1 hb

theorem NumberText.ends {bs : Bytes} {v : Nat} (h : NumberText bs v) :
    bs ≠ [] ∧ ∀ b ∈ bs, isWs1 b = false ∧ b < 0x80 := by
  obtain ⟨digits, ds, h1, h2, h3, _⟩ := h
  have hd : ∀ (l : Bytes) (ds : List Nat), DigitText l ds → ∀ b ∈ l, isWs1 b = false ∧ b < 0x80 := by
    intro l
    induction l with
    | nil => intro ds _ b hb; cases hb
    | cons c l ih =>
      intro ds h b hb
      cases ds with
      | nil => exact h.elim
      | cons d ds =>
        rcases List.mem_cons.mp hb with rfl | hb
        · have h5 := h.1
          unfold IsHexDigit at h5
          have : 48 ≤ b.toNat ∧ b.toNat < 128 := by omega
          have e1 : b ≠ 32 := by rintro rfl; exact absurd this.1 (by decide)
          have e2 : ¬ b ≤ 13 := by rw [UInt8.le_iff_toNat_le]; show ¬ b.toNat ≤ 13; omega
          refine ⟨by simp [isWs1, e1, e2], ?_⟩
          rw [UInt8.lt_iff_toNat_lt]; exact this.2
        · exact ih ds h.2 b hb
  rcases h1 with rfl | rfl
  · exact ⟨h2, hd _ _ h3⟩
  · refine ⟨by simp, ?_⟩
    intro b hb
    rcases List.mem_cons.mp hb with rfl | hb
    · decide
    · exact hd _ _ h3 b hb

/-! ### White space -/

theorem white_front : ∀ c ∈ whiteSpace, ∀ r : Bytes, wsFront (utf8 c ++ r) = some r ∧ wsBack ((utf8 c).reverse ++ r) = some r := by
  intro c hc r
  simp only [whiteSpace, List.mem_cons, List.not_mem_nil, or_false] at hc
  rcases hc with rfl | rfl | rfl | rfl | rfl | rfl | rfl | rfl | rfl | rfl | rfl | rfl | rfl | rfl | rfl | rfl | rfl | rfl | rfl | rfl | rfl | rfl | rfl | rfl | rfl <;>
  (match r with
   | [] => exact ⟨rfl, rfl⟩
   | [_] => exact ⟨rfl, rfl⟩
   | _ :: _ :: _ => exact ⟨rfl, rfl⟩)

theorem ws1_white (a : UInt8) (h : isWs1 a = true) : ∃ c ∈ whiteSpace, utf8 c = [a] := by
  have : ∀ n < 256, isWs1 (UInt8.ofNat n) = true → n ∈ whiteSpace ∧ utf8 n = [UInt8.ofNat n] := by decide +kernel
  have h2 := this a.toNat a.toNat_lt (by rw [UInt8.ofNat_toNat]; exact h)
  rw [UInt8.ofNat_toNat] at h2
  exact ⟨a.toNat, h2⟩

theorem ws2_white (a b : UInt8) (h : isWs2 a b = true) : ∃ c ∈ whiteSpace, utf8 c = [a, b] := by
  simp only [isWs2, Bool.and_eq_true, Bool.or_eq_true, beq_iff_eq] at h
  obtain ⟨rfl, rfl | rfl⟩ := h
  · exact ⟨0x85, by decide, rfl⟩
  · exact ⟨0xA0, by decide, rfl⟩

theorem ws3_white (a b c : UInt8) (h : isWs3 a b c = true) : ∃ x ∈ whiteSpace, utf8 x = [a, b, c] := by
  have hc : ∀ n < 256, (0x80 ≤ UInt8.ofNat n ∧ UInt8.ofNat n ≤ 0x8A) →
      (0x2000 + (n - 0x80)) ∈ whiteSpace ∧ utf8 (0x2000 + (n - 0x80)) = [0xE2, 0x80, UInt8.ofNat n] := by decide +kernel
  simp only [isWs3, Bool.and_eq_true, Bool.or_eq_true, beq_iff_eq, decide_eq_true_eq] at h
  rcases h with ((⟨⟨rfl, rfl⟩, rfl⟩ | ⟨⟨rfl, rfl⟩, ((h | rfl) | rfl) | rfl⟩) | ⟨⟨rfl, rfl⟩, rfl⟩) | ⟨⟨rfl, rfl⟩, rfl⟩
  · exact ⟨0x1680, by decide, rfl⟩
  · have h2 := hc c.toNat c.toNat_lt (by rw [UInt8.ofNat_toNat]; exact h)
    rw [UInt8.ofNat_toNat] at h2
    exact ⟨_, h2⟩
  · exact ⟨0x2028, by decide, rfl⟩
  · exact ⟨0x2029, by decide, rfl⟩
  · exact ⟨0x202F, by decide, rfl⟩
  · exact ⟨0x205F, by decide, rfl⟩
  · exact ⟨0x3000, by decide, rfl⟩

theorem wsFront_some {l r : Bytes} (h : wsFront l = some r) : ∃ c ∈ whiteSpace, l = utf8 c ++ r := by
  have k : ∀ {x : Bytes}, (∃ c ∈ whiteSpace, utf8 c = x) → ∃ c ∈ whiteSpace, x ++ r = utf8 c ++ r := by
    rintro _ ⟨c, h1, rfl⟩; exact ⟨c, h1, rfl⟩
  unfold wsFront at h
  split at h <;> (repeat' split at h) <;> (try simp only [reduceCtorEq, Option.some.injEq] at h)
  all_goals first
    | (subst h; rename_i h1; exact k (ws1_white _ h1))
    | (subst h; rename_i h1; exact k (ws2_white _ _ h1))
    | (subst h; rename_i h1; exact k (ws3_white _ _ _ h1))

theorem wsBack_some {l r : Bytes} (h : wsBack l = some r) : ∃ c ∈ whiteSpace, l = (utf8 c).reverse ++ r := by
  have k : ∀ {x : Bytes}, (∃ c ∈ whiteSpace, utf8 c = x.reverse) → ∃ c ∈ whiteSpace, x ++ r = (utf8 c).reverse ++ r := by
    rintro x ⟨c, h1, h2⟩; exact ⟨c, h1, by rw [h2, List.reverse_reverse]⟩
  match l with
  | [] => cases h
  | [c] =>
    simp only [wsBack] at h
    split at h
    · rename_i h1; simp only [Option.some.injEq] at h; subst h; exact k (x := [c]) (ws1_white _ h1)
    · cases h
  | [c, b] =>
    simp only [wsBack] at h
    split at h
    · rename_i h1; simp only [Option.some.injEq] at h; subst h; exact k (x := [c]) (ws1_white _ h1)
    · split at h
      · rename_i h1; simp only [Option.some.injEq] at h; subst h; exact k (x := [c, b]) (ws2_white _ _ h1)
      · cases h
  | c :: b :: a :: r' =>
    simp only [wsBack] at h
    split at h
    · rename_i h1; simp only [Option.some.injEq] at h; subst h; exact k (x := [c]) (ws1_white _ h1)
    · split at h
      · rename_i h1; simp only [Option.some.injEq] at h; subst h; exact k (x := [c, b]) (ws2_white _ _ h1)
      · split at h
        · rename_i h1; simp only [Option.some.injEq] at h; subst h; exact k (x := [c, b, a]) (ws3_white _ _ _ h1)
        · cases h

theorem white_length : ∀ c ∈ whiteSpace, 0 < (utf8 c).length := by decide

theorem trimFront_some (n : Nat) : ∀ l : Bytes, l.length ≤ n →
    ∃ cs : List Nat, (∀ c ∈ cs, c ∈ whiteSpace) ∧ l = cs.flatMap utf8 ++ trimLoop wsFront n l := by
  induction n with
  | zero => intro l _; exact ⟨[], by simp, rfl⟩
  | succ n ih =>
    intro l hl
    unfold trimLoop
    cases h : wsFront l with
    | none => exact ⟨[], by simp, rfl⟩
    | some r =>
      obtain ⟨c, hc, rfl⟩ := wsFront_some h
      have := white_length c hc
      obtain ⟨cs, h1, h2⟩ := ih r (by simp at hl; omega)
      refine ⟨c :: cs, ?_, ?_⟩
      · intro x hx
        rcases List.mem_cons.mp hx with rfl | hx
        · exact hc
        · exact h1 x hx
      · simp only [List.flatMap_cons, List.append_assoc]
        rw [← h2]

theorem trimBack_some (n : Nat) : ∀ l : Bytes, l.length ≤ n →
    ∃ cs : List Nat, (∀ c ∈ cs, c ∈ whiteSpace) ∧ l = (cs.flatMap utf8).reverse ++ trimLoop wsBack n l := by
  induction n with
  | zero => intro l _; exact ⟨[], by simp, rfl⟩
  | succ n ih =>
    intro l hl
    unfold trimLoop
    cases h : wsBack l with
    | none => exact ⟨[], by simp, rfl⟩
    | some r =>
      obtain ⟨c, hc, rfl⟩ := wsBack_some h
      have := white_length c hc
      obtain ⟨cs, h1, h2⟩ := ih r (by simp at hl; omega)
      refine ⟨cs ++ [c], ?_, ?_⟩
      · intro x hx
        rcases List.mem_append.mp hx with hx | hx
        · exact h1 x hx
        · simp only [List.mem_singleton] at hx; subst hx; exact hc
      · simp only [List.flatMap_append, List.flatMap_cons, List.flatMap_nil, List.append_nil, List.reverse_append, List.append_assoc]
        rw [← h2]

theorem trim_split (bs : Bytes) : ∃ pre post, bs = pre ++ trim bs ++ post ∧ WhiteText pre ∧ WhiteText post := by
  obtain ⟨cs, h1, h2⟩ := trimFront_some bs.length bs (Nat.le_refl _)
  obtain ⟨cs', h3, h4⟩ := trimBack_some (trimLoop wsFront bs.length bs).length (trimLoop wsFront bs.length bs).reverse (by simp)
  refine ⟨_, cs'.flatMap utf8, ?_, ⟨cs, h1, rfl⟩, ⟨cs', h3, rfl⟩⟩
  have h5 := congrArg List.reverse h4
  rw [List.reverse_append, List.reverse_reverse, List.reverse_reverse] at h5
  unfold trim
  simp only
  rw [List.append_assoc, ← h5]
  exact h2

theorem trimLoop_white {f : Bytes → Option Bytes} {g : Nat → Bytes} (hf : ∀ c ∈ whiteSpace, ∀ r, f (g c ++ r) = some r)
    (hg : ∀ c ∈ whiteSpace, 0 < (g c).length) (num : Bytes) (hn : f num = none) : ∀ (cs : List Nat) (fuel : Nat),
    (∀ c ∈ cs, c ∈ whiteSpace) → (cs.flatMap g ++ num).length ≤ fuel → trimLoop f fuel (cs.flatMap g ++ num) = num := by
  intro cs
  induction cs with
  | nil => intro fuel _ _; exact trimLoop_stop hn fuel
  | cons c cs ih =>
    intro fuel h hl
    have hc := h c List.mem_cons_self
    have := hg c hc
    simp only [List.flatMap_cons, List.length_append] at hl
    obtain ⟨k, rfl⟩ : ∃ k, fuel = k + 1 := ⟨fuel - 1, by omega⟩
    rw [List.flatMap_cons, List.append_assoc, trimLoop, hf c hc]
    exact ih k (fun x hx => h x (List.mem_cons_of_mem _ hx)) (by rw [List.length_append]; omega)

theorem trim_of_number {pre num post : Bytes} {v : Nat} (h1 : WhiteText pre) (h2 : WhiteText post) (h3 : NumberText num v) :
    trim (pre ++ num ++ post) = num := by
  obtain ⟨hne, hp⟩ := NumberText.ends h3
  have hn : ∀ l : Bytes, l ≠ [] → (∀ b ∈ l, isWs1 b = false ∧ b < 0x80) → ∀ r, wsFront (l ++ r) = none ∧ wsBack (l ++ r) = none := by
    intro l hl h r
    cases l with
    | nil => exact absurd rfl hl
    | cons a l => exact ws_none (h a List.mem_cons_self).1 (h a List.mem_cons_self).2
  obtain ⟨cs, hc, rfl⟩ := h1
  obtain ⟨cs', hc', rfl⟩ := h2
  have e1 : trimLoop wsFront (cs.flatMap utf8 ++ num ++ cs'.flatMap utf8).length (cs.flatMap utf8 ++ num ++ cs'.flatMap utf8) =
      num ++ cs'.flatMap utf8 := by
    rw [List.append_assoc]
    exact trimLoop_white (g := utf8) (fun c hc r => (white_front c hc r).1) white_length _ (hn num hne hp _).1 cs _ hc (Nat.le_refl _)
  have hrev : ∀ cs : List Nat, (cs.flatMap utf8).reverse = cs.reverse.flatMap fun c => (utf8 c).reverse := by
    intro cs
    induction cs with
    | nil => rfl
    | cons c cs ih => simp [List.flatMap_append, ih]
  have e2 : trimLoop wsBack (num ++ cs'.flatMap utf8).length (num ++ cs'.flatMap utf8).reverse = num.reverse := by
    have e := trimLoop_white (f := wsBack) (g := fun c => (utf8 c).reverse) (fun c hc r => (white_front c hc r).2)
      (fun c hc => by rw [List.length_reverse]; exact white_length c hc) num.reverse
      (by
        have := (hn num.reverse (by simpa using hne) (fun b hb => hp b (List.mem_reverse.mp hb)) []).2
        simpa using this)
      cs'.reverse (num ++ cs'.flatMap utf8).length (fun c hc => hc' c (List.mem_reverse.mp hc))
      (by rw [← hrev]; simp; omega)
    rw [List.reverse_append, hrev]
    exact e
  unfold trim
  simp only
  rw [e1, e2, List.reverse_reverse]

theorem fromStr_trim_iff (bs : Bytes) (v : Nat) : fromStrRadix16 (trim bs) = some v ↔
    ∃ pre num post, bs = pre ++ num ++ post ∧ WhiteText pre ∧ WhiteText post ∧ NumberText num v := by
  constructor
  · intro h
    obtain ⟨pre, post, h1, h2, h3⟩ := trim_split bs
    exact ⟨pre, trim bs, post, h1, h2, h3, (fromStrRadix16_iff _ _).mp h⟩
  · rintro ⟨pre, num, post, rfl, h2, h3, h4⟩
    rw [trim_of_number h2 h3 h4]
    exact (fromStrRadix16_iff _ _).mpr h4

theorem parseLine_iff (line : Bytes) (row : Nat × Nat) : parseLine line = .ok row ↔ LineMeans line row := by
  unfold LineMeans
  rw [← fromStr_trim_iff]
  have hb := binaryColumn_spec ((line.drop 12).take 33)
  unfold parseLine
  split
  · constructor
    · intro h; cases h
    · rintro ⟨h, _⟩; omega
  · rcases hb with ⟨h1, r, h2, h3⟩ | ⟨h1, h2⟩
    · rw [h2]
      simp only [Res.bind_ok]
      split
      · constructor
        · intro h; cases h
        · rintro ⟨h, _⟩; omega
      · rename_i h59
        cases hx : fromStrRadix16 (trim ((line.drop 50).take 9)) with
        | none =>
          simp only [reduceCtorEq, false_iff]
          rintro ⟨_, _, _, h⟩; cases h
        | some x =>
          simp only [Res.ok.injEq, Option.some.injEq]
          rw [← h3]
          constructor
          · rintro rfl; exact ⟨by omega, h1, rfl, rfl⟩
          · rintro ⟨_, _, h5, h6⟩; rw [h6, ← h5]
    · rw [h2]
      constructor
      · intro h; cases h
      · rintro ⟨_, h, _⟩; exact absurd h h1

theorem parseLine_panics (line : Bytes) (h : ∀ row, parseLine line ≠ .ok row) : parseLine line = .panic := by
  have hb := binaryColumn_spec ((line.drop 12).take 33)
  revert h
  unfold parseLine
  split
  · intro _; rfl
  · rcases hb with ⟨h1, r, h2, h3⟩ | ⟨h1, h2⟩
    · rw [h2]
      simp only [Res.bind_ok]
      split
      · intro _; rfl
      · split
        · intro _; rfl
        · intro h; exact absurd rfl (h _)
    · rw [h2]; intro _; rfl

theorem parseLines_iff (ls : List Bytes) : ∀ rows, parseLines ls = .ok rows ↔ LinesMean ls rows := by
  induction ls with
  | nil =>
    intro rows
    cases rows with
    | nil => simp [parseLines, LinesMean]
    | cons r rs => simp [parseLines, LinesMean]
  | cons l ls ih =>
    intro rows
    unfold parseLines
    cases hl : parseLine l with
    | ok c =>
      simp only [Res.bind_ok]
      have hl' := (parseLine_iff l c).mp hl
      cases hs : parseLines ls with
      | ok cs =>
        simp only [Res.bind_ok, Res.ok.injEq]
        constructor
        · rintro rfl; exact ⟨hl', (ih cs).mp hs⟩
        · intro h
          cases rows with
          | nil => exact h.elim
          | cons r rs =>
            have h1 := (parseLine_iff l r).mpr h.1
            rw [hl] at h1
            have h2 := (ih rs).mpr h.2
            rw [hs] at h2
            simp only [Res.ok.injEq] at h1 h2
            rw [h1, h2]
      | _ =>
        constructor
        · intro h; cases h
        · intro h
          cases rows with
          | nil => exact h.elim
          | cons r rs => have h2 := (ih rs).mpr h.2; rw [hs] at h2; cases h2
    | _ =>
      constructor
      · intro h; cases h
      · intro h
        cases rows with
        | nil => exact h.elim
        | cons r rs => have h2 := (parseLine_iff l r).mpr h.1; rw [hl] at h2; cases h2

theorem parseLines_panics (ls : List Bytes) (h : ∀ rows, parseLines ls ≠ .ok rows) : parseLines ls = .panic := by
  induction ls with
  | nil => exact absurd rfl (h [])
  | cons l ls ih =>
    unfold parseLines at h ⊢
    by_cases hl : ∃ r, parseLine l = .ok r
    · obtain ⟨r, hr⟩ := hl
      rw [hr] at h ⊢
      simp only [Res.bind_ok] at h ⊢
      by_cases hs : ∃ rs, parseLines ls = .ok rs
      · obtain ⟨rs, hrs⟩ := hs
        rw [hrs] at h
        exact absurd rfl (h (r :: rs))
      · rw [ih fun rows he => hs ⟨rows, he⟩]; rfl
    · rw [parseLine_panics l fun row he => hl ⟨row, he⟩]; rfl

end Verif.Huffman

namespace Verif.Props
open Verif Verif.Spec Verif.Spec.CodeText Verif.Huffman

/-- C92. `parse` returns a table exactly when every line of the text means a row, and then it returns these rows in order. -/
theorem C92_accepts_exactly (data : Bytes) (rows : List (Nat × Nat)) :
    parse data = .ok rows ↔ ∃ ls, IsLines data ls ∧ LinesMean ls rows := by
  unfold parse
  rw [parseLines_iff]
  constructor
  · intro h; exact ⟨_, splitLines_isLines data, h⟩
  · rintro ⟨ls, h1, h2⟩
    rw [splitLines_of_isLines h1]; exact h2

/-- C92. On every other text it panics; it has no other way to fail. -/
theorem C92_else_panics (data : Bytes) (h : ¬ ∃ ls rows, IsLines data ls ∧ LinesMean ls rows) : parse data = .panic := by
  refine parseLines_panics _ fun rows he => h ?_
  obtain ⟨ls, h1, h2⟩ := (C92_accepts_exactly data rows).mp he
  exact ⟨ls, rows, h1, h2⟩

/-- C92. The bits printed in a line are only counted, never compared with the printed value: a line with other bits (as many)
in columns 12 to 44 is read in the same way. -/
theorem C92_bits_only_counted (l l' : List UInt8) (row : Nat × Nat) (h : LineMeans l row) (h1 : l'.length = l.length)
    (h2 : ∀ b ∈ (l'.drop 12).take 33, b ∈ [(48 : UInt8), 49, 124, 32])
    (h3 : ((l'.drop 12).take 33).countP (fun b => b == 48 || b == 49) = ((l.drop 12).take 33).countP (fun b => b == 48 || b == 49))
    (h4 : (l'.drop 50).take 9 = (l.drop 50).take 9) (h5 : 10 ∉ l') :
    parse l' = .ok [row] := by
  obtain ⟨g1, g2, g3, g4⟩ := h
  refine (C92_accepts_exactly l' [row]).mpr ⟨[l'], .last ?_ h5, ⟨?_, h2, ?_, ?_⟩, trivial⟩
  · rintro rfl; rw [List.length_nil] at h1; omega
  · omega
  · rw [g3, h3]
  · rw [h4]; exact g4

/-- The hypotheses of `C92_bits_only_counted` are met by a line with the bits 000 and one with the bits 101. -/
example :
    let l := ascii "    ( 10)  |" ++ ascii "000" ++ List.replicate 35 32 ++ ascii "  +1FFfc " ++ ascii "xx"
    let l' := ascii "    ( 10)  |" ++ ascii "101" ++ List.replicate 35 32 ++ ascii "  +1FFfc " ++ ascii "xx"
    LineMeans l (3, 0x1fffc) ∧ l'.length = l.length ∧ (∀ b ∈ (l'.drop 12).take 33, b ∈ [(48 : UInt8), 49, 124, 32]) ∧
    ((l'.drop 12).take 33).countP (fun b => b == 48 || b == 49) = ((l.drop 12).take 33).countP (fun b => b == 48 || b == 49) ∧
    (l'.drop 50).take 9 = (l.drop 50).take 9 ∧ 10 ∉ l' := by
  refine ⟨(parseLine_iff _ _).mp (by decide +kernel), ?_⟩
  decide +kernel

/-- A line whose bits and value disagree is accepted; the row has the number of bits and the value. -/
example : parse (ascii "    ( 10)  |" ++ ascii "000" ++ List.replicate 35 32 ++ ascii "  +1FFfc " ++ ascii "xx") =
    .ok [(3, 0x1fffc)] := by decide +kernel
/-- A text with a letter among the bits. -/
example : parse (ascii "    ( 10)  |" ++ ascii "0a0" ++ List.replicate 35 32 ++ ascii "  +1FFfc " ++ ascii "xx") = .panic := by
  decide +kernel

end Verif.Props
