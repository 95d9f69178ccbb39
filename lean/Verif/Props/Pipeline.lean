import Verif.Props.Parser
import Verif.Props.Flatten
/-! Property theorem C90: from the text of a code to its decoding matrix. -/
namespace Verif.Props
open Verif Verif.Huffman Verif.Spec Verif.Spec.Matrix Verif.Spec.CodeText

/-- No code of the table is a prefix of the code on another line. -/
def PrefixFreeLines (ls : List Line) : Prop :=
  ∀ (a b : Nat) (la lb : Line) (r : List Bool), ls[a]? = some la → ls[b]? = some lb → lb.bits = la.bits ++ r → a = b

/-- C90. For every text in the format of the RFC that gives a prefix code, `parse` followed by `flatten` (the lengths
converted from `u16` to `u8`, which they fit) returns a matrix; and if it has at most 256 rows, walking it in chunks finds the
symbol `a` with `l` unused bits exactly when the bits walked are the code printed on line `a` followed by `l` bits, fewer
than one chunk. -/
theorem C90_text_to_matrix (ls : List Line) (speed : Speed) (hg : ∀ l ∈ ls, l.Good ∧ l.bits ≠ []) (hp : PrefixFreeLines ls) :
    ∃ codes t, parse (file ls) = .ok codes ∧ (∀ c ∈ codes, c.1 < 256) ∧ flatten codes speed = .ok t ∧
      (t.length ≤ 256 → ∀ (keys : List Nat) (key : Nat), (∀ k ∈ keys ++ [key], k < 2 ^ speed.toNat) → ∀ a l : Nat,
        ((∃ next, visit t keys key = some (next, some a, l)) ↔
          ∃ line rest, ls[a]? = some line ∧ rest.length = l ∧ l < speed.toNat ∧
            chunkBits speed.toNat (keys ++ [key]) = line.bits ++ rest)) := by
  have hw : WellFormed (ls.map fun l : Line => (l.bits.length, bitsVal l.bits)) := by
    intro c hc
    obtain ⟨l, hl, rfl⟩ := List.mem_map.mp hc
    obtain ⟨⟨_, _, h3, _⟩, hne⟩ := hg l hl
    exact ⟨List.length_pos_iff.mpr hne, h3, bitsVal_lt _⟩
  have hget : ∀ (a : Nat) (c : Nat × Nat), (ls.map fun l : Line => (l.bits.length, bitsVal l.bits))[a]? = some c ↔
      ∃ l : Line, ls[a]? = some l ∧ c = (l.bits.length, bitsVal l.bits) := by
    intro a c
    rw [List.getElem?_map]
    cases ls[a]? with
    | none => simp
    | some l => simp [eq_comm]
  have hbits : ∀ l : Line, codeBits (l.bits.length, bitsVal l.bits) = l.bits := fun l => natBits_bitsVal l.bits
  have hpf : PrefixFree (ls.map fun l : Line => (l.bits.length, bitsVal l.bits)) := by
    intro a b ca cb r ha hb e
    obtain ⟨la, ha', rfl⟩ := (hget a ca).mp ha
    obtain ⟨lb, hb', rfl⟩ := (hget b cb).mp hb
    rw [hbits, hbits] at e
    exact hp a b la lb r ha' hb' e
  obtain ⟨t, ht⟩ := C12_flatten_total _ speed (C12_thirty_bits _ speed hw)
  refine ⟨_, t, C76_parse_format ls fun l hl => (hg l hl).1, fun c hc => ?_, ht, ?_⟩
  · have := hw c hc; omega
  · intro hrows keys key hk a l
    rw [C12_finds_symbol _ speed (C12_thirty_bits _ speed hw) hpf t ht hrows keys key hk a l]
    constructor
    · rintro ⟨c, rest, hc, h1, h2, h3⟩
      obtain ⟨line, hline, rfl⟩ := (hget a c).mp hc
      exact ⟨line, rest, hline, h1, h2, by rw [h3, hbits]⟩
    · rintro ⟨line, rest, hline, h1, h2, h3⟩
      exact ⟨_, rest, (hget a _).mpr ⟨line, hline, rfl⟩, h1, h2, by rw [h3, hbits]⟩

/-- A small table: the codes 0, 10 and 11 on three lines. -/
def smallTable : List Line :=
  [⟨ascii "    (  0)  |", [false], ascii "     ", ascii "  [ 1]", false⟩,
   ⟨ascii "    (  1)  |", [true, false], ascii "     ", ascii "  [ 2]", true⟩,
   ⟨ascii "    (  2)  |", [true, true], ascii "     ", ascii "  [ 2]", false⟩]

example : (∀ l ∈ smallTable, l.Good ∧ l.bits ≠ []) ∧
    flatten (smallTable.map fun l : Line => (l.bits.length, bitsVal l.bits)) .TwoBits =
      .ok [[(none, some 0, 1), (none, some 0, 1), (none, some 1, 0), (none, some 2, 0)]] := by
  refine ⟨?_, by decide⟩
  intro l hl
  simp only [smallTable, List.mem_cons, List.not_mem_nil, or_false] at hl
  rcases hl with rfl | rfl | rfl <;> exact ⟨⟨rfl, rfl, by decide, by decide⟩, by decide⟩

example : PrefixFreeLines smallTable := by
  intro a b la lb r ha hb e
  have h1 : ∀ (n : Nat) (l : Line), smallTable[n]? = some l →
      (n = 0 ∧ l.bits = [false]) ∨ (n = 1 ∧ l.bits = [true, false]) ∨ (n = 2 ∧ l.bits = [true, true]) := by
    intro n l h
    have h2 : ([[false], [true, false], [true, true]] : List (List Bool))[n]? = some l.bits := by
      have : (smallTable.map Line.bits)[n]? = some l.bits := by rw [List.getElem?_map, h]; rfl
      exact this
    clear h
    match n with
    | 0 => simp at h2; simp [h2]
    | 1 => simp at h2; simp [h2]
    | 2 => simp at h2; simp [h2]
    | n + 3 => simp at h2
  rcases h1 a la ha with ⟨rfl, e1⟩ | ⟨rfl, e1⟩ | ⟨rfl, e1⟩ <;> rcases h1 b lb hb with ⟨rfl, e2⟩ | ⟨rfl, e2⟩ | ⟨rfl, e2⟩ <;>
    rw [e1, e2] at e <;> simp at e <;> rfl

end Verif.Props
