import Verif.Props.HpackGuess
/-! Property theorem C137: what the size of the dynamic table changes in the output of the encoder. -/
namespace Verif.Props
open Verif Verif.Spec Verif.Hpack

/-- The room in the table a call asks for: a stored header takes its size (RFC 7541 4.1), any other header nothing. Calls whose need is not
known from the call alone (a stored header whose name is taken from the dynamic table, a change of the size) are left out. -/
def need : SessionOp → Option Nat
  | .header (.Indexed _) => some 0
  | .header (.IndexedName i v f) =>
    if f.toNat.testBit 2 then if i.toNat = 0 then none else (rfcStatic[i.toNat - 1]?).map fun e => entrySize (e.1, v) else some 0
  | .header (.Literal n v f) => some (if f.toNat.testBit 2 then entrySize (n, v) else 0)
  | .resize _ => none

/-- The room a history asks for. -/
def needAll : List SessionOp → Option Nat
  | [] => some 0
  | op :: ops =>
    match need op, needAll ops with
    | some a, some b => some (a + b)
    | _, _ => none

theorem insert_fitting {t : SpecTable} {e : Octets × Octets} (h : tableSize t.entries + entrySize e ≤ t.max) :
    t.insert e = ⟨e :: t.entries, t.max⟩ := by
  unfold SpecTable.insert
  rw [if_pos (by omega), keepFitting_of_le (by omega)]

theorem effect_fitting (op : SessionOp) {a : Nat} (hn : need op = some a) : ∃ f : List (Octets × Octets) → List (Octets × Octets),
    ∀ t : SpecTable, tableSize t.entries + a ≤ t.max →
      (opEffect t op) = ⟨f t.entries, t.max⟩ ∧ tableSize (f t.entries) ≤ tableSize t.entries + a := by
  cases op with
  | resize n => cases hn
  | header input =>
    cases input with
    | Indexed i =>
      cases hn
      exact ⟨id, fun t ht => ⟨rfl, Nat.le_refl _⟩⟩
    | IndexedName i v f =>
      simp only [need] at hn
      by_cases h2 : f.toNat.testBit 2 = true
      · rw [if_pos h2] at hn
        split at hn
        · cases hn
        · rename_i h0
          obtain ⟨e, he, rfl⟩ := Option.map_eq_some_iff.mp hn
          have hi : i.toNat ≤ 61 := by
            have hl : rfcStatic.length = 61 := by rw [← static_eq, static_length]
            rcases Nat.lt_or_ge (i.toNat - 1) rfcStatic.length with h | h
            · omega
            · rw [List.getElem?_eq_none h] at he; cases he
          refine ⟨fun l => (e.1, v) :: l, fun t ht => ?_⟩
          have ha : t.addr i.toNat = some e := by unfold SpecTable.addr; rw [if_neg h0, if_pos hi, he]
          simp only [opEffect, ha, litEffect, h2, if_true]
          exact ⟨insert_fitting ht, by rw [tableSize_cons]; omega⟩
      · rw [if_neg h2] at hn
        cases hn
        refine ⟨id, fun t ht => ⟨?_, Nat.le_refl _⟩⟩
        simp only [opEffect, litEffect, h2]
        cases t.addr i.toNat <;> rfl
    | Literal n v f =>
      simp only [need, Option.some.injEq] at hn
      subst hn
      refine ⟨fun l => if (f.toNat.testBit 4 = true ∧ (n, v) ∈ rfcStatic ++ l) ∨ f.toNat.testBit 2 = false then l else (n, v) :: l, fun t ht => ?_⟩
      simp only [opEffect, litEffect]
      by_cases hc : f.toNat.testBit 4 = true ∧ (n, v) ∈ rfcStatic ++ t.entries
      · rw [if_pos hc, if_pos (.inl hc)]
        exact ⟨rfl, by omega⟩
      · rw [if_neg hc]
        cases h2 : f.toNat.testBit 2 with
        | true =>
          rw [h2] at ht
          have hno : ¬ ((f.toNat.testBit 4 = true ∧ (n, v) ∈ rfcStatic ++ t.entries) ∨ true = false) := fun h => h.elim hc (by simp)
          simp only [if_neg hno, if_true] at ht ⊢
          exact ⟨insert_fitting ht, by rw [tableSize_cons]; omega⟩
        | false =>
          have hyes : (f.toNat.testBit 4 = true ∧ (n, v) ∈ rfcStatic ++ t.entries) ∨ false = false := .inr rfl
          rw [if_pos hyes, if_neg Bool.false_ne_true, if_neg Bool.false_ne_true]
          exact ⟨rfl, by omega⟩

/-- C137. As long as nothing has to be evicted the size of the dynamic table does not matter: encoders with the same entries whose tables
have room for all that a history stores write the same octets, whatever their maximum sizes. -/
theorem C137_room_enough (ops : List SessionOp) {a : Nat} (hn : needAll ops = some a) (t1 t2 : Table) (w1 : t1.WF) (w2 : t2.WF)
    (he : t1.spec.entries = t2.spec.entries) (h1 : tableSize t1.spec.entries + a ≤ t1.spec.max) (h2 : tableSize t2.spec.entries + a ≤ t2.spec.max) :
    (encEach ops t1).1 = (encEach ops t2).1 ∧ (encEach ops t1).2.spec.entries = (encEach ops t2).2.spec.entries := by
  induction ops generalizing t1 t2 a with
  | nil => exact ⟨rfl, he⟩
  | cons op ops ih =>
    simp only [needAll] at hn
    cases hx : need op with
    | none => rw [hx] at hn; cases hn
    | some x =>
      cases hy : needAll ops with
      | none => rw [hx, hy] at hn; cases hn
      | some y =>
        rw [hx, hy] at hn
        simp only [Option.some.injEq] at hn
        subst hn
        obtain ⟨v1, e1⟩ := op_effect op t1 w1 []
        obtain ⟨v2, e2⟩ := op_effect op t2 w2 []
        obtain ⟨f, hf⟩ := effect_fitting op hx
        obtain ⟨f1, f2⟩ := hf t1.spec (by omega)
        obtain ⟨g1, g2⟩ := hf t2.spec (by omega)
        rw [f1] at e1
        rw [g1] at e2
        have hrec := ih hy _ _ v1 v2 (by rw [e1, e2, he]) (by rw [e1]; simp only; omega) (by rw [e2]; simp only; omega)
        have hget : ∀ i, (t1.get i).map Prod.fst = (t2.get i).map Prod.fst := by
          intro i
          rw [Table.get_spec, Table.get_spec]
          unfold SpecTable.addr
          rw [he]
        have hall : t1.all = t2.all := congrArg (rfcStatic ++ ·) he
        have hs := op_same w1 w2 [] op hget (fun n v f _ => by
          simp only [Table.find, Table.iter_spec t1 w1, Table.iter_spec t2 w2, hall])
        simp only [encEach, hs.1, hs.2, hrec.1, hrec.2]
        exact ⟨trivial, trivial⟩

/-- C137. A larger table can make the output longer: entries are evicted in the order in which they were stored, not by use, and there is a
history of headers for which the encoder with room for four of them writes more octets than the encoder with room for three. -/
theorem C137_larger_can_be_worse : ∃ (small large : UInt32) (headers : List (Octets × Octets)), small < large ∧
    ((encEach (headers.map fun h => .header (.Literal h.1 h.2 0x14)) (EncoderState.withDynamicSize small).table).1.map fun r => r.2.length).sum <
      ((encEach (headers.map fun h => .header (.Literal h.1 h.2 0x14)) (EncoderState.withDynamicSize large).table).1.map fun r => r.2.length).sum := by
  refine ⟨105, 140, [1, 2, 3, 4, 1, 2, 5, 1, 2, 3, 4, 5].map fun (i : UInt8) => ([120, i], [i]), by decide, ?_⟩
  decide +kernel

/-! A concrete case: the default table and one of 200 octets for a request of five headers, three of them stored. -/
example :
    let ops : List SessionOp := [.header (.Literal [58, 97] [120] 0x14), .header (.Indexed 2), .header (.IndexedName 1 [121] 0x4),
      .header (.Literal [97] [98] 0x4), .header (.Literal [58, 97] [120] 0x14)]
    needAll ops = some (35 + 43 + 34 + 35) ∧ (encEach ops (EncoderState.withDynamicSize 200).table).1 = (encEach ops EncoderState.default.table).1 := by
  refine ⟨by decide +kernel, ?_⟩
  exact (C137_room_enough _ (show needAll _ = some (35 + 43 + 34 + 35) by decide +kernel) _ _ (Table.withDynamicSize_WF _) (Table.withDynamicSize_WF _) rfl
    (by decide) (by decide)).1

end Verif.Props
