import Verif.Spec.HpackAbs
/-! The table: accounting invariant, eviction, addressing, search. -/
namespace Verif.Hpack
open Verif.Spec

theorem static_eq : STATIC_TABLE = rfcStatic := by decide +kernel

theorem static_length : STATIC_TABLE.length = 61 := by decide +kernel

@[simp] theorem tableSize_nil : tableSize [] = 0 := rfl
@[simp] theorem tableSize_cons (e : Entry) (l : List Entry) : tableSize (e :: l) = entrySize e + tableSize l := by
  simp [tableSize]
theorem tableSize_append (a b : List Entry) : tableSize (a ++ b) = tableSize a + tableSize b := by
  simp [tableSize]

theorem keepFitting_of_le {max : Nat} {l : List Entry} (h : tableSize l ≤ max) : keepFitting max l = l := by
  induction l generalizing max with
  | nil => rfl
  | cons e l ih =>
    simp only [tableSize_cons] at h
    rw [keepFitting, if_pos (by omega), ih (by omega)]

theorem keepFitting_snoc {max : Nat} {l : List Entry} {e : Entry} (h : max < tableSize (l ++ [e])) :
    keepFitting max (l ++ [e]) = keepFitting max l := by
  induction l generalizing max with
  | nil =>
    simp [tableSize] at h
    simp only [List.nil_append, keepFitting]
    rw [if_neg (by omega)]
  | cons x l ih =>
    simp only [List.cons_append, tableSize_cons] at h ⊢
    simp only [keepFitting]
    split
    · rw [ih (by omega)]
    · rfl

theorem keepFitting_size (max : Nat) (l : List Entry) : tableSize (keepFitting max l) ≤ max := by
  induction l generalizing max with
  | nil => simp [keepFitting]
  | cons e l ih =>
    simp only [keepFitting]
    split
    · rw [tableSize_cons]; have := ih (max - entrySize e); omega
    · simp

/-- What is kept is a run of the newest entries. -/
theorem keepFitting_prefix (max : Nat) (l : List Entry) : ∃ r, l = keepFitting max l ++ r := by
  induction l generalizing max with
  | nil => exact ⟨[], rfl⟩
  | cons e l ih =>
    simp only [keepFitting]
    split
    · obtain ⟨r, hr⟩ := ih (max - entrySize e)
      exact ⟨r, by rw [List.cons_append, ← hr]⟩
    · exact ⟨e :: l, rfl⟩

/-- ... and the longest such run that fits. -/
theorem keepFitting_maximal (max : Nat) (l a b : List Entry) (h : l = a ++ b) (hs : tableSize a ≤ max) :
    a.length ≤ (keepFitting max l).length := by
  induction a generalizing l max with
  | nil => simp
  | cons e a ih =>
    subst h
    simp only [tableSize_cons] at hs
    simp only [List.cons_append, keepFitting]
    rw [if_pos (by omega)]
    have := ih (max - entrySize e) _ rfl (by omega)
    simpa using this

theorem consolidateLoop_spec {ε : Type} (fuel : Nat) (d : Dynamic) (h : d.Acc) (hf : d.inner.length ≤ fuel) :
    Dynamic.consolidateLoop (ε := ε) fuel d =
      .ok { inner := keepFitting d.maxSize.toNat d.inner,
            size := tableSize (keepFitting d.maxSize.toNat d.inner), maxSize := d.maxSize } := by
  obtain ⟨inner, size, mx⟩ := d
  simp only [Dynamic.Acc] at h
  subst h
  simp only at hf ⊢
  induction fuel generalizing inner with
  | zero =>
    have : inner = [] := List.eq_nil_of_length_eq_zero (by omega)
    subst this
    simp [Dynamic.consolidateLoop, keepFitting]
  | succ fuel ih =>
    simp only [Dynamic.consolidateLoop]
    by_cases hs : tableSize inner > mx.toNat
    · rw [if_pos hs]
      rcases List.eq_nil_or_concat inner with rfl | ⟨l, e, rfl⟩
      · simp at hs
      · simp only [List.concat_eq_append] at hs hf ⊢
        simp only [List.getLast?_concat, List.dropLast_concat]
        have e1 : tableSize (l ++ [e]) = tableSize l + (e.1.length + e.2.length + 32) := by
          simp [tableSize, entrySize]
        rw [if_pos (by omega), show tableSize (l ++ [e]) - (e.1.length + e.2.length + 32) = tableSize l by omega,
          ih l (by simp at hf; omega), keepFitting_snoc hs]
    · rw [if_neg hs, keepFitting_of_le (by omega)]

theorem consolidate_spec {ε : Type} (d : Dynamic) (h : d.Acc) :
    Dynamic.consolidate (ε := ε) d =
      .ok { inner := keepFitting d.maxSize.toNat d.inner,
            size := tableSize (keepFitting d.maxSize.toNat d.inner), maxSize := d.maxSize } :=
  consolidateLoop_spec _ d h (Nat.le_succ _)

theorem Table.WF.eq_ofEntries {t : Table} (h : t.WF) : t = Table.ofEntries t.dynamic.inner t.dynamic.maxSize := by
  obtain ⟨⟨l, s, m⟩⟩ := t
  have : s = tableSize l := h.1
  subst this
  rfl

theorem Table.withDynamicSize_WF (m : UInt32) : (Table.withDynamicSize m).WF :=
  ⟨rfl, by simp [Table.withDynamicSize, Dynamic.withSize]⟩

theorem Table.WF.ext {t u : Table} (ht : t.WF) (hu : u.WF) (h : t.spec = u.spec) : t = u := by
  rw [ht.eq_ofEntries, hu.eq_ofEntries]
  simp only [Table.spec, SpecTable.mk.injEq] at h
  rw [h.1, UInt32.toNat_inj.mp h.2]

theorem Table.insert_spec {ε : Type} (t : Table) (h : t.WF) (name value : Bytes) :
    ∃ t', t.insert (ε := ε) name value = .ok t' ∧ t'.WF ∧ t'.spec = t.spec.insert (name, value) := by
  have hacc : Dynamic.Acc { t.dynamic with size := t.dynamic.size + (name.length + value.length + 32), inner := (name, value) :: t.dynamic.inner } := by
    have := h.1
    simp only [Dynamic.Acc, tableSize_cons, entrySize] at this ⊢
    omega
  have hc := consolidate_spec (ε := ε) _ hacc
  refine ⟨Table.ofEntries (keepFitting t.dynamic.maxSize.toNat ((name, value) :: t.dynamic.inner)) t.dynamic.maxSize,
    by rw [Table.insert, Dynamic.insert, hc]; rfl, ⟨rfl, keepFitting_size _ _⟩, ?_⟩
  by_cases hh : entrySize (name, value) ≤ t.dynamic.maxSize.toNat
  · rw [SpecTable.insert, if_pos (show entrySize (name, value) ≤ t.spec.max from hh)]
    simp only [Table.ofEntries, Table.spec, keepFitting, if_pos hh]
  · rw [SpecTable.insert, if_neg (show ¬ entrySize (name, value) ≤ t.spec.max from hh)]
    simp only [Table.ofEntries, Table.spec, keepFitting, if_neg hh]

theorem Table.resize_spec {ε : Type} (t : Table) (h : t.WF) (m : UInt32) :
    ∃ t', t.updateMaxDynamicSize (ε := ε) m = .ok t' ∧ t'.WF ∧ t'.spec = t.spec.resize m.toNat := by
  have hacc : Dynamic.Acc { t.dynamic with maxSize := m } := h.1
  have hc := consolidate_spec (ε := ε) _ hacc
  exact ⟨Table.ofEntries (keepFitting m.toNat t.dynamic.inner) m,
    by rw [Table.updateMaxDynamicSize, Dynamic.updateMaxSize, hc]; rfl, ⟨rfl, keepFitting_size _ _⟩, rfl⟩

theorem Table.get_spec (t : Table) (i : UInt32) : t.get i = t.spec.addr i.toNat := by
  have hlen := static_length
  simp only [Table.get, SpecTable.addr, Table.spec, Dynamic.get, ← static_eq, hlen]
  by_cases h0 : i = 0
  · subst h0; simp
  · have : i.toNat ≠ 0 := fun h => h0 (by apply UInt32.toNat_inj.mp; simpa using h)
    rw [if_neg h0, if_neg this]
    by_cases h1 : i.toNat ≤ 61
    · rw [if_pos h1, if_pos (by omega)]
    · rw [if_neg h1, if_neg (by omega)]
      rfl

/-- A table never holds more than 2^27 entries, so that indices fit `u32`. -/
theorem Table.WF.length_le {t : Table} (h : t.WF) : t.dynamic.inner.length < 2 ^ 27 := by
  have h1 : 32 * t.dynamic.inner.length ≤ tableSize t.dynamic.inner := by
    generalize t.dynamic.inner = l
    induction l with
    | nil => simp
    | cons e l ih => simp only [List.length_cons, tableSize_cons, entrySize]; omega
  have := h.2
  have := t.dynamic.maxSize.toNat_lt
  omega

/-- All headers in index order: the static ones, then the dynamic ones. -/
def Table.all (t : Table) : List Entry := rfcStatic ++ t.dynamic.inner

theorem Table.all_length (t : Table) : t.all.length = 61 + t.dynamic.inner.length := by
  rw [Table.all, List.length_append, ← static_eq, static_length]

theorem addr_eq_all (t : Table) (i : Nat) : t.spec.addr (i + 1) = t.all[i]? := by
  have hl : rfcStatic.length = 61 := by rw [← static_eq, static_length]
  simp only [SpecTable.addr, Table.all, Table.spec]
  rw [if_neg (by omega)]
  by_cases h : i + 1 ≤ 61
  · rw [if_pos h, List.getElem?_append_left (by omega)]; rfl
  · rw [if_neg h, List.getElem?_append_right (by omega), hl]
    congr 1

theorem Table.iterFrom_spec (t : Table) (h : t.WF) (fuel i : Nat) (hi : i ≤ t.all.length)
    (hf : t.all.length < i + fuel) : t.iterFrom fuel (UInt32.ofNat (i + 1)) = some (t.all.drop i) := by
  have hlen := h.length_le
  have hall := t.all_length
  induction fuel generalizing i with
  | zero => omega
  | succ fuel ih =>
    have e : (UInt32.ofNat (i + 1)).toNat = i + 1 := UInt32.toNat_ofNat_of_lt' (by simp [UInt32.size]; omega)
    simp only [Table.iterFrom, Table.get_spec, e, addr_eq_all]
    by_cases hlt : i < t.all.length
    · rw [List.getElem?_eq_getElem hlt]
      have hadd : UInt32.ofNat (i + 1) + 1 = UInt32.ofNat (i + 1 + 1) := by
        apply UInt32.toNat_inj.mp
        rw [UInt32.toNat_add, e, UInt32.toNat_ofNat_of_lt' (by simp [UInt32.size]; omega)]
        simp; omega
      simp only [hadd]
      rw [ih (i + 1) (by omega) (by omega), List.drop_eq_getElem_cons hlt]
      rfl
    · rw [List.getElem?_eq_none (by omega), List.drop_eq_nil_of_le (by omega)]

theorem Table.iter_spec (t : Table) (h : t.WF) : t.iter = some t.all := by
  have := Table.iterFrom_spec t h (t.len + 1) 0 (by omega) (by
    rw [t.all_length, Table.len, static_length]; omega)
  simpa [Table.iter] using this

/-- What `find` looks for. -/
theorem findLoop_spec (name value : Bytes) (i : Nat) (nm : Option Nat) (l : List Entry) :
    (∃ k, l[k]? = some (name, value) ∧ (∀ j, j < k → l[j]? ≠ some (name, value)) ∧
      findLoop name value i nm l = some (i + k + 1, true)) ∨
    ((name, value) ∉ l ∧
      ((∃ n, nm = some n ∧ findLoop name value i nm l = some (n, false)) ∨
       (nm = none ∧ ∃ k v, l[k]? = some (name, v) ∧ (∀ j v', j < k → l[j]? ≠ some (name, v')) ∧
          findLoop name value i nm l = some (i + k + 1, false)) ∨
       (nm = none ∧ (∀ v, (name, v) ∉ l) ∧ findLoop name value i nm l = none))) := by
  induction l generalizing i nm with
  | nil =>
    right
    refine ⟨by simp, ?_⟩
    cases nm with
    | none => right; right; simp [findLoop]
    | some n => left; exact ⟨n, rfl, rfl⟩
  | cons h l ih =>
    obtain ⟨hn, hv⟩ := h
    simp only [findLoop]
    by_cases h1 : name = hn
    · subst h1
      rw [if_pos (rfl : name = name)]
      by_cases h2 : value = hv
      · subst h2
        left
        exact ⟨0, by simp, by simp, by simp⟩
      · rw [if_neg h2]
        have hne : ∀ {k}, k = 0 → ((name, hv) :: l)[k]? ≠ some (name, value) := by
          rintro k rfl; simp; exact fun h => h2 h.symm
        cases nm with
        | none =>
          simp only [Option.isNone_none, if_true]
          rcases ih (i + 1) (some (i + 1)) with ⟨k, g1, g2, g3⟩ | ⟨g1, ⟨n, gn, g⟩ | ⟨g, _⟩ | ⟨g, _⟩⟩
          · left
            refine ⟨k + 1, by simpa using g1, ?_, by rw [g3]; congr 2; omega⟩
            intro j hj
            cases j with
            | zero => exact hne rfl
            | succ j => simpa using g2 j (by omega)
          · right
            refine ⟨by simp; exact ⟨h2, g1⟩, ?_⟩
            right; left
            refine ⟨trivial, 0, hv, by simp, by simp, ?_⟩
            rw [g]; simp only [Option.some.injEq] at gn; subst gn; simp
          · simp at g
          · simp at g
        | some n0 =>
          simp only [Option.isNone_some, Bool.false_eq_true, if_false]
          rcases ih (i + 1) (some n0) with ⟨k, g1, g2, g3⟩ | ⟨g1, ⟨n, gn, g⟩ | ⟨g, _⟩ | ⟨g, _⟩⟩
          · left
            refine ⟨k + 1, by simpa using g1, ?_, by rw [g3]; congr 2; omega⟩
            intro j hj
            cases j with
            | zero => exact hne rfl
            | succ j => simpa using g2 j (by omega)
          · right
            exact ⟨by simp; exact ⟨h2, g1⟩, Or.inl ⟨n, gn, g⟩⟩
          · simp at g
          · simp at g
    · rw [if_neg h1]
      have hne : ∀ {k v}, k = 0 → ((hn, hv) :: l)[k]? ≠ some (name, v) := by
        rintro k v rfl; simp; exact fun h => absurd h.symm h1
      rcases ih (i + 1) nm with ⟨k, g1, g2, g3⟩ | ⟨g1, ⟨n, gn, g⟩ | ⟨gn, k, v, g3, g4, g5⟩ | ⟨gn, g2, g⟩⟩
      · left
        refine ⟨k + 1, by simpa using g1, ?_, by rw [g3]; congr 2; omega⟩
        intro j hj
        cases j with
        | zero => exact hne rfl
        | succ j => simpa using g2 j (by omega)
      · right
        exact ⟨by simp; exact ⟨fun h => absurd h h1, g1⟩, Or.inl ⟨n, gn, g⟩⟩
      · right
        refine ⟨by simp; exact ⟨fun h => absurd h h1, g1⟩, Or.inr (Or.inl ⟨gn, k + 1, v, by simpa using g3, ?_, by rw [g5]; congr 2; omega⟩)⟩
        intro j v' hj
        cases j with
        | zero => exact hne rfl
        | succ j => simpa using g4 j v' (by omega)
      · right
        refine ⟨by simp; exact ⟨fun h => absurd h h1, g1⟩, Or.inr (Or.inr ⟨gn, ?_, g⟩)⟩
        intro v
        simp
        exact ⟨fun h => absurd h h1, g2 v⟩

end Verif.Hpack
