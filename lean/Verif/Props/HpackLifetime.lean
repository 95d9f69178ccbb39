import Verif.Props.HpackTable
/-! Property theorem C106: how long an entry stays in the dynamic table, and where it is found. -/
namespace Verif.Props
open Verif Verif.Spec Verif.Hpack

/-- The headers inserted by a history, newest first. -/
def insertedBy : List TableOp → List (Bytes × Bytes)
  | [] => []
  | .insert n v :: ops => insertedBy ops ++ [(n, v)]
  | .resize _ :: ops => insertedBy ops

/-- The maximal size after a history: that of the last change, or the initial one. -/
def maxAfter (m : UInt32) : List TableOp → UInt32
  | [] => m
  | .insert _ _ :: ops => maxAfter m ops
  | .resize m' :: ops => maxAfter m' ops

/-- An entry `e`, inserted when the maximal size was `m`, outlives the operations `post`: at no moment since its insertion was the size of
it together with all newer entries above the maximal size of that moment. -/
def Outlives (m : UInt32) (e : Bytes × Bytes) (post : List TableOp) : Prop :=
  ∀ q r, post = q ++ r → entrySize e + tableSize (insertedBy q) ≤ (maxAfter m q).toNat

theorem insertedBy_snoc (q : List TableOp) (n v : Bytes) : insertedBy (q ++ [.insert n v]) = (n, v) :: insertedBy q := by
  induction q with
  | nil => rfl
  | cons op q ih => cases op <;> simp [insertedBy, ih]

theorem insertedBy_snoc' (q : List TableOp) (m : UInt32) : insertedBy (q ++ [.resize m]) = insertedBy q := by
  induction q with
  | nil => rfl
  | cons op q ih => cases op <;> simp [insertedBy, ih]

theorem maxAfter_snoc (m : UInt32) (q : List TableOp) (n v : Bytes) : maxAfter m (q ++ [.insert n v]) = maxAfter m q := by
  induction q generalizing m with
  | nil => rfl
  | cons op q ih => cases op <;> simp [maxAfter, ih]

theorem maxAfter_snoc' (m m' : UInt32) (q : List TableOp) : maxAfter m (q ++ [.resize m']) = m' := by
  induction q generalizing m with
  | nil => rfl
  | cons op q ih => cases op <;> simp [maxAfter, ih]

theorem runTable_append (t : Table) (p q : List TableOp) : runTable t (p ++ q) = (runTable t p).bind fun t => runTable t q := by
  induction p generalizing t with
  | nil => rfl
  | cons op p ih =>
    cases op with
    | insert n v => simp only [List.cons_append, runTable]; cases t.insert n v <;> simp [Res.bind, ih]
    | resize m => simp only [List.cons_append, runTable]; cases t.updateMaxDynamicSize m <;> simp [Res.bind, ih]

/-- Eviction seen from one entry. -/
theorem keepFitting_at (max : Nat) (a b : List (Bytes × Bytes)) (e : Bytes × Bytes) :
    (entrySize e + tableSize a ≤ max → ∃ b', keepFitting max (a ++ e :: b) = a ++ e :: b') ∧
    (max < entrySize e + tableSize a → (keepFitting max (a ++ e :: b)).length ≤ a.length) := by
  induction a generalizing max with
  | nil =>
    simp only [List.nil_append, keepFitting, List.length_nil]
    refine ⟨fun h => ?_, fun h => ?_⟩
    · have h0 : tableSize ([] : List (Bytes × Bytes)) = 0 := rfl
      exact ⟨_, if_pos (by omega)⟩
    · have h0 : tableSize ([] : List (Bytes × Bytes)) = 0 := rfl
      rw [if_neg (by omega)]; simp
  | cons x a ih =>
    simp only [List.cons_append, keepFitting, tableSize_cons]
    refine ⟨fun h => ?_, fun h => ?_⟩
    · obtain ⟨b', hb⟩ := (ih (max - entrySize x)).1 (by omega)
      exact ⟨b', by rw [if_pos (by omega), hb]⟩
    · by_cases hx : entrySize x ≤ max
      · rw [if_pos hx]
        have := (ih (max - entrySize x)).2 (by omega)
        simp only [List.length_cons]; omega
      · rw [if_neg hx]; simp

theorem keepFitting_length (max : Nat) (l : List (Bytes × Bytes)) : (keepFitting max l).length ≤ l.length := by
  obtain ⟨r, hr⟩ := keepFitting_prefix max l
  have := congrArg List.length hr
  rw [List.length_append] at this
  omega

theorem insert_keep (t : SpecTable) (e : Bytes × Bytes) : (t.insert e).entries = keepFitting t.max (e :: t.entries) ∧ (t.insert e).max = t.max := by
  rw [SpecTable.insert, keepFitting]
  split <;> exact ⟨rfl, rfl⟩

/-- What is in the table after the operations `post`, seen from the entry. -/
def Seen (e : Bytes × Bytes) (m : UInt32) (post : List TableOp) (t : SpecTable) : Prop :=
  t.max = (maxAfter m post).toNat ∧
  ((Outlives m e post ∧ ∃ b, t.entries = insertedBy post ++ e :: b) ∨ (¬ Outlives m e post ∧ t.entries.length ≤ (insertedBy post).length))

theorem outlives_snoc {m : UInt32} {e : Bytes × Bytes} {q : List TableOp} {op : TableOp} : Outlives m e (q ++ [op]) ↔
    Outlives m e q ∧ entrySize e + tableSize (insertedBy (q ++ [op])) ≤ (maxAfter m (q ++ [op])).toNat := by
  constructor
  · intro h
    exact ⟨fun a b hab => h a (b ++ [op]) (by rw [hab, List.append_assoc]), h _ [] (by simp)⟩
  · intro h a b hab
    rcases List.eq_nil_or_concat b with rfl | ⟨b', x, rfl⟩
    · rw [List.append_nil] at hab
      rw [← hab]; exact h.2
    · rw [List.concat_eq_append, ← List.append_assoc] at hab
      exact h.1 a b' (List.append_inj' hab rfl).1

theorem seen_insert {e : Bytes × Bytes} {m : UInt32} {q : List TableOp} {t : SpecTable} (h : Seen e m q t) (n v : Bytes) :
    Seen e m (q ++ [.insert n v]) (t.insert (n, v)) := by
  obtain ⟨hmax, h⟩ := h
  obtain ⟨he, hm⟩ := insert_keep t (n, v)
  refine ⟨by rw [hm, hmax, maxAfter_snoc], ?_⟩
  rw [outlives_snoc, insertedBy_snoc, maxAfter_snoc, he, hmax]
  rcases h with ⟨hl, b, hb⟩ | ⟨hl, hb⟩
  · by_cases hs : entrySize e + tableSize ((n, v) :: insertedBy q) ≤ (maxAfter m q).toNat
    · obtain ⟨b', hb'⟩ := (keepFitting_at (maxAfter m q).toNat ((n, v) :: insertedBy q) b e).1 hs
      exact .inl ⟨⟨hl, hs⟩, b', by rw [hb]; exact hb'⟩
    · have := (keepFitting_at (maxAfter m q).toNat ((n, v) :: insertedBy q) b e).2 (by omega)
      exact .inr ⟨fun h => hs h.2, by rw [hb]; exact this⟩
  · refine .inr ⟨fun h => hl h.1, ?_⟩
    have := keepFitting_length (maxAfter m q).toNat ((n, v) :: t.entries)
    simp only [List.length_cons] at this ⊢
    omega

theorem seen_resize {e : Bytes × Bytes} {m : UInt32} {q : List TableOp} {t : SpecTable} (h : Seen e m q t) (m' : UInt32) :
    Seen e m (q ++ [.resize m']) (t.resize m'.toNat) := by
  obtain ⟨_, h⟩ := h
  refine ⟨by rw [maxAfter_snoc']; rfl, ?_⟩
  rw [outlives_snoc, insertedBy_snoc', maxAfter_snoc']
  simp only [SpecTable.resize]
  rcases h with ⟨hl, b, hb⟩ | ⟨hl, hb⟩
  · by_cases hs : entrySize e + tableSize (insertedBy q) ≤ m'.toNat
    · obtain ⟨b', hb'⟩ := (keepFitting_at m'.toNat (insertedBy q) b e).1 hs
      exact .inl ⟨⟨hl, hs⟩, b', by rw [hb]; exact hb'⟩
    · have := (keepFitting_at m'.toNat (insertedBy q) b e).2 (by omega)
      exact .inr ⟨fun h => hs h.2, by rw [hb]; exact this⟩
  · refine .inr ⟨fun h => hl h.1, ?_⟩
    have := keepFitting_length m'.toNat t.entries
    omega

theorem seen_run {e : Bytes × Bytes} {m : UInt32} (post : List TableOp) : ∀ {q : List TableOp} {t t' : Table}, t.WF → Seen e m q t.spec →
    runTable t post = .ok t' → Seen e m (q ++ post) t'.spec := by
  induction post with
  | nil => intro q t t' _ h hr; cases hr; rw [List.append_nil]; exact h
  | cons op post ih =>
    intro q t t' hwf h hr
    rw [show q ++ op :: post = (q ++ [op]) ++ post by simp]
    cases op with
    | insert n v =>
      obtain ⟨t1, h1, h2, h3⟩ := t.insert_spec (ε := Unit) hwf n v
      rw [runTable, h1] at hr
      exact ih h2 (by rw [h3]; exact seen_insert h n v) hr
    | resize m' =>
      obtain ⟨t1, h1, h2, h3⟩ := t.resize_spec (ε := Unit) hwf m'
      rw [runTable, h1] at hr
      exact ih h2 (by rw [h3]; exact seen_resize h m') hr

/-- C106. A header is inserted at some point of any history of insertions and size changes. Let `k` be the number of insertions after it.
At the end it is found at index `62 + k` if it outlived what came after; otherwise there is nothing at this index. So an index computed by
counting never finds another header by mistake. -/
theorem C106_lifetime (t t' : Table) (h : t.WF) (pre post : List TableOp) (n v : Bytes)
    (hr : runTable t (pre ++ .insert n v :: post) = .ok t') (i : UInt32) (hi : i.toNat = 62 + (insertedBy post).length) :
    (Outlives (maxAfter t.maxDynamicSize pre) (n, v) post → t'.get i = some (n, v)) ∧
    (¬ Outlives (maxAfter t.maxDynamicSize pre) (n, v) post → t'.get i = none) := by
  obtain ⟨t0, h0, hwf0⟩ := runTable_WF t h pre
  rw [runTable_append, h0] at hr
  have hmax : t0.maxDynamicSize = maxAfter t.maxDynamicSize pre := by
    clear hr hwf0
    revert t
    induction pre with
    | nil => intro t h h0; cases h0; rfl
    | cons op pre ih =>
      intro t h h0
      cases op with
      | insert a b =>
        obtain ⟨t1, h1, h2, h3⟩ := t.insert_spec (ε := Unit) h a b
        rw [runTable, h1] at h0
        have hm : t1.maxDynamicSize = t.maxDynamicSize := by
          have := congrArg SpecTable.max h3
          rw [(insert_keep _ _).2] at this
          exact UInt32.toNat_inj.mp this
        rw [maxAfter, ← hm]
        exact ih t1 h2 h0
      | resize m =>
        obtain ⟨t1, h1, h2, h3⟩ := t.resize_spec (ε := Unit) h m
        rw [runTable, h1] at h0
        have hm : t1.maxDynamicSize = m := UInt32.toNat_inj.mp (congrArg SpecTable.max h3)
        rw [maxAfter, ← hm]
        exact ih t1 h2 h0
  rw [← hmax]
  obtain ⟨t1, h1, h2, h3⟩ := t0.insert_spec (ε := Unit) hwf0 n v
  simp only [Res.bind, runTable, h1] at hr
  have hs0 : Seen (n, v) t0.maxDynamicSize [] t1.spec := by
    obtain ⟨he, hm⟩ := insert_keep t0.spec (n, v)
    refine ⟨by rw [h3, hm]; rfl, ?_⟩
    rw [h3, he]
    have hout : Outlives t0.maxDynamicSize (n, v) [] ↔ entrySize (n, v) ≤ t0.spec.max := by
      constructor
      · intro h; exact h [] [] rfl
      · intro h q r hq
        obtain ⟨rfl, rfl⟩ := List.nil_eq_append_iff.mp hq
        exact h
    by_cases hfit : entrySize (n, v) ≤ t0.spec.max
    · exact .inl ⟨hout.mpr hfit, _, by rw [keepFitting, if_pos hfit]; rfl⟩
    · exact .inr ⟨fun h => hfit (hout.mp h), by rw [keepFitting, if_neg hfit]; simp⟩
  obtain ⟨_, hs⟩ := seen_run post h2 hs0 hr
  rw [List.nil_append] at hs
  rw [Table.get_spec, SpecTable.addr, if_neg (by omega), if_neg (by omega), hi, Nat.add_sub_cancel_left]
  rcases hs with ⟨hl, b, hb⟩ | ⟨hl, hb⟩
  · refine ⟨fun _ => ?_, fun h => absurd hl h⟩
    rw [hb, List.getElem?_append_right (Nat.le_refl _), Nat.sub_self]; rfl
  · exact ⟨fun h => absurd h hl, fun _ => List.getElem?_eq_none hb⟩

/-- Only insertions. -/
def inserts (hs : List (Bytes × Bytes)) : List TableOp := hs.map fun h => .insert h.1 h.2

theorem insertedBy_inserts (hs : List (Bytes × Bytes)) : insertedBy (inserts hs) = hs.reverse := by
  induction hs with
  | nil => rfl
  | cons h hs ih => simp only [inserts, List.map_cons, insertedBy, List.reverse_cons]; rw [← ih]; rfl

theorem tableSize_reverse (l : List (Bytes × Bytes)) : tableSize l.reverse = tableSize l := by
  induction l with
  | nil => rfl
  | cons e l ih =>
    rw [List.reverse_cons, tableSize_append, ih, tableSize_cons, tableSize_cons]
    simp [tableSize]; omega

theorem maxAfter_inserts (m : UInt32) (hs : List (Bytes × Bytes)) : maxAfter m (inserts hs) = m := by
  induction hs with
  | nil => rfl
  | cons h hs ih => exact ih

/-- C106. While the maximal size does not change it is enough to look at the end: the header is there as long as the sizes of it and of all
headers inserted after it sum up to at most the maximal size. -/
theorem C106_insertions_only (t t' : Table) (h : t.WF) (n v : Bytes) (later : List (Bytes × Bytes))
    (hr : runTable t (.insert n v :: inserts later) = .ok t') (i : UInt32) (hi : i.toNat = 62 + later.length) :
    t'.get i = if entrySize (n, v) + tableSize later ≤ t.maxDynamicSize.toNat then some (n, v) else none := by
  have hl : i.toNat = 62 + (insertedBy (inserts later)).length := by rw [insertedBy_inserts, List.length_reverse]; exact hi
  obtain ⟨h1, h2⟩ := C106_lifetime t t' h [] (inserts later) n v hr i hl
  simp only [maxAfter] at h1 h2
  by_cases hs : entrySize (n, v) + tableSize later ≤ t.maxDynamicSize.toNat
  · rw [if_pos hs]
    refine h1 fun q r hq => ?_
    obtain ⟨a, b, hab, rfl, rfl⟩ := List.map_eq_append_iff.mp hq
    have ea := insertedBy_inserts a
    have em := maxAfter_inserts t.maxDynamicSize a
    simp only [inserts] at ea em
    rw [ea, em, tableSize_reverse]
    rw [hab, tableSize_append] at hs
    omega
  · rw [if_neg hs]
    refine h2 fun h => hs ?_
    have := h (inserts later) [] (by simp)
    rwa [insertedBy_inserts, maxAfter_inserts, tableSize_reverse] at this

/-! A history with a size change in between: two entries of 34 octets, the limit lowered to 68 (both stay) and then to 67 (the older one goes). -/
example : Outlives 100 ([97], [98]) [.insert [99] [100], .resize 68] := by
  intro q r h
  match q, h with
  | [], _ => decide +kernel
  | [a], h => simp at h; obtain ⟨rfl, _⟩ := h; decide +kernel
  | [a, b], h => simp at h; obtain ⟨rfl, rfl, _⟩ := h; decide +kernel
  | a :: b :: c :: q, h => simp at h
example : ¬ Outlives 100 ([97], [98]) [.insert [99] [100], .resize 67, .resize 100] := fun h => absurd (h [.insert [99] [100], .resize 67] [.resize 100] rfl) (by decide +kernel)
example : (runTable (Table.withDynamicSize 100) [.insert [97] [98], .insert [99] [100], .resize 68]).bind (fun t => .ok (t.get 63, t.get 62)) =
    .ok (some ([97], [98]), some ([99], [100])) := by decide +kernel
example : (runTable (Table.withDynamicSize 100) [.insert [97] [98], .insert [99] [100], .resize 67, .resize 100]).bind (fun t => .ok (t.get 63)) =
    .ok none := by decide +kernel

end Verif.Props
