import Verif.Hpack.Work
import Verif.Props.HpackTable
import Verif.Props.HpackLifetime
import Verif.Props.HuffCost
import Verif.Lemmas.HpackWork
/-! C110: work of the header table. C111: Huffman work of the HPACK decoder. -/
namespace Verif.Hpack
open Verif.Spec

/-! ### Search -/

theorem findLoopC_spec (t : Table) (h : t.WF) (name value : Bytes) (fuel i : Nat) (nm : Option Nat) (calls : Nat)
    (hi : i ≤ t.all.length) (hf : t.all.length < i + fuel) :
    ∃ c, t.findLoopC name value fuel (UInt32.ofNat (i + 1)) i nm calls = some (findLoop name value i nm (t.all.drop i), calls + c) ∧
      ((∃ k, findLoop name value i nm (t.all.drop i) = some (i + k, true) ∧ c = k) ∨
       ((∀ k, findLoop name value i nm (t.all.drop i) ≠ some (k, true)) ∧ c = t.all.length - i + 1)) := by
  have hlen := h.length_le
  have hall := t.all_length
  induction fuel generalizing i nm calls with
  | zero => omega
  | succ fuel ih =>
    have e : (UInt32.ofNat (i + 1)).toNat = i + 1 := UInt32.toNat_ofNat_of_lt' (by simp [UInt32.size]; omega)
    simp only [Table.findLoopC, Table.get_spec, e, addr_eq_all]
    by_cases hlt : i < t.all.length
    · rw [List.getElem?_eq_getElem hlt, List.drop_eq_getElem_cons hlt]
      have hadd : UInt32.ofNat (i + 1) + 1 = UInt32.ofNat (i + 1 + 1) := by
        apply UInt32.toNat_inj.mp
        rw [UInt32.toNat_add, e, UInt32.toNat_ofNat_of_lt' (by simp [UInt32.size]; omega)]
        simp; omega
      have hrec : ∀ nm', ∃ c, t.findLoopC name value fuel (UInt32.ofNat (i + 1) + 1) (i + 1) nm' (calls + 1) =
          some (findLoop name value (i + 1) nm' (t.all.drop (i + 1)), calls + c) ∧
        ((∃ k, findLoop name value (i + 1) nm' (t.all.drop (i + 1)) = some (i + k, true) ∧ c = k) ∨
         ((∀ k, findLoop name value (i + 1) nm' (t.all.drop (i + 1)) ≠ some (k, true)) ∧ c = t.all.length - i + 1)) := by
        intro nm'
        rw [hadd]
        obtain ⟨c, h1, h2⟩ := ih (i + 1) nm' (calls + 1) (by omega) (by omega)
        refine ⟨c + 1, by rw [h1, Nat.add_assoc, Nat.add_comm 1 c], ?_⟩
        rcases h2 with ⟨k, h2, rfl⟩ | ⟨h2, rfl⟩
        · left; exact ⟨c + 1, by rw [h2]; congr 2; omega, rfl⟩
        · right; exact ⟨h2, by omega⟩
      simp only [findLoop]
      by_cases h1 : name = t.all[i].1
      · rw [if_pos h1, if_pos h1]
        by_cases h2 : value = t.all[i].2
        · rw [if_pos h2, if_pos h2]
          exact ⟨1, rfl, Or.inl ⟨1, rfl, rfl⟩⟩
        · rw [if_neg h2, if_neg h2]
          cases nm with
          | none => exact hrec _
          | some n => exact hrec _
      · rw [if_neg h1, if_neg h1]
        exact hrec _
    · have : i = t.all.length := by omega
      rw [List.getElem?_eq_none (by omega), List.drop_eq_nil_of_le (by omega)]
      simp only [findLoop]
      cases nm with
      | none => exact ⟨1, rfl, Or.inr ⟨by simp, by omega⟩⟩
      | some n => exact ⟨1, rfl, Or.inr ⟨by simp, by omega⟩⟩

/-! ### Eviction -/

theorem popsLoop_spec {ε : Type} (fuel : Nat) (d d' : Dynamic) (h : Dynamic.consolidateLoop (ε := ε) fuel d = .ok d') :
    d'.inner.length + Dynamic.popsLoop fuel d = d.inner.length := by
  induction fuel generalizing d with
  | zero =>
    simp only [Dynamic.consolidateLoop] at h
    split at h
    · simp at h
    · simp only [Res.ok.injEq] at h; subst h; simp [Dynamic.popsLoop]
  | succ fuel ih =>
    simp only [Dynamic.consolidateLoop] at h
    simp only [Dynamic.popsLoop]
    by_cases hs : d.size > d.maxSize.toNat
    · rw [if_pos hs] at h ⊢
      cases hl : d.inner.getLast? with
      | none =>
        have he : d.inner = [] := by simpa using hl
        simp only [hl] at h
        exfalso
        clear ih
        induction fuel with
        | zero => simp [Dynamic.consolidateLoop, hs] at h
        | succ fuel ih => simp only [Dynamic.consolidateLoop, if_pos hs, hl] at h; exact ih h
      | some hd =>
        simp only [hl] at h ⊢
        have hpos : 0 < d.inner.length := by
          cases hi : d.inner with
          | nil => simp [hi] at hl
          | cons => simp
        split at h
        · rename_i hn
          rw [if_pos hn]
          have := ih _ h
          simp only [List.length_dropLast] at this
          omega
        · simp at h
    · rw [if_neg hs] at h ⊢
      simp only [Res.ok.injEq] at h; subst h; simp

theorem popsInsert_spec {ε : Type} (t t' : Table) (n v : Bytes) (h : t.insert (ε := ε) n v = .ok t') :
    t'.dynamicLen + t.popsInsert n v = t.dynamicLen + 1 := by
  simp only [Table.insert] at h
  split at h <;> simp only [Res.ok.injEq, reduceCtorEq] at h
  rename_i d hd
  subst h
  exact popsLoop_spec _ _ _ hd

theorem popsResize_spec {ε : Type} (t t' : Table) (m : UInt32) (h : t.updateMaxDynamicSize (ε := ε) m = .ok t') :
    t'.dynamicLen + t.popsResize m = t.dynamicLen := by
  simp only [Table.updateMaxDynamicSize] at h
  split at h <;> simp only [Res.ok.injEq, reduceCtorEq] at h
  rename_i d hd
  subst h
  exact popsLoop_spec _ _ _ hd

end Verif.Hpack

namespace Verif.Props
open Verif Verif.Spec Verif.Hpack
open Verif.Huffman (Speed)

/-- C110. Work of `find`: it returns what `find` returns, and asks the iterator for exactly as many headers as the index of
the header if it is in the table; otherwise it goes through the whole table (and notices the end). -/
theorem C110_find_calls (t : Table) (hwf : t.WF) (n v : Bytes) :
    ∃ r calls, t.findC n v = some (r, calls) ∧ t.find n v = some r ∧
      (∀ i, r = some (i, true) → calls = i) ∧ ((∀ i, r ≠ some (i, true)) → calls = t.len + 1) := by
  have hall := t.all_length
  obtain ⟨c, h1, h2⟩ := findLoopC_spec t hwf n v (t.len + 1) 0 none 0 (by omega) (by
    rw [Table.len, static_length]; omega)
  refine ⟨_, 0 + c, h1, by rw [Table.find, Table.iter_spec t hwf]; rfl, ?_, ?_⟩
  · intro i hi
    rcases h2 with ⟨k, hk, rfl⟩ | ⟨hk, _⟩
    · rw [hk] at hi
      simp only [Option.some.injEq, Prod.mk.injEq, and_true] at hi
      exact hi
    · exact absurd hi (hk i)
  · intro hi
    rcases h2 with ⟨k, hk, _⟩ | ⟨_, rfl⟩
    · exact absurd hk (hi _)
    · rw [Table.len, static_length]; omega

example : ∃ r calls, (Table.withDynamicSize 100).findC [97] [98] = some (r, calls) ∧ (Table.withDynamicSize 100).find [97] [98] = some r := by
  obtain ⟨r, c, h1, h2, _⟩ := C110_find_calls _ (Table.withDynamicSize_WF 100) [97] [98]
  exact ⟨r, c, h1, h2⟩

/-- C110. The dynamic table never holds more than `max / 32` headers, whatever the history. -/
theorem C110_entries (m : UInt32) (ops : List TableOp) (t : Table) (h : runTable (Table.withDynamicSize m) ops = .ok t) :
    t.dynamicLen ≤ t.maxDynamicSize.toNat / 32 := by
  obtain ⟨t', h1, h2⟩ := runTable_WF _ (Table.withDynamicSize_WF m) ops
  rw [h] at h1
  simp only [Res.ok.injEq] at h1
  subst h1
  have h3 : t.dynamic.size = tableSize t.dynamic.inner := h2.1
  have h4 : tableSize t.dynamic.inner ≤ t.dynamic.maxSize.toNat := h2.2
  have h5 : 32 * t.dynamic.inner.length ≤ tableSize t.dynamic.inner := by
    generalize t.dynamic.inner = l
    induction l with
    | nil => simp
    | cons e l ih => simp only [List.length_cons, tableSize_cons, entrySize]; omega
  rw [Nat.le_div_iff_mul_le (by decide)]
  simp only [Table.dynamicLen, Table.maxDynamicSize]
  omega

/-- C110. The bound is reached: `max / 32` empty headers fit. -/
theorem C110_entries_reached (m : UInt32) (k : Nat) (hk : k ≤ m.toNat / 32) :
    ∃ t, runTable (Table.withDynamicSize m) (List.replicate k (.insert [] [])) = .ok t ∧ t.dynamicLen = k := by
  suffices hgen : ∀ k t, t.WF → t.maxDynamicSize = m → t.dynamic.size = 32 * t.dynamicLen → k + t.dynamicLen ≤ m.toNat / 32 →
      ∃ t', runTable t (List.replicate k (.insert [] [])) = .ok t' ∧ t'.dynamicLen = k + t.dynamicLen by
    exact hgen k _ (Table.withDynamicSize_WF m) rfl rfl (by simpa [Table.withDynamicSize, Dynamic.withSize, Table.dynamicLen] using hk)
  intro k
  induction k with
  | zero => intro t _ _ _ _; exact ⟨t, rfl, by omega⟩
  | succ k ih =>
    intro t hwf hm hs hb
    obtain ⟨t1, g1, g2, g3⟩ := t.insert_spec (ε := Unit) hwf [] []
    have hacc : t.dynamic.size = tableSize t.dynamic.inner := hwf.1
    have hfit : tableSize (([], []) :: t.dynamic.inner) ≤ t.dynamic.maxSize.toNat := by
      have hm' : t.dynamic.maxSize = m := hm
      have : t.dynamicLen + 1 ≤ m.toNat / 32 := by omega
      rw [Nat.le_div_iff_mul_le (by decide)] at this
      rw [tableSize_cons, hm', ← hacc, hs]
      simp only [entrySize, List.length_nil]
      omega
    rw [tableSize_cons] at hfit
    have he : t.spec.insert ([], []) = { entries := ([], []) :: t.dynamic.inner, max := t.dynamic.maxSize.toNat } := by
      unfold SpecTable.insert
      rw [if_pos (show entrySize ([], []) ≤ t.spec.max from Nat.le_trans (Nat.le_add_right _ _) hfit)]
      simp only [Table.spec]
      rw [keepFitting_of_le (by omega)]
    rw [he] at g3
    simp only [Table.spec, SpecTable.mk.injEq] at g3
    have hl : t1.dynamicLen = t.dynamicLen + 1 := by simp [Table.dynamicLen, g3.1]
    have hs1 : t1.dynamic.size = 32 * t1.dynamicLen := by
      have : t1.dynamic.size = tableSize t1.dynamic.inner := g2.1
      rw [this, g3.1, tableSize_cons, ← hacc, hs, hl]
      simp only [entrySize, List.length_nil]
      omega
    obtain ⟨t', r1, r2⟩ := ih t1 g2 (by simp only [Table.maxDynamicSize] at hm ⊢; rw [← hm]; exact UInt32.toNat_inj.mp g3.2) hs1 (by omega)
    refine ⟨t', ?_, by omega⟩
    rw [List.replicate_succ]
    simp only [runTable, g1]
    exact r1

/-- C110. Hence a search asks for at most `62 + max / 32` headers. -/
theorem C110_find_bound (m : UInt32) (ops : List TableOp) (t : Table) (h : runTable (Table.withDynamicSize m) ops = .ok t)
    (n v : Bytes) : ∃ r calls, t.findC n v = some (r, calls) ∧ calls ≤ 62 + t.maxDynamicSize.toNat / 32 := by
  obtain ⟨t', h1, h2⟩ := runTable_WF _ (Table.withDynamicSize_WF m) ops
  have hl := C110_entries m ops t h
  rw [h] at h1
  simp only [Res.ok.injEq] at h1
  subst h1
  obtain ⟨r, calls, g1, g2, g3, g4⟩ := C110_find_calls t h2 n v
  refine ⟨r, calls, g1, ?_⟩
  have hlen : t.len = 61 + t.dynamicLen := by rw [Table.len, static_length, Table.dynamicLen]
  by_cases hr : ∃ i, r = some (i, true)
  · obtain ⟨i, rfl⟩ := hr
    have := g3 i rfl
    rcases C26_find t h2 n v with ⟨j, f1, f2, _⟩ | ⟨_, j, v', f1, _⟩ | ⟨_, f1⟩
    · rw [g2] at f1
      simp only [Option.some.injEq, Prod.mk.injEq, and_true] at f1
      subst f1
      cases i with
      | zero => omega
      | succ i =>
        rw [addr_eq_all] at f2
        have := (List.getElem?_eq_some_iff.mp f2).1
        rw [t.all_length] at this
        simp only [Table.dynamicLen] at hl
        omega
    · rw [g2] at f1; simp at f1
    · rw [g2] at f1; simp at f1
  · have := g4 (fun i hi => hr ⟨i, hi⟩)
    omega

/-- The evictions of a history: `Table::insert` and `Table::update_max_dynamic_size`, /repo/hpack/src/table/mod.rs:121-123, 183-185. -/
def evictionsOf : Table → List TableOp → Nat
  | _, [] => 0
  | t, .insert n v :: ops => t.popsInsert n v + (match t.insert (ε := Unit) n v with | .ok t' => evictionsOf t' ops | _ => 0)
  | t, .resize m :: ops => t.popsResize m + (match t.updateMaxDynamicSize (ε := Unit) m with | .ok t' => evictionsOf t' ops | _ => 0)

/-- C110. Evicting is paid for by inserting: in every history the entries removed and the entries still there are together
exactly the entries inserted. So the work of eviction is at most one removal per insertion, however the sizes change. -/
theorem C110_evictions (m : UInt32) (ops : List TableOp) (t : Table) (h : runTable (Table.withDynamicSize m) ops = .ok t) :
    evictionsOf (Table.withDynamicSize m) ops + t.dynamicLen = (insertedBy ops).length := by
  suffices hgen : ∀ ops t0, runTable t0 ops = .ok t →
      evictionsOf t0 ops + t.dynamicLen = (insertedBy ops).length + t0.dynamicLen by
    simpa [Table.withDynamicSize, Dynamic.withSize, Table.dynamicLen] using hgen ops _ h
  intro ops
  induction ops with
  | nil =>
    intro t0 h
    simp only [runTable, Res.ok.injEq] at h
    subst h
    simp [evictionsOf, insertedBy]
  | cons op ops ih =>
    intro t0 h
    cases op with
    | insert n v =>
      simp only [runTable] at h
      cases hi : t0.insert (ε := Unit) n v with
      | ok t1 =>
        rw [hi] at h
        have h1 := ih t1 h
        have h2 := popsInsert_spec t0 t1 n v hi
        simp only [evictionsOf, hi, insertedBy, List.length_append, List.length_cons, List.length_nil]
        omega
      | err e => rw [hi] at h; cases h
      | panic => rw [hi] at h; cases h
      | hang => rw [hi] at h; cases h
    | resize m =>
      simp only [runTable] at h
      cases hi : t0.updateMaxDynamicSize (ε := Unit) m with
      | ok t1 =>
        rw [hi] at h
        have h1 := ih t1 h
        have h2 := popsResize_spec t0 t1 m hi
        simp only [evictionsOf, hi, insertedBy]
        omega
      | err e => rw [hi] at h; cases h
      | panic => rw [hi] at h; cases h
      | hang => rw [hi] at h; cases h

example : ∃ t, runTable (Table.withDynamicSize 70) [.insert [1] [2], .insert [3] [4], .insert [5] [6], .resize 40] = .ok t ∧
    t.dynamicLen = 1 ∧ t.findC [5] [6] = some (some (62, true), 62) ∧ t.findC [5] [7] = some (some (62, false), 63) :=
  ⟨⟨⟨[([5], [6])], 34, 40⟩⟩, by rfl, by decide +kernel, by decide +kernel, by decide +kernel⟩
example : evictionsOf (Table.withDynamicSize 70) [.insert [1] [2], .insert [3] [4], .insert [5] [6], .resize 40] = 2 := by
  decide +kernel

/-! ### Decoder -/

/-- C111. Counting changes nothing: the counted decoder returns what `decode` returns. -/
theorem C111_same_result (s : DecoderState) : ((decodeW s).1, (decodeW s).2.1) = Hpack.decode s := decodeW_result s

/-- C111. The Huffman work of one call of `decode` is linear: whatever the octets, the table and the outcome, there are at
most eight table lookups per octet of the buffer. -/
theorem C111_linear (s : DecoderState) : (decodeW s).2.2 ≤ 8 * s.buf.length := by
  rcases decodeLoopW_cost s.buf.length 0 s 0 with ⟨n, _, h⟩ | ⟨_, h⟩
  · simp only [decodeW]; omega
  · simp only [decodeW]; omega

theorem bigHead {hi v : Nat} {bs : Bytes} (h : IntWireLim 5 7 hi v bs) (hh : hi = 0 ∨ hi = 128) :
    ∃ b0 tl, bs = b0 :: tl ∧ ((b0 &&& 128) == 128) = decide (hi = 128) := by
  have key : ∀ w, w < 128 → ((UInt8.ofNat (hi + w) &&& 128) == 128) = decide (hi = 128) := by
    rcases hh with rfl | rfl
    · decide +kernel
    · decide +kernel
  rcases h.1 with ⟨h1, rfl⟩ | ⟨cs, _, _, rfl⟩
  · exact ⟨_, _, rfl, key _ (by omega)⟩
  · exact ⟨_, _, rfl, key _ (by omega)⟩

/-- Table lookups for a string literal with the octets `data`: those of Huffman decoding if the top bit is set, none otherwise. -/
def strWork (hi : Nat) (data : Bytes) (sp : Speed) : Nat := if hi = 128 then (Huffman.decodeC data [] sp).2.2.lookups else 0

/-- C111. Exact work for a complete string literal, whether it is accepted or not. -/
theorem C111_string (hi : Nat) (hh : hi = 0 ∨ hi = 128) (l data rest : Bytes) (sp : Speed) (hl : IntWireLim 5 7 hi data.length l) :
    decodeStringW (l ++ data ++ rest) sp = (decodeString (l ++ data ++ rest) sp, strWork hi data sp) := by
  refine Prod.ext (decodeStringW_result _ _) ?_
  obtain ⟨b0, tl, hb, hf⟩ := bigHead hl hh
  have e := decodeInteger_complete (data ++ rest) (by decide) (by decide) (by rcases hh with rfl | rfl <;> decide)
    (by rcases hh with rfl | rfl <;> decide) hl
  rw [← List.append_assoc] at e
  have hc : l ++ data ++ rest = b0 :: (tl ++ data ++ rest) := by rw [hb]; rfl
  have hdrop : ((l ++ data ++ rest).drop l.length).take data.length = data := by simp [List.append_assoc]
  have hlen : (l ++ data ++ rest).length = l.length + data.length + rest.length := by simp only [List.length_append]
  unfold decodeStringW strWork
  rw [hc] at e hdrop hlen ⊢
  simp only [e, hf]
  rw [if_neg (by omega), if_neg (by omega), hdrop]
  by_cases h128 : hi = 128
  · simp only [h128, decide_true, if_true]
    rcases Huffman.decodeC data [] sp with ⟨r, d, w⟩
    rcases r with ⟨⟨⟩⟩ | ⟨⟨⟩⟩ | _ | _ <;> rfl
  · simp only [h128, decide_false, Bool.false_eq_true, if_false]

/-- A coded string of one octet in front of another octet. -/
example : decodeStringW [0x81, 0x1f, 0x82] .FourBits = (decodeString [0x81, 0x1f, 0x82] .FourBits, strWork 128 [0x1f] .FourBits) :=
  C111_string 128 (.inr rfl) [0x81] [0x1f] [0x82] .FourBits ⟨Or.inl ⟨by decide, rfl⟩, by decide⟩

/-- C111. An indexed header field and a size update cost no lookup at all. -/
theorem C111_no_strings (s : DecoderState) (o : UInt8) (os : Bytes) (k : Nat) (hb : s.buf = o :: os)
    (ho : 128 ≤ o.toNat ∨ (32 ≤ o.toNat ∧ o.toNat < 64)) : decodeOneW (s, k) = ((decodeOne s).1, (decodeOne s).2, k) := by
  have hsim := decodeOneW_sim s k
  refine Prod.ext hsim.1 (Prod.ext hsim.2 ?_)
  unfold decodeOneW
  rw [M.bind_apply]
  simp only [M.get_apply, hb, M.ite_apply]
  have hkey : ∀ o : UInt8, (128 ≤ o.toNat ∨ (32 ≤ o.toNat ∧ o.toNat < 64)) → o &&& 128 = 128 ∨ (o &&& 64 ≠ 64 ∧ o &&& 32 = 32) :=
    forall_u8 (by decide +kernel)
  by_cases h1 : o &&& 128 = 128
  · simp only [h1, if_true]; rfl
  · rcases hkey o ho with h | ⟨h2, h3⟩
    · exact absurd h h1
    · simp only [h1, h2, h3, if_false, if_true]
      rw [M.bind_apply]
      simp only [free]
      cases (decUpdateMaxDynamicSize s).1 <;> rfl

/-- C111. Exact work for a literal header field with a new name, in each of the three forms: the work of its two strings. -/
theorem C111_literal (s : DecoderState) (o : UInt8) (ho : o = 0 ∨ o = 16 ∨ o = 64) (ln nm name lv val value rest : Bytes) (hn hv k : Nat)
    (hhn : hn = 0 ∨ hn = 128) (hhv : hv = 0 ∨ hv = 128) (hwf : s.table.WF)
    (hln : IntWireLim 5 7 hn nm.length ln) (hlv : IntWireLim 5 7 hv val.length lv)
    (hname : decodeString (ln ++ nm) s.speed = .ok (name, ln.length + nm.length))
    (hval : decodeString (lv ++ val) s.speed = .ok (value, lv.length + val.length)) :
    ∃ n s', decodeOneW ({ s with buf := o :: (ln ++ nm ++ (lv ++ val ++ rest)) }, k) =
      (.ok n, s', k + strWork hn nm s.speed + strWork hv val s.speed) := by
  have ext : ∀ (l d v r : Bytes), decodeString (l ++ d) s.speed = .ok (v, l.length + d.length) →
      decodeString (l ++ d ++ r) s.speed = .ok (v, l.length + d.length) := by
    intro l d v r h
    obtain ⟨bs, rest', hb, ⟨hf, hw⟩, ht⟩ := decodeString_sound h
    have hl := congrArg List.length hb
    rw [List.length_append, List.length_append] at hl
    have : rest' = [] := List.eq_nil_of_length_eq_zero (by omega)
    subst this
    rw [List.append_nil] at hb
    rw [hb, ht]
    exact decodeString_complete r s.speed hw
  have h1 := C111_string hn hhn ln nm (lv ++ val ++ rest) s.speed hln
  have h2 := C111_string hv hhv lv val rest s.speed hlv
  rw [ext ln nm name _ hname] at h1
  rw [ext lv val value _ hval] at h2
  obtain ⟨t', ht', _⟩ := s.table.insert_spec (ε := DecoderError) hwf name value
  have hint : ∀ p, 1 ≤ p → p ≤ 6 → p = 4 ∨ p = 6 → (o &&& (UInt8.ofNat (2 ^ p - 1))) = 0 →
      decodeInteger (o :: (ln ++ nm ++ (lv ++ val ++ rest))) p = .ok (0, 1) := by
    intro p _ _ hp h0
    unfold decodeInteger
    rw [if_neg (by omega)]
    simp only [h0]
    rcases hp with rfl | rfl <;> rfl
  have hnm : decodeNameW { s with buf := o :: (ln ++ nm ++ (lv ++ val ++ rest)) } 0 1 =
      (.ok (name, 1 + (ln.length + nm.length)), strWork hn nm s.speed) := by
    unfold decodeNameW
    simp only [if_true, List.drop_succ_cons, List.drop_zero, h1]
  have hvl : (o :: (ln ++ nm ++ (lv ++ val ++ rest))).drop (1 + (ln.length + nm.length)) = lv ++ val ++ rest := by
    rw [Nat.add_comm, List.drop_succ_cons]
    have : ln.length + nm.length = (ln ++ nm).length := by simp
    rw [this, List.drop_left]
  have hlit : ∀ p, (if o &&& 64 = 64 then 6 else 4) = p → decodeInteger (o :: (ln ++ nm ++ (lv ++ val ++ rest))) p = .ok (0, 1) →
      ∃ n s', decodeLiteralW ({ s with buf := o :: (ln ++ nm ++ (lv ++ val ++ rest)) }, k) =
        (.ok n, s', k + strWork hn nm s.speed + strWork hv val s.speed) := by
    intro p hp hi
    unfold decodeLiteralW
    rw [M.bind_apply]
    simp only [M.get_apply]
    rw [M.bind_apply]
    simp only [M.lift_apply, hp, hi]
    rw [M.bind_apply]
    simp only [liftW, hnm]
    rw [M.bind_apply]
    simp only [hvl, liftW, h2]
    by_cases h64 : o &&& 64 = 64
    · simp only [h64, if_true, ht']
      exact ⟨_, _, rfl⟩
    · by_cases h16 : o &&& 16 = 16
      · simp only [h64, h16, if_true, if_false]
        exact ⟨_, _, rfl⟩
      · simp only [h64, h16, if_false]
        exact ⟨_, _, rfl⟩
  have hone : decodeOneW ({ s with buf := o :: (ln ++ nm ++ (lv ++ val ++ rest)) }, k) =
      decodeLiteralW ({ s with buf := o :: (ln ++ nm ++ (lv ++ val ++ rest)) }, k) := by
    rcases ho with rfl | rfl | rfl <;> rfl
  rw [hone]
  rcases ho with rfl | rfl | rfl
  · exact hlit 4 rfl (hint 4 (by decide) (by decide) (by decide) rfl)
  · exact hlit 4 rfl (hint 4 (by decide) (by decide) (by decide) rfl)
  · exact hlit 6 rfl (hint 6 (by decide) (by decide) (by decide) rfl)

/-- C111. What repeated attempts cost. A literal header field with a Huffman-coded new name of which only a part of the value
has arrived: `decode` fails, keeps the buffer, and has decoded the whole name all the same. -/
theorem C111_incomplete_value (s : DecoderState) (nm name ln lv part : Bytes) (hi m : Nat) (hh : hi = 0 ∨ hi = 128)
    (hn : IntWireLim 5 7 128 nm.length ln) (hv : IntWireLim 5 7 hi m lv) (hp : part.length < m)
    (hd : Huffman.decode nm [] s.speed = (.ok (), name)) :
    decodeW { s with buf := 0 :: (ln ++ nm ++ lv ++ part) } =
      (.err .IntegerUnderflow, { s with buf := 0 :: (ln ++ nm ++ lv ++ part) }, (Huffman.decodeC nm [] s.speed).2.2.lookups) := by
  have hint : decodeInteger (0 :: (ln ++ nm ++ lv ++ part)) 4 = .ok (0, 1) := rfl
  have hname : decodeStringW (ln ++ nm ++ lv ++ part) s.speed =
      (.ok (name, ln.length + nm.length), (Huffman.decodeC nm [] s.speed).2.2.lookups) := by
    obtain ⟨b0, tl, hb, hf⟩ := bigHead hn (Or.inr rfl)
    have e := decodeInteger_complete (nm ++ lv ++ part) (by decide) (by decide) (by decide) (by decide) hn
    have e' : decodeInteger (ln ++ nm ++ lv ++ part) 7 = .ok (nm.length, ln.length) := by
      rw [← e]; simp only [List.append_assoc]
    have hc : ln ++ nm ++ lv ++ part = b0 :: (tl ++ nm ++ lv ++ part) := by rw [hb]; rfl
    have hdrop : ((ln ++ nm ++ lv ++ part).drop ln.length).take nm.length = nm := by
      simp [List.append_assoc]
    have hlen : (ln ++ nm ++ lv ++ part).length = ln.length + nm.length + lv.length + part.length := by
      simp only [List.length_append]
    unfold decodeStringW
    rw [hc] at e' hdrop hlen ⊢
    simp only [e', hf, decide_true, if_true]
    rw [if_neg (by omega), if_neg (by omega), hdrop]
    have h := C108_same_result nm [] s.speed
    rw [hd] at h
    rcases hq : Huffman.decodeC nm [] s.speed with ⟨r, d, w⟩
    rw [hq] at h
    simp only [Prod.mk.injEq] at h
    obtain ⟨rfl, rfl⟩ := h
    rfl
  have hval : decodeStringW (lv ++ part) s.speed = (.err .IntegerUnderflow, 0) := by
    obtain ⟨b0, tl, hb, hf⟩ := bigHead hv hh
    have e := decodeInteger_complete part (by decide) (by decide) (by rcases hh with rfl | rfl <;> decide)
      (by rcases hh with rfl | rfl <;> decide) hv
    have hc : lv ++ part = b0 :: (tl ++ part) := by rw [hb]; rfl
    have hlen : (lv ++ part).length = lv.length + part.length := List.length_append
    unfold decodeStringW
    rw [hc] at e hlen ⊢
    simp only [e]
    rw [if_neg (by omega), if_pos (by omega)]
  have hnm : decodeNameW { s with buf := 0 :: (ln ++ nm ++ lv ++ part), dst := [] } 0 1 =
      (.ok (name, 1 + (ln.length + nm.length)), (Huffman.decodeC nm [] s.speed).2.2.lookups) := by
    unfold decodeNameW
    simp only [if_true, List.drop_succ_cons, List.drop_zero, hname]
  have hvl : (0 :: (ln ++ nm ++ lv ++ part)).drop (1 + (ln.length + nm.length)) = lv ++ part := by
    rw [Nat.add_comm, List.drop_succ_cons]
    have : ln.length + nm.length = (ln ++ nm).length := by simp
    rw [this, List.append_assoc (ln ++ nm), List.drop_left]
  have hlit : decodeLiteralW ({ s with buf := 0 :: (ln ++ nm ++ lv ++ part), dst := [] }, 0) =
      (.err .IntegerUnderflow, { s with buf := 0 :: (ln ++ nm ++ lv ++ part), dst := [] }, (Huffman.decodeC nm [] s.speed).2.2.lookups) := by
    unfold decodeLiteralW
    rw [M.bind_apply]
    simp only [M.get_apply]
    rw [M.bind_apply]
    have h4 : (if (0 : UInt8) &&& 64 = 64 then 6 else 4) = 4 := rfl
    simp only [M.lift_apply, h4, hint]
    rw [M.bind_apply]
    simp only [liftW, hnm]
    rw [M.bind_apply]
    simp only [hvl, liftW, hval, Nat.zero_add, Nat.add_zero]
  have hone : decodeOneW ({ s with buf := 0 :: (ln ++ nm ++ lv ++ part), dst := [] }, 0) =
      decodeLiteralW ({ s with buf := 0 :: (ln ++ nm ++ lv ++ part), dst := [] }, 0) := rfl
  unfold decodeW decodeLoopW
  simp only [List.isEmpty_cons, Bool.false_eq_true, if_false, List.length_cons, decodeExactW, decodeExactLoopW]
  rw [M.bind_apply]
  simp only [M.get_apply, M.ite_apply, List.isEmpty_cons, Bool.false_eq_true, if_false]
  rw [M.bind_apply, hone, hlit]

/-- C111. So a value of `m` octets that arrives octet by octet makes `decode` decode the name `m` times: the work of
re-trying on a stream is not linear. -/
theorem C111_retries (s : DecoderState) (nm name ln lv value : Bytes) (hi : Nat) (hh : hi = 0 ∨ hi = 128)
    (hn : IntWireLim 5 7 128 nm.length ln) (hv : IntWireLim 5 7 hi value.length lv)
    (hd : Huffman.decode nm [] s.speed = (.ok (), name)) :
    ((List.range value.length).map fun k => (decodeW { s with buf := 0 :: (ln ++ nm ++ lv ++ value.take k) }).2.2).sum =
      value.length * (Huffman.decodeC nm [] s.speed).2.2.lookups := by
  have h : ∀ k ∈ List.range value.length, (decodeW { s with buf := 0 :: (ln ++ nm ++ lv ++ value.take k) }).2.2 =
      (Huffman.decodeC nm [] s.speed).2.2.lookups := by
    intro k hk
    rw [List.mem_range] at hk
    rw [C111_incomplete_value s nm name ln lv (value.take k) hi value.length hh hn hv (by rw [List.length_take]; omega) hd]
  rw [List.map_congr_left h, List.map_const', List.sum_replicate_nat, List.length_range]

-- "custom-key" of RFC 7541 C.4.3, Huffman-coded in eight octets, with a plain value of three octets.
example : IntWireLim 5 7 128 [0x25, 0xa8, 0x49, 0xe9, 0x5b, 0xa9, 0x7d, 0x7f].length [0x88] ∧ IntWireLim 5 7 0 3 [3] ∧
    Huffman.decode [0x25, 0xa8, 0x49, 0xe9, 0x5b, 0xa9, 0x7d, 0x7f] [] .FiveBits = (.ok (), [99, 117, 115, 116, 111, 109, 45, 107, 101, 121]) ∧
    (Huffman.decodeC [0x25, 0xa8, 0x49, 0xe9, 0x5b, 0xa9, 0x7d, 0x7f] [] .FiveBits).2.2.lookups = 17 :=
  ⟨⟨Or.inl ⟨by decide, by decide⟩, by decide⟩, ⟨Or.inl ⟨by decide, by decide⟩, by decide⟩, by decide +kernel, by decide +kernel⟩

-- The same name and a plain value, complete: the hypotheses of `C111_literal`.
example : IntWireLim 5 7 128 [0x25, 0xa8, 0x49, 0xe9, 0x5b, 0xa9, 0x7d, 0x7f].length [0x88] ∧ IntWireLim 5 7 0 [1, 2, 3].length [3] ∧
    decodeString ([0x88] ++ [0x25, 0xa8, 0x49, 0xe9, 0x5b, 0xa9, 0x7d, 0x7f]) .FiveBits =
      .ok ([99, 117, 115, 116, 111, 109, 45, 107, 101, 121], 9) ∧
    decodeString ([3] ++ [1, 2, 3]) .FiveBits = .ok ([1, 2, 3], 4) :=
  ⟨⟨Or.inl ⟨by decide, by decide⟩, by decide⟩, ⟨Or.inl ⟨by decide, by decide⟩, by decide⟩, by decide +kernel, by decide +kernel⟩

end Verif.Props
