import Verif.Props.HpackVerdict
import Verif.Props.HpackSession
/-! Property theorem C125: several table size updates in a row. -/
namespace Verif.Props
open Verif Verif.Spec Verif.Hpack

theorem keepFitting_twice : ∀ (l : List (Octets × Octets)) (a b : Nat), keepFitting a (keepFitting b l) = keepFitting (min b a) l := by
  intro l
  induction l with
  | nil => intro a b; rfl
  | cons e l ih =>
    intro a b
    simp only [keepFitting]
    by_cases hb : entrySize e ≤ b
    · rw [if_pos hb]
      simp only [keepFitting]
      by_cases ha : entrySize e ≤ a
      · rw [if_pos ha, if_pos (by omega), ih, show min (b - entrySize e) (a - entrySize e) = min b a - entrySize e by omega]
      · rw [if_neg ha, if_neg (by omega)]
    · rw [if_neg hb, if_neg (by omega)]
      rfl

/-- The smallest of the sizes. -/
def leastSize (ns : List UInt32) (n : UInt32) : Nat := ns.foldr (fun x m => min x.toNat m) n.toNat

theorem le_leastSize (k : Nat) (ns : List UInt32) (n : UInt32) : k ≤ leastSize ns n ↔ ∀ x ∈ ns ++ [n], k ≤ x.toNat := by
  induction ns with
  | nil => simp [leastSize]
  | cons y ns ih =>
    have : leastSize (y :: ns) n = min y.toNat (leastSize ns n) := rfl
    rw [this, List.cons_append, List.forall_mem_cons, ← ih]
    omega

theorem updates_run (ns : List UInt32) (n : UInt32) : ∀ s : EncoderState, s.table.WF →
    ∃ s', encSession ((ns ++ [n]).map .resize) s = (.ok (), s') ∧ s'.table.WF ∧
      s'.table.spec = ⟨keepFitting (leastSize ns n) s.table.spec.entries, n.toNat⟩ := by
  induction ns with
  | nil =>
    intro s hwf
    obtain ⟨bs, t', w1, w2, h, _⟩ := encUpdate_spec s hwf n
    refine ⟨{ s with dst := s.dst ++ bs, table := t' }, ?_, w1, w2⟩
    exact M.bind_of_ok h
  | cons x ns ih =>
    intro s hwf
    obtain ⟨bs, t', w1, w2, h, _⟩ := encUpdate_spec s hwf x
    obtain ⟨s', g1, g2, g3⟩ := ih { s with dst := s.dst ++ bs, table := t' } w1
    refine ⟨s', (M.bind_of_ok h).trans g1, g2, ?_⟩
    rw [g3]
    show SpecTable.mk (keepFitting (leastSize ns n) t'.spec.entries) n.toNat = _
    rw [w2]
    show SpecTable.mk (keepFitting (leastSize ns n) (keepFitting x.toNat s.table.spec.entries)) n.toNat = _
    rw [keepFitting_twice]
    rfl

/-- C125. Any number of size updates in a row succeed; the reported maximum is the last size, and the entries left are the longest run
of the newest ones that fits into every one of the sizes. -/
theorem C125_updates_in_a_row (s : EncoderState) (hwf : s.table.WF) (ns : List UInt32) (n : UInt32) :
    ∃ s' evicted, encSession ((ns ++ [n]).map .resize) s = (.ok (), s') ∧ s'.getMaxDynamicSize = n ∧
      s.table.spec.entries = s'.table.spec.entries ++ evicted ∧ (∀ x ∈ ns ++ [n], tableSize s'.table.spec.entries ≤ x.toNat) ∧
      ∀ a b, s.table.spec.entries = a ++ b → (∀ x ∈ ns ++ [n], tableSize a ≤ x.toNat) → a.length ≤ s'.table.spec.entries.length := by
  obtain ⟨s', h1, h2, h3⟩ := updates_run ns n s hwf
  have he : s'.table.spec.entries = keepFitting (leastSize ns n) s.table.spec.entries := by rw [h3]
  obtain ⟨r, hr⟩ := keepFitting_prefix (leastSize ns n) s.table.spec.entries
  refine ⟨s', r, h1, ?_, by rw [he]; exact hr, ?_, ?_⟩
  · have : s'.table.spec.max = n.toNat := by rw [h3]
    exact UInt32.toNat_inj.mp this
  · rw [← le_leastSize, he]; exact keepFitting_size _ _
  · intro a b hab hx
    rw [he]
    exact keepFitting_maximal _ _ a b hab ((le_leastSize _ _ _).mpr hx)

example : ∃ s' evicted, encSession ((([0, 50] : List UInt32) ++ [100]).map .resize) EncoderState.default = (.ok (), s') ∧ s'.getMaxDynamicSize = 100 ∧
    EncoderState.default.table.spec.entries = s'.table.spec.entries ++ evicted := by
  obtain ⟨s', ev, h1, h2, h3, _⟩ := C125_updates_in_a_row EncoderState.default (Table.withDynamicSize_WF 4096) [0, 50] 100
  exact ⟨s', ev, h1, h2, h3⟩

/-- C125. So only the smallest and the last size matter (RFC 7541 4.2 asks for these two): sequences with the same last size and the same
smallest one leave the same table. -/
theorem C125_smallest_and_last (s s1 s2 : EncoderState) (hwf : s.table.WF) (ns ms : List UInt32) (n : UInt32)
    (h1 : encSession ((ns ++ [n]).map .resize) s = (.ok (), s1)) (h2 : encSession ((ms ++ [n]).map .resize) s = (.ok (), s2))
    (hx : ∀ x ∈ ns ++ [n], ∃ y ∈ ms ++ [n], y ≤ x) (hy : ∀ y ∈ ms ++ [n], ∃ x ∈ ns ++ [n], x ≤ y) : s1.table = s2.table := by
  obtain ⟨s1', a1, a2, a3⟩ := updates_run ns n s hwf
  obtain ⟨s2', b1, b2, b3⟩ := updates_run ms n s hwf
  rw [h1] at a1
  rw [h2] at b1
  simp only [Prod.mk.injEq, true_and] at a1 b1
  subst a1 b1
  refine Table.WF.ext a2 b2 ?_
  rw [a3, b3]
  have : leastSize ns n = leastSize ms n := by
    apply Nat.le_antisymm
    · rw [le_leastSize]
      intro y hm
      obtain ⟨x, hx1, hx2⟩ := hy y hm
      exact Nat.le_trans ((le_leastSize _ ns n).mp (Nat.le_refl _) x hx1) (UInt32.le_iff_toNat_le.mp hx2)
    · rw [le_leastSize]
      intro x hm
      obtain ⟨y, hy1, hy2⟩ := hx x hm
      exact Nat.le_trans ((le_leastSize _ ms n).mp (Nat.le_refl _) y hy1) (UInt32.le_iff_toNat_le.mp hy2)
  rw [this]

/-- 200, 50, 70, 100 does what 50, 100 does. -/
example : (encSession ([200, 50, 70, 100].map .resize) EncoderState.default).2.table = (encSession ([50, 100].map .resize) EncoderState.default).2.table :=
  C125_smallest_and_last EncoderState.default _ _ (Table.withDynamicSize_WF 4096) [200, 50, 70] [50] 100 rfl rfl (by decide) (by decide)

/-- C125. Leaving out an update that is followed by another is harmless exactly if the later size is not larger, or what the table holds
after the later one alone fits the earlier one as well. -/
theorem C125_leaving_out (s s1 s2 s3 : EncoderState) (hwf : s.table.WF) (a b : UInt32)
    (h1 : encUpdateMaxDynamicSize a s = (.ok (), s1)) (h2 : encUpdateMaxDynamicSize b s1 = (.ok (), s2))
    (h3 : encUpdateMaxDynamicSize b s = (.ok (), s3)) :
    s2.table = s3.table ↔ b ≤ a ∨ s3.table.dynamicSize ≤ a := by
  obtain ⟨_, t1, w1, w2, e1, _⟩ := encUpdate_spec s hwf a
  rw [h1] at e1
  simp only [Prod.mk.injEq, true_and] at e1
  subst e1
  obtain ⟨_, t2, x1, x2, e2, _⟩ := encUpdate_spec _ (show (EncoderState.table { s with dst := s.dst ++ _, table := t1 }).WF from w1) b
  rw [h2] at e2
  simp only [Prod.mk.injEq, true_and] at e2
  subst e2
  obtain ⟨_, t3, y1, y2, e3, _⟩ := encUpdate_spec s hwf b
  rw [h3] at e3
  simp only [Prod.mk.injEq, true_and] at e3
  subst e3
  show t2 = t3 ↔ b ≤ a ∨ t3.dynamicSize ≤ a
  have z2 : t2.spec = ⟨keepFitting (min a.toNat b.toNat) s.table.spec.entries, b.toNat⟩ := by
    rw [x2]
    show SpecTable.mk (keepFitting b.toNat t1.spec.entries) b.toNat = _
    rw [w2]
    show SpecTable.mk (keepFitting b.toNat (keepFitting a.toNat s.table.spec.entries)) b.toNat = _
    rw [keepFitting_twice]
  have z3 : t3.spec = ⟨keepFitting b.toNat s.table.spec.entries, b.toNat⟩ := y2
  have hsz : t3.dynamicSize.toNat = tableSize (keepFitting b.toNat s.table.spec.entries) := by
    have h0 : t3.dynamicSize.toNat = tableSize t3.spec.entries := by
      have hw := y1.1
      have hm := y1.2
      have hl := t3.dynamic.maxSize.toNat_lt
      show (UInt32.ofNat t3.dynamic.size).toNat = _
      rw [hw, UInt32.toNat_ofNat_of_lt' (by simp only [UInt32.size]; omega)]
      rfl
    rw [h0, z3]
  rw [UInt32.le_iff_toNat_le, UInt32.le_iff_toNat_le, hsz]
  constructor
  · rintro rfl
    by_cases hba : b.toNat ≤ a.toNat
    · exact .inl hba
    · right
      have := z2.symm.trans z3
      simp only [SpecTable.mk.injEq, and_true] at this
      rw [← this]
      have := keepFitting_size (min a.toNat b.toNat) s.table.spec.entries
      omega
  · intro h
    refine Table.WF.ext x1 y1 ?_
    rw [z2, z3]
    rcases h with h | h
    · rw [show min a.toNat b.toNat = b.toNat by omega]
    · rw [Nat.min_comm, ← keepFitting_twice, keepFitting_of_le h]

theorem applyAll_updates (limit : Nat) (n : Nat) : ∀ (us : List Nat) (t : SpecTable), (∀ x ∈ us ++ [n], x ≤ limit) →
    applyAll limit t ((us ++ [n]).map .sizeUpdate) = some ([], ⟨keepFitting (us.foldr min n) t.entries, n⟩) := by
  intro us
  induction us with
  | nil =>
    intro t h
    simp only [List.nil_append, List.map_cons, List.map_nil, applyAll, Rep.apply, if_pos (h n (by simp))]
    rfl
  | cons x us ih =>
    intro t h
    simp only [List.cons_append, List.map_cons, applyAll, Rep.apply, if_pos (h x (by simp))]
    rw [ih (t.resize x) (fun y hy => h y (by simp only [List.cons_append, List.mem_cons]; exact .inr hy))]
    simp only [Option.toList, List.append_nil, SpecTable.resize, keepFitting_twice]
    rfl

theorem le_foldr_min (k n : Nat) (us : List Nat) : k ≤ us.foldr min n ↔ ∀ x ∈ us ++ [n], k ≤ x := by
  induction us with
  | nil => simp
  | cons y us ih =>
    rw [List.cons_append, List.forall_mem_cons, ← ih, List.foldr_cons]
    omega

/-- C125. The same on the other side: a decoder that reads size updates in a row, in any of their forms and within its limit, delivers no header,
reports the last size and keeps the longest run of the newest entries that fits into every one of the sizes. -/
theorem C125_decoder (s : DecoderState) (hwf : s.table.WF) (us : List (Nat × Bytes)) (n : Nat) (u : Bytes)
    (hw : ∀ p ∈ us ++ [(n, u)], RepWire lenientPads 5 (.sizeUpdate p.1) p.2 ∧ p.1 ≤ s.maxDynamicSize.toNat)
    (hb : s.buf = (us ++ [(n, u)]).flatMap (·.2)) :
    ∃ s' evicted, decode s = (.ok 0, s') ∧ s'.dst = s.dst ∧ s'.buf = [] ∧ s'.getMaxDynamicSize.toNat = n ∧
      s.table.spec.entries = s'.table.spec.entries ++ evicted ∧ (∀ p ∈ us ++ [(n, u)], tableSize s'.table.spec.entries ≤ p.1) ∧
      ∀ a b, s.table.spec.entries = a ++ b → (∀ p ∈ us ++ [(n, u)], tableSize a ≤ p.1) → a.length ≤ s'.table.spec.entries.length := by
  let ws : List (Rep × Octets) := (us ++ [(n, u)]).map fun p => (.sizeUpdate p.1, p.2)
  have hblk : Block lenientPads s.maxDynamicSize.toNat s.table.spec s.buf ws []
      ⟨keepFitting ((us.map (·.1)).foldr min n) s.table.spec.entries, n⟩ := by
    refine ⟨?_, ?_, ?_⟩
    · intro w hm
      obtain ⟨p, hp, rfl⟩ := List.mem_map.mp hm
      exact (hw p hp).1
    · rw [hb]; simp only [ws, wireOf, List.flatMap_map]
    · have := applyAll_updates s.maxDynamicSize.toNat n (us.map (·.1)) s.table.spec (by
        intro x hx
        rcases List.mem_append.mp hx with hx | hx
        · obtain ⟨p, hp, rfl⟩ := List.mem_map.mp hx
          exact (hw p (List.mem_append_left _ hp)).2
        · obtain rfl : x = n := by simpa using hx
          exact (hw (x, u) (by simp)).2)
      have e : ws.map (·.1) = (us.map (·.1) ++ [n]).map Rep.sizeUpdate := by simp [ws, Function.comp_def]
      rw [e]; exact this
  have hk : (headerOctets ws).length = 0 := by
    have : ws.filter (·.1.isHeader) = [] := by
      rw [List.filter_eq_nil_iff]
      intro w hm
      obtain ⟨p, hp, rfl⟩ := List.mem_map.mp hm
      simp [Rep.isHeader]
    rw [headerOctets, this]; rfl
  obtain ⟨T, w1, w2, _⟩ := block_steps hblk s s.buf.length 0 [] hwf rfl rfl (by simp) (Nat.le_refl _)
  have hdec : decode s = (.ok 0, { s with buf := [], dst := s.dst ++ [], table := T }) :=
    (C120_verdict s _ hwf _).mpr ⟨s.buf, ws, [], by simp, by rw [w2]; exact hblk, rfl, w1, rfl, rfl, by rw [hk]; exact .complete⟩
  have he : T.spec.entries = keepFitting ((us.map (·.1)).foldr min n) s.table.spec.entries := by rw [w2]
  obtain ⟨r, hr⟩ := keepFitting_prefix ((us.map (·.1)).foldr min n) s.table.spec.entries
  have hall : ∀ k : Nat, k ≤ (us.map (·.1)).foldr min n ↔ ∀ p ∈ us ++ [(n, u)], k ≤ p.1 := by
    intro k
    rw [le_foldr_min]
    constructor
    · intro h p hp
      rcases List.mem_append.mp hp with hp | hp
      · exact h p.1 (List.mem_append_left _ (List.mem_map.mpr ⟨p, hp, rfl⟩))
      · obtain rfl : p = (n, u) := by simpa using hp
        exact h n (by simp)
    · intro h x hx
      rcases List.mem_append.mp hx with hx | hx
      · obtain ⟨p, hp, rfl⟩ := List.mem_map.mp hx
        exact h p (List.mem_append_left _ hp)
      · obtain rfl : x = n := by simpa using hx
        exact h (x, u) (by simp)
  refine ⟨{ s with buf := [], dst := s.dst ++ [], table := T }, r, hdec, by simp, rfl, ?_, ?_, ?_, ?_⟩
  · show T.spec.max = n
    rw [w2]
  · show _ = T.spec.entries ++ r
    rw [he]; exact hr
  · show ∀ p ∈ us ++ [(n, u)], tableSize T.spec.entries ≤ p.1
    rw [← hall, he]; exact keepFitting_size _ _
  · intro a b hab hx
    show a.length ≤ T.spec.entries.length
    rw [he]
    exact keepFitting_maximal _ _ a b hab ((hall _).mpr hx)

/-! An encoder with two entries of 34 octets each; sizes 40 and then 4096 leave one entry, 4096 alone leaves both. -/
example : (encSession [.header (.Literal [97] [49] 4), .header (.Literal [98] [50] 4)] EncoderState.default).1 = .ok () ∧
    (encSession [.header (.Literal [97] [49] 4), .header (.Literal [98] [50] 4), .resize 40, .resize 4096] EncoderState.default).2.table.dynamicLen = 1 ∧
    (encSession [.header (.Literal [97] [49] 4), .header (.Literal [98] [50] 4), .resize 4096] EncoderState.default).2.table.dynamicSize = 68 ∧
    (encSession [.header (.Literal [97] [49] 4), .header (.Literal [98] [50] 4), .resize 70, .resize 40, .resize 50, .resize 4096]
      EncoderState.default).2.table.dynamicLen = 1 := by decide +kernel
example : (decode { DecoderState.default with buf := [0x40, 1, 97, 1, 49, 0x40, 1, 98, 1, 50, 0x3F, 9, 0x3F, 0xE1, 31] }).1 = .ok 10 ∧
    (decode { DecoderState.default with buf := [0x40, 1, 97, 1, 49, 0x40, 1, 98, 1, 50, 0x3F, 9, 0x3F, 0xE1, 31] }).2.table.dynamicLen = 1 := by decide +kernel

end Verif.Props
