import Verif.Props.HpackLoss
import Verif.Props.HpackLifetime
import Verif.Props.HpackRoom
/-! Property theorem C118: if the headers in use fit the dynamic table, each is sent as a literal at most once. -/
namespace Verif.Props
open Verif Verif.Spec Verif.Hpack

/-- A call that stores the header if it is not in the table yet: BEST_FORMAT (0x10) and WITH_INDEXING (0x4), with any other flags. -/
inductive Caches : SessionOp → Bytes × Bytes → Prop where
  | mk (n v : Bytes) (f : UInt8) (h2 : f.toNat.testBit 2 = true) (h4 : f.toNat.testBit 4 = true) :
      Caches (.header (.Literal n v f)) (n, v)

/-- RFC 7541 6.1: the call has succeeded, and its output is an indexed field (the first octet has the top bit set). -/
def SentAsIndex (r : Res EncoderError Unit × Bytes) : Prop := r.1 = .ok () ∧ ∃ b bs, r.2 = b :: bs ∧ 128 ≤ b.toNat

instance (r : Res EncoderError Unit × Bytes) : Decidable (SentAsIndex r) :=
  match r with
  | (.ok (), b :: bs) =>
    if h : 128 ≤ b.toNat then .isTrue ⟨rfl, b, bs, rfl, h⟩
    else .isFalse fun ⟨_, b', bs', h1, h2⟩ => by cases h1; exact h h2
  | (.ok (), []) => .isFalse fun ⟨_, _, _, h, _⟩ => by cases h
  | (.err _, _) => .isFalse fun ⟨h, _⟩ => by cases h
  | (.panic, _) => .isFalse fun ⟨h, _⟩ => by cases h
  | (.hang, _) => .isFalse fun ⟨h, _⟩ => by cases h

/-- How many of the caching calls were not sent as an index. -/
def literalsSent : List SessionOp → List (Res EncoderError Unit × Bytes) → Nat
  | op :: ops, r :: rs => (if isUnstored op = false ∧ ¬ SentAsIndex r then 1 else 0) + literalsSent ops rs
  | _, _ => 0

theorem sublist_size {I S : List (Bytes × Bytes)} (hn : I.Nodup) (hs : ∀ e ∈ I, e ∈ S) : tableSize I ≤ tableSize S ∧ I.length ≤ S.length := by
  induction I generalizing S with
  | nil => exact ⟨Nat.zero_le _, Nat.zero_le _⟩
  | cons x I ih =>
    have hx : x ∈ S := hs x (by simp)
    obtain ⟨a, b, rfl⟩ := List.append_of_mem hx
    have hn' := List.nodup_cons.mp hn
    obtain ⟨h1, h2⟩ := ih (S := a ++ b) hn'.2 (fun e he => by
      have h := hs e (by simp [he])
      simp only [List.mem_append, List.mem_cons] at h ⊢
      rcases h with h | rfl | h
      · exact .inl h
      · exact absurd he hn'.1
      · exact .inr h)
    simp only [tableSize, List.map_append, List.map_cons, List.sum_append, List.sum_cons, List.length_append, List.length_cons] at h1 h2 ⊢
    omega

/-- The table holds the headers `I` that were stored since the beginning, newest first, and then older ones. -/
structure Held (S : List (Bytes × Bytes)) (m : Nat) (t : Table) (I : List (Bytes × Bytes)) : Prop where
  wf : t.WF
  max : t.spec.max = m
  nodup : I.Nodup
  sub : ∀ e ∈ I, e ∈ S
  held : ∃ old, t.spec.entries = I ++ old

theorem held_addr {S : List (Bytes × Bytes)} {m : Nat} {t : Table} {I : List (Bytes × Bytes)} (h : Held S m t I) {e : Bytes × Bytes} (he : e ∈ I) :
    ∃ i, t.spec.addr i = some e := by
  obtain ⟨old, ho⟩ := h.held
  obtain ⟨k, hk, rfl⟩ := List.mem_iff_getElem.mp he
  refine ⟨62 + k, ?_⟩
  rw [SpecTable.addr, if_neg (by omega), if_neg (by omega), ho, Nat.add_sub_cancel_left, List.getElem?_append_left hk,
    List.getElem?_eq_getElem hk]

theorem static_addr {t : SpecTable} {e : Bytes × Bytes} (he : e ∈ rfcStatic) : ∃ i, t.addr i = some e := by
  obtain ⟨k, hk, rfl⟩ := List.mem_iff_getElem.mp he
  have hl : rfcStatic.length = 61 := rfl
  refine ⟨k + 1, ?_⟩
  rw [SpecTable.addr, if_neg (by omega), if_pos (by omega), Nat.add_sub_cancel, List.getElem?_eq_getElem hk]

/-- A caching call for a header that is in the table: an index, and the table stays. -/
theorem caches_hit {t : Table} (hwf : t.WF) {op : SessionOp} {e : Bytes × Bytes} (hop : Caches op e) (h : ∃ i, t.spec.addr i = some e) :
    ∃ bs, encOp op { table := t, dst := [] } = (.ok (), { table := t, dst := bs }) ∧ SentAsIndex (.ok (), bs) ∧
      bs.length ≤ intLen 7 (61 + t.spec.entries.length) := by
  obtain ⟨n, v, f, h2, h4⟩ := hop
  obtain ⟨j, hj⟩ := h
  obtain ⟨rep, hc⟩ := Chosen.exists t hwf (.Literal n v f)
  have hc' := hc
  cases hc with
  | literal _ _ _ h => rw [h4] at h; cases h
  | bestName _ _ _ _ hno i h => exact absurd hj (hno j)
  | bestNew _ _ _ _ h => exact absurd rfl (h j _ hj)
  | bestFull _ _ _ _ i h =>
    have hs := encode_spec { table := t, dst := [] } hwf _ _ 0 hc'
    obtain ⟨⟨e, he, _⟩, _⟩ := h
    simp only [Rep.apply, he] at hs
    obtain ⟨bs, t', hwf', hsp, hen, hwire, _⟩ := hs.1 trivial
    have hl := encode_length (s := { table := t, dst := [] }) hwf hc' hen
    simp only [List.nil_append, repOctets, List.length_nil, Nat.zero_add] at hl
    refine ⟨bs, ?_, ?_, ?_⟩
    · rw [Table.WF.ext hwf' hwf hsp] at hen
      exact hen
    · refine ⟨rfl, ?_⟩
      have hw : IntWire 7 128 i bs := hwire.1
      rcases hw with ⟨hi, rfl⟩ | ⟨cs, _, _, rfl⟩
      · refine ⟨_, _, rfl, ?_⟩
        rw [UInt8.toNat_ofNat']
        omega
      · exact ⟨_, _, rfl, by decide⟩
    · rw [hl]
      exact intLen_mono (addr_le he)

/-- A caching call for a header that is not in the table stores it, also if the call fails. -/
theorem caches_miss {t : Table} (hwf : t.WF) {op : SessionOp} {e : Bytes × Bytes} (hop : Caches op e) (h : ∀ i, t.spec.addr i ≠ some e) :
    (encOp op { table := t, dst := [] }).2.table.WF ∧ (encOp op { table := t, dst := [] }).2.table.spec = t.spec.insert e := by
  obtain ⟨n, v, f, h2, h4⟩ := hop
  obtain ⟨rep, hc⟩ := Chosen.exists t hwf (.Literal n v f)
  have hm : flagMode f = .incremental := by rw [flagMode, if_pos h2]
  have hap : ∃ x, rep.apply 0 t.spec = some (x, t.spec.insert (n, v)) := by
    cases hc with
    | literal _ _ _ h => rw [h4] at h; cases h
    | bestFull _ _ _ _ i h' =>
      obtain ⟨⟨e, he, rfl⟩, _⟩ := h'
      exact absurd he (h i)
    | bestName _ _ _ _ hno i h' =>
      obtain ⟨⟨e, he, he1⟩, _⟩ := h'
      refine ⟨some (n, v, 4), ?_⟩
      simp only [Rep.apply, NameRef.resolve, he, Option.map_some, hm, if_true, he1]
      rfl
    | bestNew _ _ _ _ h' =>
      refine ⟨some (n, v, 4), ?_⟩
      simp only [Rep.apply, NameRef.resolve, hm, if_true]
      rfl
  obtain ⟨x, hx⟩ := hap
  have hs := encode_spec { table := t, dst := [] } hwf _ _ 0 hc
  simp only [hx] at hs
  by_cases hf : RepFits (2 ^ 32) (huffName (.Literal n v f)) (huffValue (.Literal n v f)) rep
  · obtain ⟨bs, t', hwf', hsp, hen, _⟩ := hs.1 hf
    show (encode (.Literal n v f) { table := t, dst := [] }).2.table.WF ∧ (encode (.Literal n v f) { table := t, dst := [] }).2.table.spec = _
    rw [hen]
    exact ⟨hwf', hsp⟩
  · obtain ⟨bs, t', hwf', hsp, hen, _⟩ := hs.2 hf
    show (encode (.Literal n v f) { table := t, dst := [] }).2.table.WF ∧ (encode (.Literal n v f) { table := t, dst := [] }).2.table.spec = _
    rw [hen]
    exact ⟨hwf', hsp⟩

theorem held_insert {S : List (Bytes × Bytes)} {m : Nat} {t t' : Table} {I : List (Bytes × Bytes)} (hS : tableSize S ≤ m) (h : Held S m t I)
    {e : Bytes × Bytes} (he : e ∈ S) (hn : e ∉ I) (hwf : t'.WF) (ht : t'.spec = t.spec.insert e) : Held S m t' (e :: I) := by
  have hnd : (e :: I).Nodup := List.nodup_cons.mpr ⟨hn, h.nodup⟩
  have hsub : ∀ x ∈ e :: I, x ∈ S := by
    intro x hx
    rcases List.mem_cons.mp hx with rfl | hx
    · exact he
    · exact h.sub x hx
  have hsz := (sublist_size hnd hsub).1
  obtain ⟨old, ho⟩ := h.held
  obtain ⟨k1, k2⟩ := insert_keep t.spec e
  refine ⟨hwf, by rw [ht, k2, h.max], hnd, hsub, ?_⟩
  rw [ht, k1, h.max, ho]
  obtain ⟨r, hr⟩ := keepFitting_prefix m (e :: (I ++ old))
  have hle := keepFitting_maximal m (e :: (I ++ old)) (e :: I) old rfl (by omega)
  obtain ⟨r', hr'⟩ := List.prefix_of_prefix_length_le (l₁ := e :: I) (l₂ := keepFitting m (e :: (I ++ old))) (l₃ := e :: (I ++ old))
    ⟨old, rfl⟩ ⟨r, hr.symm⟩ hle
  exact ⟨r', hr'.symm⟩

/-- The calls of a connection with the working set `S`: headers that are not to be stored, and caching calls for headers of `S` or of
the static table. -/
def Within (S : List (Bytes × Bytes)) (op : SessionOp) : Prop := isUnstored op = true ∨ ∃ e, Caches op e ∧ (e ∈ S ∨ e ∈ rfcStatic)

theorem caches_stored {op : SessionOp} {e : Bytes × Bytes} (h : Caches op e) : isUnstored op = false := by
  cases h with
  | mk n v f h2 h4 => simp [isUnstored, flagsOf, h2]

theorem caches_unique {op : SessionOp} {e e' : Bytes × Bytes} (h : Caches op e) (h' : Caches op e') : e = e' := by
  cases h with
  | mk n v f h2 h4 => cases h' with | mk _ _ _ _ _ => rfl

/-- One call. -/
theorem held_step {S : List (Bytes × Bytes)} {m : Nat} {t : Table} {I : List (Bytes × Bytes)} (hS : tableSize S ≤ m) (h : Held S m t I)
    {op : SessionOp} (hop : Within S op) :
    (Held S m (encOp op { table := t, dst := [] }).2.table I ∧
      (isUnstored op = true ∨ SentAsIndex ((encOp op { table := t, dst := [] }).1, (encOp op { table := t, dst := [] }).2.dst))) ∨
    ∃ e, Caches op e ∧ e ∉ I ∧ Held S m (encOp op { table := t, dst := [] }).2.table (e :: I) := by
  rcases hop with hu | ⟨e, hc, he⟩
  · refine .inl ⟨?_, .inl hu⟩
    rw [keeps_unstored op hu]
    exact h
  · by_cases hx : ∃ i, t.spec.addr i = some e
    · obtain ⟨bs, h1, h2, _⟩ := caches_hit h.wf hc hx
      refine .inl ⟨?_, .inr ?_⟩
      · rw [h1]; exact h
      · rw [h1]; exact h2
    · have hm := caches_miss h.wf hc (fun i hi => hx ⟨i, hi⟩)
      have hes : e ∈ S := by
        rcases he with he | he
        · exact he
        · exact absurd (static_addr he) hx
      have heI : e ∉ I := fun hi => hx (held_addr h hi)
      exact .inr ⟨e, hc, heI, held_insert hS h hes heI hm.1 hm.2⟩

/-- A header that was stored is found from then on. -/
theorem held_stays {S : List (Bytes × Bytes)} {m : Nat} (hS : tableSize S ≤ m) (ops : List SessionOp) : ∀ {t : Table} {I : List (Bytes × Bytes)},
    Held S m t I → (∀ op ∈ ops, Within S op) → ∀ {e : Bytes × Bytes}, e ∈ I → ∀ (k : Nat) (op : SessionOp), ops[k]? = some op → Caches op e →
    ∃ bs, (encEach ops t).1[k]? = some (.ok (), bs) ∧ SentAsIndex (.ok (), bs) ∧ bs.length ≤ intLen 7 (61 + m / 32) := by
  induction ops with
  | nil => intro t I _ _ e _ k op hk; cases hk
  | cons o ops ih =>
    intro t I h hw e he k op hk hc
    cases k with
    | zero =>
      simp only [List.getElem?_cons_zero, Option.some.injEq] at hk
      subst hk
      obtain ⟨bs, h1, h2, h3⟩ := caches_hit h.wf hc (held_addr h he)
      refine ⟨bs, ?_, h2, Nat.le_trans h3 (intLen_mono ?_)⟩
      · simp only [encEach, h1, List.getElem?_cons_zero]
      · have hsz : 32 * t.spec.entries.length ≤ tableSize t.spec.entries := by
          generalize t.spec.entries = l
          induction l with
          | nil => exact Nat.zero_le _
          | cons x l ih => rw [tableSize_cons, entrySize, List.length_cons]; omega
        have hle : tableSize t.spec.entries ≤ m := by rw [← h.max]; exact h.wf.2
        omega
    | succ k =>
      simp only [List.getElem?_cons_succ] at hk
      simp only [encEach, List.getElem?_cons_succ]
      rcases held_step hS h (hw o (by simp)) with ⟨h', _⟩ | ⟨e', _, _, h'⟩
      · exact ih h' (fun x hx => hw x (by simp [hx])) he k op hk hc
      · exact ih h' (fun x hx => hw x (by simp [hx])) (by simp [he]) k op hk hc

/-- C118. The working set fits the table: the sizes of the headers `S` (at least those that are not in the static table) sum up to at most
the maximal size. Then, from any table and in whatever order and however often the headers are sent, once a header was sent
as a literal every later call for it appends an index, of one or two octets with a table of up to 6176 octets. -/
theorem C118_literal_once (S : List (Bytes × Bytes)) (t : Table) (hwf : t.WF) (hS : tableSize S ≤ t.maxDynamicSize.toNat)
    (ops : List SessionOp) (hw : ∀ op ∈ ops, Within S op) (j k : Nat) (hjk : j < k) (oj ok : SessionOp) (e : Bytes × Bytes)
    (hj : ops[j]? = some oj) (hk : ops[k]? = some ok) (cj : Caches oj e) (ck : Caches ok e) (r : Res EncoderError Unit × Bytes)
    (hr : (encEach ops t).1[j]? = some r) (hlit : ¬ SentAsIndex r) :
    ∃ bs, (encEach ops t).1[k]? = some (.ok (), bs) ∧ SentAsIndex (.ok (), bs) ∧
      bs.length ≤ intLen 7 (61 + t.maxDynamicSize.toNat / 32) ∧ (t.maxDynamicSize.toNat ≤ 6176 → bs.length ≤ 2) := by
  suffices h : ∃ bs, (encEach ops t).1[k]? = some (.ok (), bs) ∧ SentAsIndex (.ok (), bs) ∧
      bs.length ≤ intLen 7 (61 + t.maxDynamicSize.toNat / 32) by
    obtain ⟨bs, h1, h2, h3⟩ := h
    refine ⟨bs, h1, h2, h3, fun hm => Nat.le_trans h3 ?_⟩
    have : intLen 7 254 ≤ 2 := by decide +kernel
    exact Nat.le_trans (intLen_mono (by omega)) this
  have gen : ∀ (ops : List SessionOp) (j k : Nat), j < k → (∀ op ∈ ops, Within S op) → ops[j]? = some oj → ops[k]? = some ok →
      ∀ {t' : Table} {I : List (Bytes × Bytes)}, Held S t.maxDynamicSize.toNat t' I → (encEach ops t').1[j]? = some r →
      ∃ bs, (encEach ops t').1[k]? = some (.ok (), bs) ∧ SentAsIndex (.ok (), bs) ∧
        bs.length ≤ intLen 7 (61 + t.maxDynamicSize.toNat / 32) := by
    intro ops
    induction ops with
    | nil => intro j k _ _ hj; cases hj
    | cons o ops ih =>
      intro j k hjk hw hj hk t' I h hr
      obtain ⟨k, rfl⟩ : ∃ k', k = k' + 1 := ⟨k - 1, by omega⟩
      simp only [List.getElem?_cons_succ] at hk
      cases j with
      | zero =>
        simp only [List.getElem?_cons_zero, Option.some.injEq] at hj
        subst hj
        simp only [encEach, List.getElem?_cons_zero, Option.some.injEq] at hr
        simp only [encEach, List.getElem?_cons_succ]
        rcases held_step hS h (hw o (by simp)) with ⟨_, hu | hs⟩ | ⟨e', hc', _, h'⟩
        · rw [caches_stored cj] at hu; cases hu
        · rw [hr] at hs; exact absurd hs hlit
        · obtain rfl := caches_unique cj hc'
          exact held_stays hS ops h' (fun x hx => hw x (by simp [hx])) (by simp) k ok hk ck
      | succ j =>
        simp only [List.getElem?_cons_succ] at hj
        simp only [encEach, List.getElem?_cons_succ] at hr ⊢
        rcases held_step hS h (hw o (by simp)) with ⟨h', _⟩ | ⟨_, _, _, h'⟩
        · exact ih j k (by omega) (fun x hx => hw x (by simp [hx])) hj hk h' hr
        · exact ih j k (by omega) (fun x hx => hw x (by simp [hx])) hj hk h' hr
  exact gen ops j k hjk hw hj hk (t' := t) (I := []) ⟨hwf, rfl, List.nodup_nil, by simp, _, rfl⟩ hr

/-- C118. So however long the connection lasts, at most as many literals with these headers are sent as there are headers in `S`. -/
theorem C118_few_literals (S : List (Bytes × Bytes)) (t : Table) (hwf : t.WF) (hS : tableSize S ≤ t.maxDynamicSize.toNat)
    (ops : List SessionOp) (hw : ∀ op ∈ ops, Within S op) : literalsSent ops (encEach ops t).1 ≤ S.length := by
  have gen : ∀ (ops : List SessionOp), (∀ op ∈ ops, Within S op) → ∀ {t' : Table} {I : List (Bytes × Bytes)},
      Held S t.maxDynamicSize.toNat t' I → literalsSent ops (encEach ops t').1 + I.length ≤ S.length := by
    intro ops
    induction ops with
    | nil =>
      intro _ t' I h
      have := (sublist_size h.nodup h.sub).2
      simp only [literalsSent]; omega
    | cons o ops ih =>
      intro hw t' I h
      simp only [encEach, literalsSent]
      rcases held_step hS h (hw o (by simp)) with ⟨h', hu⟩ | ⟨e, _, _, h'⟩
      · have := ih (fun x hx => hw x (by simp [hx])) h'
        rw [if_neg (fun hc => by
          rcases hu with hu | hu
          · rw [hu] at hc; cases hc.1
          · exact hc.2 hu)]
        omega
      · have := ih (fun x hx => hw x (by simp [hx])) h'
        simp only [List.length_cons] at this
        split <;> omega
  exact Nat.le_trans (Nat.le_add_right _ _) (gen ops hw (t' := t) (I := []) ⟨hwf, rfl, List.nodup_nil, by simp, _, rfl⟩)

/-- The call for the header with the name `n` and the value "x". -/
def cached (n : UInt8) : SessionOp := .header (.Literal [n] [0x78] 0x14)

theorem encEach_append (a b : List SessionOp) (t : Table) :
    encEach (a ++ b) t = ((encEach a t).1 ++ (encEach b (encEach a t).2).1, (encEach b (encEach a t).2).2) := by
  induction a generalizing t with
  | nil => rfl
  | cons op a ih => simp only [List.cons_append, encEach, ih]

/-- Three headers in turn. -/
def threeCached : List SessionOp := [cached 0x61, cached 0x62, cached 0x63]

theorem three_pass : ∀ t ∈ [Table.withDynamicSize 68, Table.ofEntries [([0x63], [0x78]), ([0x62], [0x78])] 68],
    (∀ r ∈ (encEach threeCached t).1, r.1 = .ok () ∧ ¬ SentAsIndex r) ∧
      (encEach threeCached t).2 = Table.ofEntries [([0x63], [0x78]), ([0x62], [0x78])] 68 := by
  decide +kernel

/-- C118, the other side: entries are evicted in the order of insertion, not of use. With room for two headers and three in use in turn,
every call sends a literal, for ever. -/
theorem C118_thrashing (passes : Nat) :
    ∀ r ∈ (encEach (List.replicate passes threeCached).flatten (Table.withDynamicSize 68)).1, r.1 = .ok () ∧ ¬ SentAsIndex r := by
  suffices h : ∀ t ∈ [Table.withDynamicSize 68, Table.ofEntries [([0x63], [0x78]), ([0x62], [0x78])] 68],
      ∀ r ∈ (encEach (List.replicate passes threeCached).flatten t).1, r.1 = .ok () ∧ ¬ SentAsIndex r from h _ (by simp)
  induction passes with
  | zero => intro t _ r hr; cases hr
  | succ n ih =>
    intro t ht r hr
    obtain ⟨h1, h2⟩ := three_pass t ht
    rw [List.replicate_succ, List.flatten_cons, encEach_append, h2] at hr
    rcases List.mem_append.mp hr with hr | hr
    · exact h1 r hr
    · exact ih _ (by simp) r hr

/-- ... even a header that is used all the time is evicted: a, b, a, c, a with room for two; the last a is a literal again. -/
example : ((encEach [cached 0x61, cached 0x62, cached 0x61, cached 0x63, cached 0x61] (Table.withDynamicSize 68)).1.map
    fun r => decide (SentAsIndex r)) = [false, false, true, false, false] := by decide +kernel

/-- A working set of three headers in a table with room for three: the literals are sent once, whatever was in the table before. -/
example : let S : List (Bytes × Bytes) := [([0x61], [0x78]), ([0x62], [0x78]), ([0x63], [0x78])]
    let t := Table.ofEntries [([0x7a], [0x78]), ([0x61], [0x78])] 102
    t.WF ∧ tableSize S ≤ t.maxDynamicSize.toNat ∧ (∀ op ∈ threeCached ++ threeCached ++ threeCached, Within S op) ∧
      ((encEach (threeCached ++ threeCached ++ threeCached) t).1.map fun r => decide (SentAsIndex r)) =
        [true, false, false, false, true, true, true, true, true] := by
  refine ⟨⟨by unfold Dynamic.Acc; decide +kernel, by decide +kernel⟩, by decide +kernel, ?_, by decide +kernel⟩
  intro op hop
  simp only [threeCached, List.cons_append, List.nil_append, List.mem_cons, List.not_mem_nil, or_false] at hop
  rcases hop with rfl | rfl | rfl | rfl | rfl | rfl | rfl | rfl | rfl <;>
    exact .inr ⟨_, .mk _ _ _ (by decide) (by decide), .inl (by decide)⟩

end Verif.Props
