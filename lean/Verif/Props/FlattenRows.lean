import Verif.Props.FlattenTotal
/-! C12: the number of rows of the matrix that `flatten` builds, told from the code. -/
namespace Verif.Props
open Verif Verif.Huffman Verif.Spec Verif.Spec.Matrix

/-- A row is needed for the chunks `q`: none, or the chunks that some code has before its last one. -/
def RowNeeded (s : Nat) (codes : List (Nat × Nat)) (q : List Nat) : Prop :=
  q = [] ∨ (∀ k ∈ q, k < 2 ^ s) ∧ ∃ c ∈ codes, ∃ rest, rest ≠ [] ∧ codeBits c = chunkBits s q ++ rest

theorem walkCreate_count {s : Nat} {Good : List Nat → Prop} {keys : List Nat} :
    ∀ {t t' : Mat} {id id' : Nat} {p : List Nat} {P : List (List Nat)}, Shape s t → rowAt t 0 p = some id → (∀ k ∈ keys, k < 2 ^ s) →
    walkCreate s t id keys = .ok (t', id') → t.length ≤ 256 → P.Nodup → P.length = t.length →
    (∀ q ∈ P, (rowAt t 0 q).isSome ∧ Good q) → (∀ a b, keys = a ++ b → Good (p ++ a)) →
    ∃ P' : List (List Nat), P'.Nodup ∧ (∀ q ∈ P', Good q) ∧
      ((t'.length ≤ 256 ∧ P'.length = t'.length ∧ ∀ q ∈ P', (rowAt t' 0 q).isSome) ∨ (256 < t'.length ∧ 256 < P'.length)) := by
  induction keys with
  | nil =>
    intro t t' id id' p P h hp hk hw h256 hn hl hP hG
    simp only [walkCreate, Res.ok.injEq, Prod.mk.injEq] at hw
    obtain ⟨rfl, rfl⟩ := hw
    exact ⟨P, hn, fun q hq => (hP q hq).2, .inl ⟨h256, hl, fun q hq => (hP q hq).1⟩⟩
  | cons key keys ih =>
    intro t t' id id' p P h hp hk hw h256 hn hl hP hG
    have hid := rowAt_lt h hp
    obtain ⟨row, c, e1, e2, e3⟩ := cell_of_lt h hid (hk key (by simp))
    have hk' : ∀ k ∈ keys, k < 2 ^ s := fun k hk0 => hk k (by simp [hk0])
    obtain ⟨nx, asc, left⟩ := c
    unfold walkCreate at hw
    rw [e1] at hw
    simp only [e2] at hw
    have hG' : ∀ a b, keys = a ++ b → Good (p ++ [key] ++ a) := by
      intro a b e
      have := hG (key :: a) b (by rw [e]; rfl)
      simpa using this
    cases nx with
    | some n =>
      have hp' : rowAt t 0 (p ++ [key]) = some n := by
        rw [rowAt_snoc, hp]; show nextOf t id key = _; rw [nextOf, e3]; rfl
      exact ih h hp' hk' hw h256 hn hl hP hG'
    | none =>
      simp only at hw
      obtain ⟨sh1, len1, next1, data1⟩ := create_spec h (n := t.length % 256) e1 e2 (Nat.mod_le _ _)
      generalize ht1 : (t ++ [blankTransition s]).set id (row.set key (some (t.length % 256), asc, left)) = t1 at *
      have hnone : nextOf t id key = none := by rw [nextOf, e3]; rfl
      have hnew : rowAt t 0 (p ++ [key]) = none := by rw [rowAt_snoc, hp]; exact hnone
      have hnP : p ++ [key] ∉ P := by
        intro hh
        have := (hP _ hh).1
        rw [hnew] at this; cases this
      have hn' : ((p ++ [key]) :: P).Nodup := List.nodup_cons.mpr ⟨hnP, hn⟩
      have hgk : Good (p ++ [key]) := by simpa using hG' [] keys rfl
      have hlen := walkCreate_length hw
      by_cases hbig : t1.length ≤ 256
      · have hmod : t.length % 256 = t.length := Nat.mod_eq_of_lt (by omega)
        rw [hmod] at next1 hw
        have mono : ∀ q i j, rowAt t i q = some j → rowAt t1 i q = some j := by
          intro q
          induction q with
          | nil => intro i j hh; exact hh
          | cons x xs ihx =>
            intro i j hh
            rw [rowAt_cons] at hh ⊢
            cases hx : nextOf t i x with
            | none => rw [hx] at hh; cases hh
            | some n =>
              rw [hx] at hh
              have : nextOf t1 i x = some n := by
                rw [next1, if_neg]
                · exact hx
                · rintro ⟨rfl, rfl⟩; rw [hnone] at hx; cases hx
              rw [this]; exact ihx n j hh
        have hp1 : rowAt t1 0 (p ++ [key]) = some t.length := by
          rw [rowAt_snoc, mono p 0 id hp]
          show nextOf t1 id key = _
          rw [next1, if_pos ⟨rfl, rfl⟩]
        refine ih sh1 hp1 hk' hw hbig hn' (by simp; omega) ?_ hG'
        intro q hq
        rcases List.mem_cons.mp hq with rfl | hq
        · exact ⟨by rw [hp1]; rfl, hgk⟩
        · obtain ⟨a, b⟩ := hP q hq
          obtain ⟨i, hi⟩ := Option.isSome_iff_exists.mp a
          exact ⟨by rw [mono q 0 i hi]; rfl, b⟩
      · refine ⟨(p ++ [key]) :: P, hn', fun q hq => ?_, .inr ⟨by omega, by simp; omega⟩⟩
        rcases List.mem_cons.mp hq with rfl | hq
        · exact hgk
        · exact (hP q hq).2

theorem flattenCode_count {s : Nat} (hs : 0 < s) (hs5 : s ≤ 5) {t t' : Mat} (h : Shape s t) {codes : List (Nat × Nat)} {c : Nat × Nat}
    (hc : c ∈ codes) (h1 : 1 ≤ c.1) (h30 : Fits32 s c) (hv : c.2 < 2 ^ c.1) {a : Nat}
    (hf : flattenCode s t a c = .ok t') {P : List (List Nat)} (h256 : t.length ≤ 256) (hn : P.Nodup) (hl : P.length = t.length)
    (hP : ∀ q ∈ P, (rowAt t 0 q).isSome ∧ RowNeeded s codes q) :
    ∃ P' : List (List Nat), P'.Nodup ∧ (∀ q ∈ P', RowNeeded s codes q) ∧
      ((t'.length ≤ 256 ∧ P'.length = t'.length ∧ ∀ q ∈ P', (rowAt t' 0 q).isSome) ∨ (256 < t'.length ∧ 256 < P'.length)) := by
  obtain ⟨init, last, hi, hp, hcov⟩ := codingPaths_spec hs hs5 h1 h30 hv
  obtain ⟨t1, id, w, sh1, hid⟩ := walkCreate_total h h.pos hi
  have ⟨b1, b2⟩ := ceilDiv_bounds (L := c.1) hs
  obtain ⟨t2, e2, sh2, l2, n2, d2⟩ := setTargets_spec (a := a % 2 ^ 16) (l := (ceilDiv c.1 s * s - c.1) % 2 ^ 8) (init := init) (f := fun i => last + i) sh1 hid
    (Nat.mod_lt _ (by decide)) (Nat.mod_lt _ (by decide)) (List.range (2 ^ (ceilDiv c.1 s * s - c.1)))
    (fun i hi' => ((hcov init (last + i)).mpr ⟨rfl, i, List.mem_range.mp hi', rfl⟩).1 _ (by simp))
  rw [← setTargets_mod] at e2
  have hcons : ∃ rest, List.range (2 ^ (ceilDiv c.1 s * s - c.1)) = 0 :: rest := by
    have := Nat.two_pow_pos (ceilDiv c.1 s * s - c.1)
    rw [show 2 ^ (ceilDiv c.1 s * s - c.1) = (2 ^ (ceilDiv c.1 s * s - c.1) - 1) + 1 by omega, List.range_succ_eq_map]
    exact ⟨_, rfl⟩
  have ht2 : t' = t2 := by
    obtain ⟨rest, hr⟩ := hcons
    unfold flattenCode at hf
    rw [hp] at hf
    simp only [Res.bind_ok] at hf
    rw [hr] at e2 hf
    simp only [List.map_cons, Nat.add_zero, List.dropLast_concat, w, Res.bind_ok] at e2 hf
    rw [e2] at hf
    exact (Res.ok.inj hf).symm
  subst ht2
  have hrow : ∀ q i, rowAt t' i q = rowAt t1 i q := by
    intro q
    induction q with
    | nil => intro i; rfl
    | cons x xs ih => intro i; rw [rowAt_cons, rowAt_cons, n2]; congr 1; funext j; exact ih j
  have hgood : ∀ x y, init = x ++ y → RowNeeded s codes ([] ++ x) := by
    intro x y e
    have hc0 : Covers s (init ++ [last]) c := (hcov init last).mpr ⟨rfl, 0, Nat.two_pow_pos _, rfl⟩
    refine .inr ⟨fun k hk => hi k (by rw [e]; simp at hk; simp [hk]), c, hc, ?_⟩
    obtain ⟨_, suf, hsl, ecov⟩ := hc0
    have e' : chunkBits s x ++ (chunkBits s (y ++ [last])) = codeBits c ++ suf := by
      rw [← chunkBits_append, ← ecov, e]; simp
    have hlen : suf.length < (chunkBits s (y ++ [last])).length := by
      rw [chunkBits_length, List.length_append, List.length_singleton, Nat.succ_mul]
      have := Nat.zero_le (y.length * s)
      omega
    rcases List.append_eq_append_iff.mp e' with ⟨as, e1, e2⟩ | ⟨bs, e1, e2⟩
    · refine ⟨as, ?_, by simpa using e1⟩
      rintro rfl
      rw [e2] at hlen; simp at hlen
    · rw [e2] at hlen
      simp at hlen
      omega
  obtain ⟨P', p1, p2, p3⟩ := walkCreate_count h (show rowAt t 0 [] = some 0 from rfl) hi w h256 hn hl hP hgood
  refine ⟨P', p1, p2, ?_⟩
  rw [l2]
  rcases p3 with ⟨x, y, z⟩ | p3
  · exact .inl ⟨x, y, fun q hq => by rw [hrow]; exact z q hq⟩
  · exact .inr p3

theorem flattenLoop_count {s : Nat} (hs : 0 < s) (hs5 : s ≤ 5) {codes : List (Nat × Nat)} {todo : List (Nat × Nat)} :
    ∀ {t t' : Mat} {n : Nat} {P : List (List Nat)}, Shape s t → WellFormedAt s todo → (∀ c ∈ todo, c ∈ codes) →
    flattenLoop s t n todo = .ok t' → P.Nodup → (∀ q ∈ P, RowNeeded s codes q) →
    ((t.length ≤ 256 ∧ P.length = t.length ∧ ∀ q ∈ P, (rowAt t 0 q).isSome) ∨ (256 < t.length ∧ 256 < P.length)) →
    ∃ P' : List (List Nat), P'.Nodup ∧ (∀ q ∈ P', RowNeeded s codes q) ∧
      ((t'.length ≤ 256 ∧ P'.length = t'.length ∧ ∀ q ∈ P', (rowAt t' 0 q).isSome) ∨ (256 < t'.length ∧ 256 < P'.length)) := by
  induction todo with
  | nil =>
    intro t t' n P h hw hm hf hn hP hx
    simp only [flattenLoop, Res.ok.injEq] at hf
    subst hf
    exact ⟨P, hn, hP, hx⟩
  | cons c cs ih =>
    intro t t' n P h hw hm hf hn hP hx
    obtain ⟨a1, a2, a3⟩ := hw c (by simp)
    obtain ⟨t1, e1, s1⟩ := flattenCode_total hs hs5 h a1 a2 a3 n
    unfold flattenLoop at hf
    rw [e1] at hf
    have hf : flattenLoop s t1 (n + 1) cs = .ok t' := hf
    have mono : t.length ≤ t1.length := flattenCode_length hs hs5 h a1 a2 a3 e1
    have step : ∃ P1 : List (List Nat), P1.Nodup ∧ (∀ q ∈ P1, RowNeeded s codes q) ∧
        ((t1.length ≤ 256 ∧ P1.length = t1.length ∧ ∀ q ∈ P1, (rowAt t1 0 q).isSome) ∨ (256 < t1.length ∧ 256 < P1.length)) := by
      rcases hx with ⟨x, y, z⟩ | ⟨x, y⟩
      · exact flattenCode_count hs hs5 h (hm c (by simp)) a1 a2 a3 e1 x hn y (fun q hq => ⟨z q hq, hP q hq⟩)
      · exact ⟨P, hn, hP, .inr ⟨by omega, y⟩⟩
    obtain ⟨P1, n1, g1, x1⟩ := step
    exact ih s1 (fun x hx => hw x (by simp [hx])) (fun x hx => hm x (by simp [hx])) hf n1 g1 x1

/-- C12: how many rows a prefix code needs can be told from the code: one for each string of chunks that some code has before its
last chunk (the empty one included). Up to 256 these are exactly the rows of the matrix; so the matrix is within the limit
exactly if there are at most 256 such strings. -/
theorem C12_row_count (codes : List (Nat × Nat)) (speed : Speed) (hw : WellFormedAt speed.toNat codes)
    (hp : PrefixFree codes) (t : Mat) (ht : flatten codes speed = .ok t) (ps : List (List Nat)) (hn : ps.Nodup)
    (hps : ∀ q, q ∈ ps ↔ RowNeeded speed.toNat codes q) :
    (t.length ≤ 256 ↔ ps.length ≤ 256) ∧ (t.length ≤ 256 → t.length = ps.length) := by
  have hs : 0 < speed.toNat := by cases speed <;> decide
  have hs5 : speed.toNat ≤ 5 := by cases speed <;> decide
  obtain ⟨P, pn, pg, px⟩ := flattenLoop_count hs hs5 (codes := codes) (n := 0) (P := [[]]) (built_nil speed.toNat).1 hw (fun c h => h)
    (show flattenLoop _ _ 0 codes = .ok t from ht) (by simp) (by simp [RowNeeded]) (.inl ⟨by simp, by simp, by simp [rowAt]⟩)
  have hPps : P.length ≤ ps.length := nodup_subset_length P ps pn (fun q hq => (hps q).mpr (pg q hq))
  obtain ⟨t', et, sh⟩ := flattenLoop_total hs hs5 (built_nil speed.toNat).1 (n := 0) hw
  have et : flatten codes speed = .ok t' := et
  rw [ht] at et
  cases et
  have hup : t.length ≤ 256 → t.length = ps.length := by
    intro h256
    rcases px with ⟨_, y, z⟩ | ⟨x, _⟩
    · have b := flatten_built hw hp ht h256
      have hsome : ∀ q ∈ ps, ∃ i, rowAt t 0 q = some i := by
        intro q hq
        rcases (hps q).mp hq with rfl | ⟨hk, c, hc, rest, hr, e⟩
        · exact ⟨0, rfl⟩
        · rcases List.eq_nil_or_concat q with rfl | ⟨q', k, rfl⟩
          · exact ⟨0, rfl⟩
          · rw [List.concat_eq_append] at hk e ⊢
            exact Option.isSome_iff_exists.mp ((visit_next t q' k).mp
              ((C12_continues codes speed hw hp t ht h256 q' k hk).mpr ⟨c, hc, rest, hr, e⟩))
      have hnm : (ps.map fun q => (rowAt t 0 q).getD 0).Nodup := by
        refine List.pairwise_map.mpr (List.Pairwise.imp_of_mem ?_ hn)
        intro a c ha hc hne heq
        obtain ⟨i, hi⟩ := hsome a ha
        obtain ⟨j, hj⟩ := hsome c hc
        rw [hi, hj] at heq
        have heq : i = j := heq
        subst heq
        exact hne (b.tree.inj hi hj)
      have hle := nodup_subset_length _ (List.range t.length) hnm (by
        intro x hx
        obtain ⟨q, hq, rfl⟩ := List.mem_map.mp hx
        obtain ⟨i, hi⟩ := hsome q hq
        rw [hi]
        exact List.mem_range.mpr (rowAt_lt sh hi))
      simp only [List.length_map, List.length_range] at hle
      omega
    · omega
  refine ⟨⟨fun h => by rw [← hup h]; exact h, fun h => ?_⟩, hup⟩
  rcases px with ⟨x, _⟩ | ⟨_, y⟩
  · exact x
  · omega

/-- A list without its repetitions. -/
def dedup {α : Type} [DecidableEq α] : List α → List α
  | [] => []
  | x :: xs => if x ∈ dedup xs then dedup xs else x :: dedup xs

theorem mem_dedup {α : Type} [DecidableEq α] (l : List α) (x : α) : x ∈ dedup l ↔ x ∈ l := by
  induction l with
  | nil => rfl
  | cons y ys ih =>
    unfold dedup
    split
    · next h =>
      constructor
      · intro hx; exact List.mem_cons_of_mem _ (ih.mp hx)
      · intro hx
        rcases List.mem_cons.mp hx with rfl | hx
        · exact h
        · exact ih.mpr hx
    · rw [List.mem_cons, List.mem_cons, ih]

theorem nodup_dedup {α : Type} [DecidableEq α] (l : List α) : (dedup l).Nodup := by
  induction l with
  | nil => exact List.nodup_nil
  | cons y ys ih =>
    unfold dedup
    split
    · exact ih
    · next h => exact List.nodup_cons.mpr ⟨h, ih⟩

/-- The first `m` chunks of `s` bits of a code. -/
def firstChunks (s : Nat) (c : Nat × Nat) (m : Nat) : List Nat := (List.range m).map fun i => c.2 / 2 ^ (c.1 - (i + 1) * s) % 2 ^ s

/-- The strings of chunks that need a row: the empty one, and those that some code has before its last chunk. -/
def rowsNeeded (s : Nat) (codes : List (Nat × Nat)) : List (List Nat) :=
  dedup ([] :: codes.flatMap fun c => (List.range ((c.1 + s - 1) / s)).map (firstChunks s c))

theorem firstChunks_bits {s : Nat} (c : Nat × Nat) (m : Nat) (hm : m * s ≤ c.1) :
    chunkBits s (firstChunks s c m) = natBits (m * s) (c.2 / 2 ^ (c.1 - m * s)) := by
  induction m with
  | zero => simp [firstChunks, chunkBits, natBits]
  | succ m ih =>
    have e : (m + 1) * s = m * s + s := Nat.succ_mul m s
    have hl : firstChunks s c (m + 1) = firstChunks s c m ++ [c.2 / 2 ^ (c.1 - (m + 1) * s) % 2 ^ s] := by
      unfold firstChunks; rw [List.range_succ, List.map_append]; rfl
    rw [hl, chunkBits_append, ih (by omega), e, natBits_split]
    congr 1
    · rw [Nat.div_div_eq_div_mul, ← Nat.pow_add]; congr 3; omega
    · rw [show ∀ x, chunkBits s [x] = natBits s x from fun x => by simp [chunkBits]]
      apply bitsVal_inj
      · simp
      · rw [bitsVal_natBits, bitsVal_natBits, Nat.mod_mod]

theorem firstChunks_lt {s : Nat} (c : Nat × Nat) (m : Nat) : ∀ k ∈ firstChunks s c m, k < 2 ^ s := by
  intro k hk
  obtain ⟨i, _, rfl⟩ := List.mem_map.mp hk
  exact Nat.mod_lt _ (Nat.two_pow_pos s)

theorem codeBits_split {s : Nat} (c : Nat × Nat) (m : Nat) (hm : m * s ≤ c.1) :
    codeBits c = chunkBits s (firstChunks s c m) ++ natBits (c.1 - m * s) c.2 := by
  rw [firstChunks_bits c m hm, ← natBits_split, codeBits]; congr 1; omega

theorem RowNeeded_iff {s : Nat} (hs : 0 < s) (codes : List (Nat × Nat)) (q : List Nat) :
    q ∈ rowsNeeded s codes ↔ RowNeeded s codes q := by
  have lt := @firstChunks_lt s
  have split := @codeBits_split s
  unfold rowsNeeded RowNeeded
  rw [mem_dedup, List.mem_cons, List.mem_flatMap]
  refine or_congr Iff.rfl ⟨?_, ?_⟩
  · rintro ⟨c, hc, hq⟩
    obtain ⟨m, hm, rfl⟩ := List.mem_map.mp hq
    rw [List.mem_range] at hm
    have hm' : m * s < c.1 := by
      have := Nat.mul_le_mul_right s (show m + 1 ≤ (c.1 + s - 1) / s by omega)
      have := Nat.div_mul_le_self (c.1 + s - 1) s
      rw [Nat.succ_mul] at *; omega
    refine ⟨lt c m, c, hc, _, ?_, split c m (by omega)⟩
    intro h0
    have := congrArg List.length h0
    rw [natBits_length] at this
    simp at this; omega
  · rintro ⟨hk, c, hc, rest, hr, e⟩
    have hlen := congrArg List.length e
    rw [codeBits, natBits_length, List.length_append, chunkBits_length] at hlen
    have hpos : 0 < rest.length := List.length_pos_iff.mpr hr
    refine ⟨c, hc, List.mem_map.mpr ⟨q.length, List.mem_range.mpr ?_, ?_⟩⟩
    · refine (Nat.le_div_iff_mul_le hs).mpr ?_
      rw [Nat.succ_mul]; omega
    · rw [split c q.length (by omega)] at e
      have := List.append_inj e (by rw [chunkBits_length, chunkBits_length]; simp [firstChunks])
      exact chunkBits_inj (by simp [firstChunks]) (lt c _) hk this.1

/-- C12: the same with a list that can be computed. -/
theorem C12_rows_computed (codes : List (Nat × Nat)) (speed : Speed) (hw : WellFormedAt speed.toNat codes)
    (hp : PrefixFree codes) (t : Mat) (ht : flatten codes speed = .ok t) :
    (t.length ≤ 256 ↔ (rowsNeeded speed.toNat codes).length ≤ 256) ∧
    (t.length ≤ 256 → t.length = (rowsNeeded speed.toNat codes).length) := by
  have hs : 0 < speed.toNat := by cases speed <;> decide
  exact C12_row_count codes speed hw hp t ht _ (nodup_dedup _) (RowNeeded_iff hs codes)

example : (rowsNeeded 2 [(1, 0), (2, 2), (4, 12), (4, 13), (3, 7)]).length = 2 := by decide
/-- The code of the RFC needs 256 rows at one bit at a time, which is just within the limit. -/
example : (rowsNeeded 1 ENCODE_TABLE).length = 256 := by
  have h := C12_rows_computed ENCODE_TABLE .OneBit (C12_thirty_bits _ _ (by decide +kernel)) (prefixFree_of_check (by decide +kernel))
    DECODE_TABLE1 (by decide +kernel)
  have hl : DECODE_TABLE1.length = 256 := by decide +kernel
  rw [hl] at h
  exact (h.2 (Nat.le_refl _)).symm

end Verif.Props
