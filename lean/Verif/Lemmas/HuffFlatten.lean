import Verif.Huffman.Flattener
import Verif.Spec.Flatten
import Verif.Lemmas.Bits
/-! Correctness of `flatten` for arbitrary codes. -/
namespace Verif.Huffman
open Verif.Spec Verif.Spec.Matrix

/-! ### Chunks of a code -/

theorem chunkBits_cons (s k : Nat) (ks : List Nat) : chunkBits s (k :: ks) = natBits s k ++ chunkBits s ks := rfl
theorem chunkBits_append (s : Nat) (a b : List Nat) : chunkBits s (a ++ b) = chunkBits s a ++ chunkBits s b := by
  simp [chunkBits]
theorem chunkBits_length (s : Nat) (ks : List Nat) : (chunkBits s ks).length = ks.length * s := by
  induction ks with
  | nil => simp [chunkBits]
  | cons k ks ih => rw [chunkBits_cons, List.length_append, ih, natBits_length, List.length_cons, Nat.succ_mul]; omega

theorem chunkBits_inj {s : Nat} {a b : List Nat} (hl : a.length = b.length) (ha : ∀ k ∈ a, k < 2 ^ s)
    (hb : ∀ k ∈ b, k < 2 ^ s) (h : chunkBits s a = chunkBits s b) : a = b := by
  induction a generalizing b with
  | nil => cases b with
    | nil => rfl
    | cons _ _ => simp at hl
  | cons x xs ih =>
    cases b with
    | nil => simp at hl
    | cons y ys =>
      rw [chunkBits_cons, chunkBits_cons] at h
      have h1 := List.append_inj h (by simp)
      have hx : x = y := natBits_inj (ha x (by simp)) (hb y (by simp)) h1.1
      have := ih (b := ys) (by simpa using hl) (fun k hk => ha k (by simp [hk])) (fun k hk => hb k (by simp [hk])) h1.2
      rw [hx, this]

/-- `keys` are chunks that start with the code `c` and have fewer than `s` bits more. -/
def Covers (s : Nat) (keys : List Nat) (c : Nat × Nat) : Prop :=
  (∀ k ∈ keys, k < 2 ^ s) ∧ ∃ suf, suf.length < s ∧ chunkBits s keys = codeBits c ++ suf

theorem chunksOf_spec {bits n s m : Nat} (h : m * s < 32 + s) (hs : 0 < s) :
    ∃ l, chunksOf bits n s m = .ok l ∧ l.length = m ∧ (∀ k ∈ l, k < 2 ^ s) ∧ chunkBits s l = natBits (m * s) bits ∧
      (0 < m → l.getLast? = some (bits % 2 ^ s)) := by
  induction m with
  | zero => exact ⟨[], rfl, rfl, by simp, by simp [chunkBits, natBits], by simp⟩
  | succ m ih =>
    have e : (m + 1) * s = m * s + s := Nat.succ_mul m s
    obtain ⟨l, h1, h2, h3, h4, h5⟩ := ih (by omega)
    refine ⟨bits / 2 ^ (m * s) % 2 ^ s :: l, ?_, by simp [h2], ?_, ?_, ?_⟩
    · unfold chunksOf
      rw [if_neg (by omega), h1]; rfl
    · intro k hk
      rcases List.mem_cons.mp hk with rfl | hk
      · exact Nat.mod_lt _ (Nat.two_pow_pos s)
      · exact h3 k hk
    · rw [chunkBits_cons, h4, e, Nat.add_comm, natBits_split]
      congr 1
      apply bitsVal_inj
      · simp
      · rw [bitsVal_natBits, bitsVal_natBits, Nat.mod_mod]
    · intro _
      cases m with
      | zero =>
        have : l = [] := List.length_eq_zero_iff.mp h2
        subst this; simp
      | succ m =>
        have := h5 (by omega)
        rw [List.getLast?_cons, this]; rfl

theorem ceilDiv_bounds {L s : Nat} (hs : 0 < s) : L ≤ ceilDiv L s * s ∧ ceilDiv L s * s < L + s := by
  unfold ceilDiv
  have h := Nat.div_add_mod (L + s - 1) s
  have := Nat.mod_lt (L + s - 1) hs
  rw [Nat.mul_comm] at h
  omega

theorem ceilDiv_unique {L s n : Nat} (hs : 0 < s) (h1 : L ≤ n * s) (h2 : n * s < L + s) : ceilDiv L s = n := by
  have ⟨a, b⟩ := ceilDiv_bounds (L := L) hs
  have x : ceilDiv L s * s < (n + 1) * s := by rw [Nat.succ_mul]; omega
  have y : n * s < (ceilDiv L s + 1) * s := by rw [Nat.succ_mul]; omega
  have := Nat.lt_of_mul_lt_mul_right x
  have := Nat.lt_of_mul_lt_mul_right y
  omega

theorem covers_length {s : Nat} {keys : List Nat} {c : Nat × Nat} (hs : 0 < s) (h : Covers s keys c) :
    keys.length = ceilDiv c.1 s := by
  obtain ⟨_, suf, hl, e⟩ := h
  have := congrArg List.length e
  rw [chunkBits_length, List.length_append, codeBits, natBits_length] at this
  exact (ceilDiv_unique hs (by omega) (by omega)).symm

theorem codingPaths_spec {s : Nat} {c : Nat × Nat} (hs : 0 < s) (_hs5 : s ≤ 5) (h1 : 1 ≤ c.1) (h30 : Fits32 s c)
    (hc : c.2 < 2 ^ c.1) :
    ∃ init last, (∀ k ∈ init, k < 2 ^ s) ∧
      codingPaths c s = .ok ((List.range (2 ^ (ceilDiv c.1 s * s - c.1))).map fun i => init ++ [last + i]) ∧
      ∀ keys key, Covers s (keys ++ [key]) c ↔
        keys = init ∧ ∃ i, i < 2 ^ (ceilDiv c.1 s * s - c.1) ∧ key = last + i := by
  have ⟨b1, b2⟩ := ceilDiv_bounds (L := c.1) hs
  have h32 : ceilDiv c.1 s * s < 32 + s ∧ c.2 * 2 ^ (ceilDiv c.1 s * s - c.1) < 2 ^ 32 := h30
  generalize hm : ceilDiv c.1 s = m at b1 b2 h32
  generalize hleft : m * s - c.1 = left at *
  have hml : m * s = c.1 + left := by omega
  have hpos : 0 < m := by
    rcases Nat.eq_zero_or_pos m with h | h
    · subst h; simp at hml; omega
    · exact h
  have hb : c.2 * 2 ^ left < 2 ^ (m * s) := by
    rw [hml, Nat.pow_add]; exact Nat.mul_lt_mul_of_pos_right hc (Nat.two_pow_pos _)
  have hb32 : c.2 * 2 ^ left % 2 ^ 32 = c.2 * 2 ^ left :=
    Nat.mod_eq_of_lt h32.2
  obtain ⟨l, e1, e2, e3, e4, e5⟩ := chunksOf_spec (bits := c.2 * 2 ^ left) (n := m) (s := s) (m := m) (by omega) hs
  have e5 := e5 hpos
  obtain ⟨init, hl⟩ := List.getLast?_eq_some_iff.mp e5
  generalize hlast : c.2 * 2 ^ left % 2 ^ s = last at *
  have hleft_s : left ≤ s := by omega
  have hdvd : 2 ^ left ∣ last := by
    rw [← hlast]
    exact (Nat.dvd_mod_iff (Nat.pow_dvd_pow 2 hleft_s)).mpr (Nat.dvd_mul_left _ _)
  have hlastlt : last < 2 ^ s := by rw [← hlast]; exact Nat.mod_lt _ (Nat.two_pow_pos s)
  have hsum : ∀ i, i < 2 ^ left → last + i < 2 ^ s := by
    intro i hi
    obtain ⟨x, hx⟩ := hdvd
    obtain ⟨y, hy⟩ := Nat.pow_dvd_pow 2 hleft_s
    rw [hx, hy] at hlastlt
    have : x < y := Nat.lt_of_mul_lt_mul_left hlastlt
    calc last + i < 2 ^ left * x + 2 ^ left := by omega
      _ = 2 ^ left * (x + 1) := by rw [Nat.mul_succ]
      _ ≤ 2 ^ left * y := Nat.mul_le_mul_left _ this
      _ = 2 ^ s := hy.symm
  have hinit : ∀ k ∈ init, k < 2 ^ s := fun k hk => e3 k (by rw [hl]; simp [hk])
  have hlen : init.length * s + s = m * s := by
    have : l.length = init.length + 1 := by rw [hl]; simp
    rw [← e2, this, Nat.succ_mul]
  have hbits : ∀ i, i < 2 ^ left → chunkBits s (init ++ [last + i]) = codeBits c ++ natBits left i := by
    intro i hi
    rw [codeBits, ← natBits_append _ _ _ _ hi, ← hml]
    apply bitsVal_inj
    · rw [chunkBits_length, natBits_length, List.length_append, List.length_singleton, Nat.succ_mul, hlen]
    · have h0 : bitsVal (chunkBits s (init ++ [last])) = c.2 * 2 ^ left := by
        rw [← hl, e4, bitsVal_natBits, Nat.mod_eq_of_lt hb]
      rw [chunkBits_append, bitsVal_append] at h0
      rw [chunkBits_append, bitsVal_append]
      have x1 : ∀ k, k < 2 ^ s → bitsVal (chunkBits s [k]) = k := by
        intro k hk
        rw [show chunkBits s [k] = natBits s k by simp [chunkBits], bitsVal_natBits, Nat.mod_eq_of_lt hk]
      have x2 : ∀ k, (chunkBits s [k]).length = s := fun k => by rw [chunkBits_length]; simp
      rw [x1 _ hlastlt, x2] at h0
      rw [x1 _ (hsum i hi), x2, bitsVal_natBits, Nat.mod_eq_of_lt]
      · omega
      · rw [hml, Nat.pow_add]
        calc c.2 * 2 ^ left + i < c.2 * 2 ^ left + 2 ^ left := by omega
          _ = (c.2 + 1) * 2 ^ left := by rw [Nat.succ_mul]
          _ ≤ 2 ^ c.1 * 2 ^ left := Nat.mul_le_mul_right _ hc
  refine ⟨init, last, hinit, ?_, ?_⟩
  · unfold codingPaths
    rw [hm]
    simp only [hleft, hb32, e1, Res.bind_ok, e5]
    simp [hl]
  · intro keys key
    constructor
    · intro h
      have hkl := covers_length hs h
      obtain ⟨hk, suf, hsl, e⟩ := h
      have hsuf : suf.length = left := by
        have := congrArg List.length e
        rw [chunkBits_length, hkl, hm, List.length_append (as := codeBits c), codeBits, natBits_length] at this
        omega
      have hi : bitsVal suf < 2 ^ left := hsuf ▸ bitsVal_lt suf
      have e' : chunkBits s (keys ++ [key]) = chunkBits s (init ++ [last + bitsVal suf]) := by
        rw [hbits _ hi, e, ← hsuf, natBits_bitsVal]
      have := chunkBits_inj (by
          rw [hkl, hm, ← e2, hl]; simp) hk
        (fun k hk => by
          rcases List.mem_append.mp hk with h | h
          · exact hinit k h
          · rw [List.mem_singleton.mp h]; exact hsum _ hi) e'
      have := List.append_inj' this rfl
      exact ⟨this.1, bitsVal suf, hi, by simpa using this.2⟩
    · rintro ⟨rfl, i, hi, rfl⟩
      refine ⟨fun k hk => ?_, natBits left i, by rw [natBits_length]; omega, hbits i hi⟩
      rcases List.mem_append.mp hk with h | h
      · exact hinit k h
      · rw [List.mem_singleton.mp h]; exact hsum _ hi

/-! ### The matrix as a tree of rows -/

/-- The `next` pointer of a cell. -/
def nextOf (t : Mat) (i k : Nat) : Option Nat := (cell t i k).bind (·.1)
/-- Symbol and leftover of a cell. -/
def dataOf (t : Mat) (i k : Nat) : Option (Nat × Nat) := (cell t i k).bind fun c => c.2.1.map (·, c.2.2)

theorem rowAt_cons (t : Mat) (i k : Nat) (ks : List Nat) : rowAt t i (k :: ks) = (nextOf t i k).bind (rowAt t · ks) := rfl

theorem rowAt_append (t : Mat) (i : Nat) (p q : List Nat) : rowAt t i (p ++ q) = (rowAt t i p).bind (rowAt t · q) := by
  induction p generalizing i with
  | nil => rfl
  | cons k ks ih =>
    rw [List.cons_append, rowAt_cons, rowAt_cons]
    cases nextOf t i k with
    | none => rfl
    | some n => exact ih n

theorem rowAt_snoc (t : Mat) (i : Nat) (p : List Nat) (k : Nat) : rowAt t i (p ++ [k]) = (rowAt t i p).bind (nextOf t · k) := by
  rw [rowAt_append]
  congr 1; funext j
  rw [rowAt_cons]
  cases nextOf t j k <;> rfl

/-- The rows have the right width and pointers lead to rows. -/
structure Shape (s : Nat) (t : Mat) : Prop where
  pos : 0 < t.length
  width : ∀ (i : Nat) (row : List Cell), t[i]? = some row → row.length = 2 ^ s
  inside : ∀ i k n, nextOf t i k = some n → n < t.length

/-- The pointers form a tree with root 0. -/
structure Tree (t : Mat) : Prop where
  root : ∀ i k, nextOf t i k ≠ some 0
  unique : ∀ i k i' k' n, nextOf t i k = some n → nextOf t i' k' = some n → i = i' ∧ k = k'

theorem Tree.inj {t : Mat} (h : Tree t) {p q : List Nat} {i : Nat} (hp : rowAt t 0 p = some i) (hq : rowAt t 0 q = some i) :
    p = q := by
  rcases List.eq_nil_or_concat p with rfl | ⟨p', k, rfl⟩
  · rcases List.eq_nil_or_concat q with rfl | ⟨q', k', rfl⟩
    · rfl
    · have : i = 0 := by simpa [rowAt] using hp.symm
      subst this
      rw [List.concat_eq_append, rowAt_snoc] at hq
      cases hr : rowAt t 0 q' with
      | none => simp [hr] at hq
      | some j => rw [hr] at hq; exact absurd hq (h.root j k')
  · rw [List.concat_eq_append, rowAt_snoc] at hp
    cases hr : rowAt t 0 p' with
    | none => simp [hr] at hp
    | some j =>
      rw [hr] at hp
      rcases List.eq_nil_or_concat q with rfl | ⟨q', k', rfl⟩
      · have : i = 0 := by simpa [rowAt] using hq.symm
        subst this
        exact absurd hp (h.root j k)
      · rw [List.concat_eq_append, rowAt_snoc] at hq
        cases hr' : rowAt t 0 q' with
        | none => simp [hr'] at hq
        | some j' =>
          rw [hr'] at hq
          obtain ⟨e1, e2⟩ := h.unique _ _ _ _ _ hp hq
          subst e1; subst e2
          have := Tree.inj h hr hr'
          rw [this]
termination_by p.length

theorem rowAt_lt {s : Nat} {t : Mat} (h : Shape s t) {q : List Nat} {i : Nat} (hq : rowAt t 0 q = some i) : i < t.length := by
  rcases List.eq_nil_or_concat q with rfl | ⟨q', k', rfl⟩
  · have : i = 0 := by simpa [rowAt] using hq.symm
    subst this; exact h.pos
  · rw [List.concat_eq_append, rowAt_snoc] at hq
    cases hr : rowAt t 0 q' with
    | none => simp [hr] at hq
    | some j => rw [hr] at hq; exact h.inside _ _ _ hq

theorem cell_of_lt {s : Nat} {t : Mat} (h : Shape s t) {i k : Nat} (hi : i < t.length) (hk : k < 2 ^ s) :
    ∃ row c, t[i]? = some row ∧ row[k]? = some c ∧ cell t i k = some c := by
  have e1 : t[i]? = some t[i] := List.getElem?_eq_getElem hi
  have hw := h.width i _ e1
  have e2 : t[i][k]? = some (t[i][k]'(by omega)) := List.getElem?_eq_getElem (by omega)
  exact ⟨_, _, e1, e2, by rw [cell, e1]; exact e2⟩

theorem cell_set {t : Mat} {id key : Nat} {row : List Cell} {c c' : Cell} (h1 : t[id]? = some row) (h2 : row[key]? = some c)
    (i k : Nat) : cell (t.set id (row.set key c')) i k = if i = id ∧ k = key then some c' else cell t i k := by
  unfold cell
  have hid : id < t.length := (List.getElem?_eq_some_iff.mp h1).1
  have hkey : key < row.length := (List.getElem?_eq_some_iff.mp h2).1
  rw [List.getElem?_set]
  by_cases hi : id = i
  · subst hi
    rw [if_pos rfl, if_pos hid]
    show (row.set key c')[k]? = _
    rw [List.getElem?_set]
    by_cases hk : key = k
    · subst hk; simp [hkey]
    · rw [if_neg hk, if_neg (by simp; omega), h1]; rfl
  · rw [if_neg hi, if_neg (by intro hh; exact hi hh.1.symm)]

theorem cell_append_blank (t : Mat) (s i k : Nat) (c : Cell) (h : cell (t ++ [blankTransition s]) i k = some c) :
    cell t i k = some c ∨ c = (none, none, 0) := by
  unfold cell at *
  by_cases hi : i < t.length
  · left; rwa [List.getElem?_append_left hi] at h
  · right
    rw [List.getElem?_append_right (by omega)] at h
    cases hx : [blankTransition s][i - t.length]? with
    | none => simp [hx] at h
    | some r =>
      rw [hx] at h
      have hr : r = blankTransition s := by
        have := List.mem_of_getElem? hx
        simpa using this
      subst hr
      have := List.mem_of_getElem? (show (blankTransition s)[k]? = some c from h)
      exact (List.mem_replicate.mp this).2

theorem nextOf_append_blank (t : Mat) (s i k : Nat) : nextOf (t ++ [blankTransition s]) i k = nextOf t i k := by
  unfold nextOf
  by_cases hi : i < t.length
  · unfold cell; rw [List.getElem?_append_left hi]
  · have : cell t i k = none := by unfold cell; rw [List.getElem?_eq_none (by omega)]; rfl
    rw [this]
    cases hc : cell (t ++ [blankTransition s]) i k with
    | none => rfl
    | some c =>
      rcases cell_append_blank t s i k c hc with h | rfl
      · rw [this] at h; cases h
      · rfl

theorem dataOf_append_blank (t : Mat) (s i k : Nat) : dataOf (t ++ [blankTransition s]) i k = dataOf t i k := by
  unfold dataOf
  by_cases hi : i < t.length
  · unfold cell; rw [List.getElem?_append_left hi]
  · have : cell t i k = none := by unfold cell; rw [List.getElem?_eq_none (by omega)]; rfl
    rw [this]
    cases hc : cell (t ++ [blankTransition s]) i k with
    | none => rfl
    | some c =>
      rcases cell_append_blank t s i k c hc with h | rfl
      · rw [this] at h; cases h
      · rfl

theorem dataOf_ge {t : Mat} {i k : Nat} (h : t.length ≤ i) : dataOf t i k = none := by
  unfold dataOf cell; rw [List.getElem?_eq_none h]; rfl

/-- The effect of creating a row. -/
theorem create_spec {s : Nat} {t : Mat} (h : Shape s t) {id key : Nat} {row : List Cell} {asc : Option Nat} {left n : Nat}
    (h1 : t[id]? = some row) (h2 : row[key]? = some (none, asc, left)) (hn : n ≤ t.length) :
    let t' := (t ++ [blankTransition s]).set id (row.set key (some n, asc, left))
    Shape s t' ∧ t'.length = t.length + 1 ∧
      (∀ i k, nextOf t' i k = if i = id ∧ k = key then some n else nextOf t i k) ∧ (∀ i k, dataOf t' i k = dataOf t i k) := by
  intro t'
  have hid : id < t.length := (List.getElem?_eq_some_iff.mp h1).1
  have h1' : (t ++ [blankTransition s])[id]? = some row := by rw [List.getElem?_append_left hid]; exact h1
  have hlen : t'.length = t.length + 1 := by simp [t']
  have hcell := cell_set (c' := (some n, asc, left)) h1' h2
  have hcid : cell t id key = some (none, asc, left) := by unfold cell; rw [h1]; exact h2
  have hnext : ∀ i k, nextOf t' i k = if i = id ∧ k = key then some n else nextOf t i k := by
    intro i k
    rw [← nextOf_append_blank t s]
    unfold nextOf
    rw [hcell]
    split <;> rfl
  have hdata : ∀ i k, dataOf t' i k = dataOf t i k := by
    intro i k
    rw [← dataOf_append_blank t s i k]
    show (cell t' i k).bind _ = (cell (t ++ [blankTransition s]) i k).bind _
    rw [hcell]
    split
    · next hh =>
      rw [hh.1, hh.2]
      have : cell (t ++ [blankTransition s]) id key = some (none, asc, left) := by
        unfold cell; rw [h1']; exact h2
      rw [this]; rfl
    · rfl
  refine ⟨⟨by omega, ?_, ?_⟩, hlen, hnext, hdata⟩
  · intro i r hr
    have hw := h.width id row h1
    simp only [t', List.getElem?_set] at hr
    split at hr
    · split at hr
      · cases hr; simpa using hw
      · cases hr
    · by_cases hi : i < t.length
      · rw [List.getElem?_append_left hi] at hr; exact h.width i r hr
      · rw [List.getElem?_append_right (by omega)] at hr
        have := List.mem_of_getElem? hr
        rw [List.mem_singleton.mp this]; simp [blankTransition]
  · intro i k m hm
    rw [hnext] at hm
    split at hm
    · cases hm; omega
    · have := h.inside i k m hm; omega

/-- The walk never panics. -/
theorem walkCreate_total {s : Nat} {t : Mat} (h : Shape s t) {id : Nat} (hid : id < t.length) {keys : List Nat}
    (hk : ∀ k ∈ keys, k < 2 ^ s) :
    ∃ t' id', walkCreate s t id keys = .ok (t', id') ∧ Shape s t' ∧ id' < t'.length := by
  induction keys generalizing t id with
  | nil => exact ⟨t, id, rfl, h, hid⟩
  | cons key keys ih =>
    obtain ⟨row, c, e1, e2, e3⟩ := cell_of_lt h hid (hk key (by simp))
    have hk' : ∀ k ∈ keys, k < 2 ^ s := fun k hk0 => hk k (by simp [hk0])
    obtain ⟨nx, asc, left⟩ := c
    cases nx with
    | some n =>
      have hn : n < t.length := h.inside id key n (by rw [nextOf, e3]; rfl)
      obtain ⟨t', id', w, sh, hl⟩ := ih h hn hk'
      exact ⟨t', id', by unfold walkCreate; rw [e1]; simp only [e2]; exact w, sh, hl⟩
    | none =>
      have cs := create_spec h (n := t.length % 256) e1 e2 (Nat.mod_le _ _)
      obtain ⟨t', id', w, sh, hl⟩ := ih cs.1 (id := t.length % 256) (by have := Nat.mod_le t.length 256; omega) hk'
      exact ⟨t', id', by unfold walkCreate; rw [e1]; simp only [e2]; exact w, sh, hl⟩

theorem walkCreate_length {s : Nat} {t t' : Mat} {id id' : Nat} {keys : List Nat}
    (hw : walkCreate s t id keys = .ok (t', id')) : t.length ≤ t'.length := by
  induction keys generalizing t id with
  | nil =>
    simp only [walkCreate, Res.ok.injEq, Prod.mk.injEq] at hw
    rw [hw.1]; exact Nat.le_refl _
  | cons x xs ih =>
    unfold walkCreate at hw
    split at hw
    · cases hw
    · split at hw
      · cases hw
      · exact ih hw
      · have := ih hw
        simp at this; omega

/-- What the walk does to the tree, as long as row numbers fit an octet. -/
theorem walkCreate_spec {s : Nat} {t t' : Mat} {id id' : Nat} {keys p : List Nat} (h : Shape s t) (tr : Tree t)
    (hp : rowAt t 0 p = some id) (hk : ∀ k ∈ keys, k < 2 ^ s) (hw : walkCreate s t id keys = .ok (t', id')) :
    t.length ≤ t'.length ∧ (t'.length ≤ 256 →
      Tree t' ∧ rowAt t' 0 (p ++ keys) = some id' ∧ (∀ i k, dataOf t' i k = dataOf t i k) ∧
      (∀ q i, rowAt t 0 q = some i → rowAt t' 0 q = some i) ∧
      (∀ q i, rowAt t' 0 q = some i → rowAt t 0 q = some i ∨ (t.length ≤ i ∧ ∃ r, p ++ keys = q ++ r))) := by
  induction keys generalizing t id p with
  | nil =>
    simp only [walkCreate, Res.ok.injEq, Prod.mk.injEq] at hw
    obtain ⟨rfl, rfl⟩ := hw
    exact ⟨Nat.le_refl _, fun _ => ⟨tr, by simpa using hp, fun _ _ => rfl, fun _ _ h => h, fun _ _ h => .inl h⟩⟩
  | cons key keys ih =>
    have hid := rowAt_lt h hp
    obtain ⟨row, c, e1, e2, e3⟩ := cell_of_lt h hid (hk key (by simp))
    have hk' : ∀ k ∈ keys, k < 2 ^ s := fun k hk0 => hk k (by simp [hk0])
    obtain ⟨nx, asc, left⟩ := c
    unfold walkCreate at hw
    rw [e1] at hw
    simp only [e2] at hw
    have eap : p ++ key :: keys = p ++ [key] ++ keys := by simp
    cases nx with
    | some n =>
      have hp' : rowAt t 0 (p ++ [key]) = some n := by
        rw [rowAt_snoc, hp]; show nextOf t id key = _; rw [nextOf, e3]; rfl
      have := ih h tr hp' hk' hw
      rw [eap]; exact this
    | none =>
      simp only at hw
      obtain ⟨sh1, len1, next1, data1⟩ := create_spec h (n := t.length % 256) e1 e2 (Nat.mod_le _ _)
      generalize ht1 : (t ++ [blankTransition s]).set id (row.set key (some (t.length % 256), asc, left)) = t1 at *
      have hnone : nextOf t id key = none := by rw [nextOf, e3]; rfl
      by_cases hbig : t1.length ≤ 256
      · have hmod : t.length % 256 = t.length := Nat.mod_eq_of_lt (by omega)
        rw [hmod] at next1 hw
        have tr1 : Tree t1 := by
          refine ⟨fun i k => ?_, fun i k i' k' n h1 h2 => ?_⟩
          · rw [next1]; split
            · intro hh; have := h.pos; rw [Option.some.inj hh] at this; exact absurd this (Nat.lt_irrefl 0)
            · exact tr.root i k
          · rw [next1] at h1 h2
            split at h1
            · next hx =>
              split at h2
              · next hy => exact ⟨hx.1.trans hy.1.symm, hx.2.trans hy.2.symm⟩
              · cases h1; have := h.inside _ _ _ h2; omega
            · split at h2
              · cases h2; have := h.inside _ _ _ h1; omega
              · exact tr.unique _ _ _ _ _ h1 h2
        have mono : ∀ q i j, rowAt t i q = some j → rowAt t1 i q = some j := by
          intro q
          induction q with
          | nil => intro i j hh; exact hh
          | cons x xs ihx =>
            intro i j hh
            rw [rowAt_cons] at hh ⊢
            cases hx : nextOf t i x with
            | none => rw [hx] at hh; cases hh
            | some n =>
              rw [hx] at hh
              have : nextOf t1 i x = some n := by
                rw [next1, if_neg]
                · exact hx
                · rintro ⟨rfl, rfl⟩; rw [hnone] at hx; cases hx
              rw [this]; exact ihx n j hh
        have back : ∀ (m : Nat) (q : List Nat) (i : Nat), q.length = m → rowAt t1 0 q = some i →
            rowAt t 0 q = some i ∨ (i = t.length ∧ q = p ++ [key]) := by
          intro m
          induction m with
          | zero =>
            intro q i hq hh
            have : q = [] := List.length_eq_zero_iff.mp hq
            subst this; exact .inl hh
          | succ m ihm =>
            intro q i hq hh
            rcases List.eq_nil_or_concat q with rfl | ⟨q', k, rfl⟩
            · simp at hq
            · rw [List.concat_eq_append] at hq hh ⊢
              rw [rowAt_snoc] at hh
              cases hr : rowAt t1 0 q' with
              | none => rw [hr] at hh; cases hh
              | some j =>
                rw [hr] at hh
                have hh : nextOf t1 j k = some i := hh
                rcases ihm q' j (by simpa using hq) hr with hj | ⟨rfl, _⟩
                · rw [next1] at hh
                  split at hh
                  · next hx =>
                    obtain ⟨rfl, rfl⟩ := hx
                    cases hh
                    exact .inr ⟨rfl, by rw [tr.inj hj hp]⟩
                  · exact .inl (by rw [rowAt_snoc, hj]; exact hh)
                · rw [next1] at hh
                  split at hh
                  · next hx => omega
                  · exfalso
                    have : cell t t.length k = none := by unfold cell; rw [List.getElem?_eq_none (by omega)]; rfl
                    rw [nextOf, this] at hh; cases hh
        have hp1 : rowAt t1 0 (p ++ [key]) = some t.length := by
          rw [rowAt_snoc, mono p 0 id hp]
          show nextOf t1 id key = _
          rw [next1, if_pos ⟨rfl, rfl⟩]
        obtain ⟨l2, rest⟩ := ih sh1 tr1 hp1 hk' hw
        refine ⟨by omega, fun hb => ?_⟩
        obtain ⟨a1, a2, a3, a4, a5⟩ := rest hb
        refine ⟨a1, by rw [eap]; exact a2, fun i k => (a3 i k).trans (data1 i k), fun q i hq => a4 q i (mono q 0 i hq), ?_⟩
        intro q i hq
        rcases a5 q i hq with hh | ⟨hl, r, hr⟩
        · rcases back _ q i rfl hh with h' | ⟨rfl, rfl⟩
          · exact .inl h'
          · exact .inr ⟨Nat.le_refl _, keys, eap⟩
        · exact .inr ⟨by rw [len1] at hl; omega, r, by rw [eap]; exact hr⟩
      · have : t1.length ≤ t'.length := walkCreate_length hw
        exact ⟨by omega, fun hb => by omega⟩

/-- Setting a target changes nothing but that target. -/
theorem setTarget_spec {s : Nat} {t : Mat} (h : Shape s t) {id key a l : Nat} (hid : id < t.length) (hk : key < 2 ^ s)
    (ha : a < 2 ^ 16) (hl : l < 2 ^ 8) :
    ∃ t', setTarget t id key a l = .ok t' ∧ Shape s t' ∧ t'.length = t.length ∧ (∀ i k, nextOf t' i k = nextOf t i k) ∧
      ∀ i k, dataOf t' i k = if i = id ∧ k = key then some (a, l) else dataOf t i k := by
  obtain ⟨row, c, e1, e2, e3⟩ := cell_of_lt h hid hk
  obtain ⟨nx, asc, left⟩ := c
  refine ⟨t.set id (row.set key (nx, some a, l)), ?_, ?_, by simp, ?_, ?_⟩
  · unfold setTarget; rw [e1]; simp only [e2]; rw [Nat.mod_eq_of_lt ha, Nat.mod_eq_of_lt hl]
  · have hnext : ∀ i k, nextOf (t.set id (row.set key (nx, some a, l))) i k = nextOf t i k := by
      intro i k; unfold nextOf; rw [cell_set e1 e2]
      split
      · next hh => rw [hh.1, hh.2, e3]; rfl
      · rfl
    refine ⟨by simpa using h.pos, ?_, ?_⟩
    · intro i r hr
      rw [List.getElem?_set] at hr
      split at hr
      · simp only [Option.some.injEq] at hr
        subst hr; simpa using h.width id row e1
      · exact h.width i r hr
    · intro i k n hn
      rw [hnext] at hn; simpa using h.inside i k n hn
  · intro i k; unfold nextOf; rw [cell_set e1 e2]
    split
    · next hh => rw [hh.1, hh.2, e3]; rfl
    · rfl
  · intro i k; unfold dataOf; rw [cell_set e1 e2]
    split <;> rfl

theorem setTargets_spec {s : Nat} {t : Mat} (h : Shape s t) {id a l : Nat} (hid : id < t.length)
    (ha : a < 2 ^ 16) (hl : l < 2 ^ 8) {init : List Nat} {f : Nat → Nat} (is : List Nat) (hf : ∀ i ∈ is, f i < 2 ^ s) :
    ∃ t', setTargets id a l t (is.map fun i => init ++ [f i]) = .ok t' ∧ Shape s t' ∧ t'.length = t.length ∧
      (∀ i k, nextOf t' i k = nextOf t i k) ∧
      ∀ i k, dataOf t' i k = if i = id ∧ k ∈ is.map f then some (a, l) else dataOf t i k := by
  induction is generalizing t with
  | nil => exact ⟨t, rfl, h, rfl, fun _ _ => rfl, by simp⟩
  | cons x xs ih =>
    obtain ⟨t1, e1, s1, l1, n1, d1⟩ := setTarget_spec h hid (hf x (by simp)) ha hl
    obtain ⟨t2, e2, s2, l2, n2, d2⟩ := ih s1 (by omega) (fun i hi => hf i (by simp [hi]))
    refine ⟨t2, ?_, s2, by omega, fun i k => (n2 i k).trans (n1 i k), fun i k => ?_⟩
    · simp only [List.map_cons, setTargets, List.getLast?_append, List.getLast?_singleton, Option.some_or, e1, Res.bind_ok, e2]
    · rw [d2, d1]
      by_cases hi : i = id <;> by_cases hx : k = f x <;> by_cases hm : k ∈ xs.map f <;> simp_all

/-! ### The whole matrix -/

/-- Symbol and leftover found by walking `keys ++ [key]`. -/
def targetOf (t : Mat) (keys : List Nat) (key : Nat) : Option (Nat × Nat) := (rowAt t 0 keys).bind (dataOf t · key)

/-- The matrix after the codes `done` have been entered. -/
structure Built (s : Nat) (t : Mat) (done : List (Nat × Nat)) : Prop where
  tree : Tree t
  target : ∀ q k a l, targetOf t q k = some (a, l) ↔
    ∃ c, done[a]? = some c ∧ Covers s (q ++ [k]) c ∧ l = ceilDiv c.1 s * s - c.1
  rows : ∀ q, (rowAt t 0 q).isSome = true ↔ q = [] ∨ ∃ c ∈ done, ∃ r k, Covers s (q ++ r ++ [k]) c

theorem nextOf_blank (s i k : Nat) : nextOf [blankTransition s] i k = none := by
  have := nextOf_append_blank [] s i k
  rw [List.nil_append] at this; rw [this]; simp [nextOf, cell]
theorem dataOf_blank (s i k : Nat) : dataOf [blankTransition s] i k = none := by
  have := dataOf_append_blank [] s i k
  rw [List.nil_append] at this; rw [this]; simp [dataOf, cell]

theorem built_nil (s : Nat) : Shape s [blankTransition s] ∧ Built s [blankTransition s] [] := by
  have hn := nextOf_blank s
  refine ⟨⟨by simp, ?_, fun i k n h => (by rw [hn] at h; cases h)⟩,
    ⟨⟨fun i k h => (by rw [hn] at h; cases h), fun i k i' k' n h _ => (by rw [hn] at h; cases h)⟩, ?_, ?_⟩⟩
  · intro i row h
    have := List.mem_of_getElem? h
    rw [List.mem_singleton.mp this]; simp [blankTransition]
  · intro q k a l
    constructor
    · intro h
      unfold targetOf at h
      cases hr : rowAt [blankTransition s] 0 q with
      | none => rw [hr] at h; cases h
      | some i => rw [hr] at h; have h : dataOf _ i k = _ := h; rw [dataOf_blank] at h; cases h
    · rintro ⟨c, h, _⟩; simp at h
  · intro q
    cases q with
    | nil => simp [rowAt]
    | cons x xs => rw [rowAt_cons, hn]; simp

theorem prefixFree_covers {s : Nat} {codes : List (Nat × Nat)} (pf : PrefixFree codes) {a b : Nat} {ca cb : Nat × Nat}
    (ha : codes[a]? = some ca) (hb : codes[b]? = some cb) {keys : List Nat} (h1 : Covers s keys ca) (h2 : Covers s keys cb) :
    a = b := by
  obtain ⟨_, s1, _, e1⟩ := h1
  obtain ⟨_, s2, _, e2⟩ := h2
  rw [e1] at e2
  rcases Nat.le_total (codeBits ca).length (codeBits cb).length with h | h
  · obtain ⟨r, hr, _⟩ : ∃ r, codeBits cb = codeBits ca ++ r ∧ s1 = r ++ s2 := by
      rcases List.append_eq_append_iff.mp e2 with ⟨r, h1, h2⟩ | ⟨r, h1, h2⟩
      · exact ⟨r, h1, h2⟩
      · have : r = [] := by
          have := congrArg List.length h1; rw [List.length_append] at this
          exact List.length_eq_zero_iff.mp (by omega)
        subst this
        exact ⟨[], by simpa using h1.symm, by simpa using h2.symm⟩
    exact pf a b ca cb r ha hb hr
  · obtain ⟨r, hr, _⟩ : ∃ r, codeBits ca = codeBits cb ++ r ∧ s2 = r ++ s1 := by
      rcases List.append_eq_append_iff.mp e2 with ⟨r, h1, h2⟩ | ⟨r, h1, h2⟩
      · have : r = [] := by
          have := congrArg List.length h1; rw [List.length_append] at this
          exact List.length_eq_zero_iff.mp (by omega)
        subst this
        exact ⟨[], by simpa using h1.symm, by simpa using h2.symm⟩
      · exact ⟨r, h1, h2⟩
    exact (pf b a cb ca r hb ha hr).symm

theorem setTargets_mod (id a l : Nat) (t : Mat) (ps : List (List Nat)) :
    setTargets id a l t ps = setTargets id (a % 2 ^ 16) (l % 2 ^ 8) t ps := by
  induction ps generalizing t with
  | nil => rfl
  | cons p ps ih =>
    have e : ∀ key, setTarget t id key (a % 2 ^ 16) (l % 2 ^ 8) = setTarget t id key a l := by
      intro key; unfold setTarget; simp only [Nat.mod_mod]
    unfold setTargets
    cases p.getLast? with
    | none => rfl
    | some key => simp only [e, ih]

theorem nodup_subset_length {α : Type} [DecidableEq α] : ∀ (l m : List α), l.Nodup → (∀ x ∈ l, x ∈ m) → l.length ≤ m.length
  | [], _, _, _ => Nat.zero_le _
  | x :: xs, m, hn, hs => by
    have hx : x ∈ m := hs x (by simp)
    rw [List.nodup_cons] at hn
    have := nodup_subset_length xs (m.erase x) hn.2 (fun y hy => (List.mem_erase_of_ne (by rintro rfl; exact hn.1 hy)).mpr (hs y (by simp [hy])))
    rw [List.length_erase_of_mem hx] at this
    have := List.length_pos_of_mem hx
    simp; omega

/-- A matrix built for a prefix code has a cell for every code. -/
theorem built_count {s : Nat} (hs : 0 < s) (hs5 : s ≤ 5) {t : Mat} (h : Shape s t) {done : List (Nat × Nat)} (hb : Built s t done)
    (hw : WellFormedAt s done) : done.length ≤ t.length * 2 ^ s := by
  have hlen : t.flatten.length = t.length * 2 ^ s := by
    have : ∀ t : Mat, (∀ row ∈ t, row.length = 2 ^ s) → t.flatten.length = t.length * 2 ^ s := by
      intro t
      induction t with
      | nil => intro _; simp
      | cons r rs ih =>
        intro hr
        rw [List.flatten_cons, List.length_append, ih (fun x hx => hr x (by simp [hx])), hr r (by simp), List.length_cons, Nat.succ_mul]
        omega
    refine this t (fun row hrow => ?_)
    obtain ⟨i, hi, rfl⟩ := List.mem_iff_getElem.mp hrow
    exact h.width i _ (List.getElem?_eq_getElem hi)
  have hsub := nodup_subset_length (List.range done.length) (t.flatten.filterMap (·.2.1)) List.nodup_range (by
    intro a ha
    have ha := List.mem_range.mp ha
    obtain ⟨h1, h30, hc⟩ := hw _ (List.getElem_mem ha)
    obtain ⟨init, last, _, _, hcov⟩ := codingPaths_spec hs hs5 h1 h30 hc
    have ht := (hb.target init last a _).mpr ⟨_, List.getElem?_eq_getElem ha, (hcov init last).mpr ⟨rfl, 0, Nat.two_pow_pos _, rfl⟩, rfl⟩
    unfold targetOf at ht
    obtain ⟨i, _, hd⟩ := Option.bind_eq_some_iff.mp ht
    unfold dataOf cell at hd
    obtain ⟨c, hcell, hm⟩ := Option.bind_eq_some_iff.mp hd
    obtain ⟨row, hrow, hk⟩ := Option.bind_eq_some_iff.mp hcell
    obtain ⟨x, hx, he⟩ := Option.map_eq_some_iff.mp hm
    simp only [Prod.mk.injEq] at he
    refine List.mem_filterMap.mpr ⟨c, List.mem_flatten.mpr ⟨row, List.mem_of_getElem? hrow, List.mem_of_getElem? hk⟩, ?_⟩
    rw [hx, he.1])
  have hfm := List.length_filterMap_le (fun c : Cell => c.2.1) t.flatten
  rw [List.length_range] at hsub
  exact Nat.le_trans hsub (Nat.le_trans hfm (Nat.le_of_eq hlen))

/-- Entering one code never panics. -/
theorem flattenCode_total {s : Nat} (hs : 0 < s) (hs5 : s ≤ 5) {t : Mat} (h : Shape s t) {c : Nat × Nat} (h1 : 1 ≤ c.1)
    (h30 : Fits32 s c) (hc : c.2 < 2 ^ c.1) (a : Nat) :
    ∃ t', flattenCode s t a c = .ok t' ∧ Shape s t' := by
  obtain ⟨init, last, hi, hp, hcov⟩ := codingPaths_spec hs hs5 h1 h30 hc
  obtain ⟨t1, id, w, sh1, hid⟩ := walkCreate_total h h.pos hi
  have ⟨b1, b2⟩ := ceilDiv_bounds (L := c.1) hs
  obtain ⟨t2, e2, sh2, _⟩ := setTargets_spec (a := a % 2 ^ 16) (l := (ceilDiv c.1 s * s - c.1) % 2 ^ 8) (init := init) (f := fun i => last + i) sh1 hid
    (Nat.mod_lt _ (by decide)) (Nat.mod_lt _ (by decide)) (List.range (2 ^ (ceilDiv c.1 s * s - c.1)))
    (fun i hi' => ((hcov init (last + i)).mpr ⟨rfl, i, List.mem_range.mp hi', rfl⟩).1 _ (by simp))
  rw [← setTargets_mod] at e2
  refine ⟨t2, ?_, sh2⟩
  unfold flattenCode
  rw [hp]
  simp only [Res.bind_ok]
  have hcons : ∃ rest, List.range (2 ^ (ceilDiv c.1 s * s - c.1)) = 0 :: rest := by
    have := Nat.two_pow_pos (ceilDiv c.1 s * s - c.1)
    rw [show 2 ^ (ceilDiv c.1 s * s - c.1) = (2 ^ (ceilDiv c.1 s * s - c.1) - 1) + 1 by omega, List.range_succ_eq_map]
    exact ⟨_, rfl⟩
  obtain ⟨rest, hr⟩ := hcons
  rw [hr] at e2 ⊢
  simp only [List.map_cons, Nat.add_zero, List.dropLast_concat, w, Res.bind_ok] at e2 ⊢
  exact e2

theorem flattenCode_built {s : Nat} (hs : 0 < s) (hs5 : s ≤ 5) {t t' : Mat} (h : Shape s t) {done : List (Nat × Nat)}
    (hb : Built s t done) {c : Nat × Nat} (h1 : 1 ≤ c.1) (h30 : Fits32 s c) (hc : c.2 < 2 ^ c.1)
    (ha : done.length < 2 ^ 16) (pf : PrefixFree (done ++ [c])) (hf : flattenCode s t done.length c = .ok t') :
    t.length ≤ t'.length ∧ (t'.length ≤ 256 → Built s t' (done ++ [c])) := by
  obtain ⟨init, last, hi, hp, hcov⟩ := codingPaths_spec hs hs5 h1 h30 hc
  obtain ⟨t1, id, w, sh1, hid⟩ := walkCreate_total h h.pos hi
  have ⟨b1, b2⟩ := ceilDiv_bounds (L := c.1) hs
  obtain ⟨t2, e2, sh2, l2, n2, d2⟩ := setTargets_spec (a := done.length) (l := ceilDiv c.1 s * s - c.1) (init := init) (f := fun i => last + i) sh1 hid ha
    (by omega) (List.range (2 ^ (ceilDiv c.1 s * s - c.1)))
    (fun i hi' => ((hcov init (last + i)).mpr ⟨rfl, i, List.mem_range.mp hi', rfl⟩).1 _ (by simp))
  have hcons : ∃ rest, List.range (2 ^ (ceilDiv c.1 s * s - c.1)) = 0 :: rest := by
    have := Nat.two_pow_pos (ceilDiv c.1 s * s - c.1)
    rw [show 2 ^ (ceilDiv c.1 s * s - c.1) = (2 ^ (ceilDiv c.1 s * s - c.1) - 1) + 1 by omega, List.range_succ_eq_map]
    exact ⟨_, rfl⟩
  have ht2 : t' = t2 := by
    obtain ⟨rest, hr⟩ := hcons
    unfold flattenCode at hf
    rw [hp] at hf
    simp only [Res.bind_ok] at hf
    rw [hr] at e2 hf
    simp only [List.map_cons, Nat.add_zero, List.dropLast_concat, w, Res.bind_ok] at e2 hf
    rw [e2] at hf
    exact (Res.ok.inj hf).symm
  subst ht2
  obtain ⟨ll, rest⟩ := walkCreate_spec h hb.tree (p := []) rfl hi w
  refine ⟨by omega, fun h256 => ?_⟩
  obtain ⟨tr1, r1, d1, m1, k1⟩ := rest (by omega)
  rw [List.nil_append] at r1 k1
  have hrow : ∀ q i, rowAt t' i q = rowAt t1 i q := by
    intro q
    induction q with
    | nil => intro i; rfl
    | cons x xs ih => intro i; rw [rowAt_cons, rowAt_cons, n2]; congr 1; funext j; exact ih j
  have tgt1 : ∀ q k, targetOf t1 q k = targetOf t q k := by
    intro q k
    unfold targetOf
    cases hq : rowAt t 0 q with
    | some i => rw [m1 q i hq]; exact d1 i k
    | none =>
      cases hq1 : rowAt t1 0 q with
      | none => rfl
      | some i =>
        rcases k1 q i hq1 with h' | ⟨h', _⟩
        · rw [hq] at h'; cases h'
        · show dataOf t1 i k = none
          rw [d1]; exact dataOf_ge h'
  have tgt2 : ∀ q k, Covers s (q ++ [k]) c → targetOf t' q k = some (done.length, ceilDiv c.1 s * s - c.1) := by
    intro q k hq
    obtain ⟨rfl, i, hi1, rfl⟩ := (hcov q k).mp hq
    unfold targetOf
    rw [hrow, r1]
    show dataOf t' id (last + i) = _
    rw [d2, if_pos ⟨rfl, List.mem_map.mpr ⟨i, List.mem_range.mpr hi1, rfl⟩⟩]
  have tgt3 : ∀ q k, ¬ Covers s (q ++ [k]) c → targetOf t' q k = targetOf t q k := by
    intro q k hq
    rw [← tgt1]
    unfold targetOf
    rw [hrow]
    cases hr : rowAt t1 0 q with
    | none => rfl
    | some i =>
      show dataOf t' i k = dataOf t1 i k
      rw [d2, if_neg]
      rintro ⟨rfl, hm⟩
      obtain ⟨j, hj, rfl⟩ := List.mem_map.mp hm
      exact hq ((hcov q _).mpr ⟨tr1.inj hr r1, j, List.mem_range.mp hj, rfl⟩)
  refine ⟨⟨fun i k => by rw [n2]; exact tr1.root i k, fun i k i' k' n => by rw [n2, n2]; exact tr1.unique i k i' k' n⟩, ?_, ?_⟩
  · intro q k a l
    by_cases hq : Covers s (q ++ [k]) c
    · rw [tgt2 q k hq]
      constructor
      · intro e
        simp only [Option.some.injEq, Prod.mk.injEq] at e
        obtain ⟨rfl, rfl⟩ := e
        exact ⟨c, by simp, hq, rfl⟩
      · rintro ⟨c', hc', hq', rfl⟩
        have := prefixFree_covers pf hc' (b := done.length) (cb := c) (by simp) hq' hq
        subst this
        simp at hc'; rw [hc']
    · rw [tgt3 q k hq, hb.target]
      constructor
      · rintro ⟨c', hc', hq', rfl⟩
        exact ⟨c', by rw [List.getElem?_append_left (List.getElem?_eq_some_iff.mp hc').1]; exact hc', hq', rfl⟩
      · rintro ⟨c', hc', hq', rfl⟩
        refine ⟨c', ?_, hq', rfl⟩
        by_cases hlt : a < done.length
        · rwa [List.getElem?_append_left hlt] at hc'
        · exfalso
          rw [List.getElem?_append_right (by omega)] at hc'
          have := List.mem_of_getElem? hc'
          rw [List.mem_singleton.mp this] at hq'
          exact hq hq'
  · intro q
    rw [hrow]
    constructor
    · intro hq
      obtain ⟨i, hi'⟩ := Option.isSome_iff_exists.mp hq
      rcases k1 q i hi' with h' | ⟨_, r, hr⟩
      · rcases (hb.rows q).mp (by rw [h']; rfl) with rfl | ⟨c', hc', r, k, hh⟩
        · exact .inl rfl
        · exact .inr ⟨c', by simp [hc'], r, k, hh⟩
      · refine .inr ⟨c, by simp, r, last, ?_⟩
        rw [← hr]
        exact (hcov init last).mpr ⟨rfl, 0, Nat.two_pow_pos _, by simp⟩
    · rintro (rfl | ⟨c', hc', r, k, hh⟩)
      · rfl
      · rcases List.mem_append.mp hc' with hc' | hc'
        · have : (rowAt t 0 q).isSome = true := (hb.rows q).mpr (.inr ⟨c', hc', r, k, hh⟩)
          obtain ⟨i, hi'⟩ := Option.isSome_iff_exists.mp this
          rw [m1 q i hi']; rfl
        · rw [List.mem_singleton.mp hc'] at hh
          obtain ⟨e, _⟩ := (hcov (q ++ r) k).mp hh
          rw [← e, rowAt_append] at r1
          cases hr : rowAt t1 0 q with
          | none => rw [hr] at r1; cases r1
          | some i => rfl

theorem flattenCode_length {s : Nat} (hs : 0 < s) (hs5 : s ≤ 5) {t t' : Mat} (h : Shape s t) {c : Nat × Nat} (h1 : 1 ≤ c.1)
    (h30 : Fits32 s c) (hc : c.2 < 2 ^ c.1) {a : Nat} (hf : flattenCode s t a c = .ok t') : t.length ≤ t'.length := by
  obtain ⟨init, last, hi, hp, hcov⟩ := codingPaths_spec hs hs5 h1 h30 hc
  obtain ⟨t1, id, w, sh1, hid⟩ := walkCreate_total h h.pos hi
  have hset : ∀ (is : List Nat) (f : Nat → Nat) (l : Nat) (t1 : Mat), setTargets id a l t1 (is.map fun i => init ++ [f i]) = .ok t' →
      t1.length = t'.length := by
    intro is f l
    induction is with
    | nil => intro t1 hh; simp only [List.map_nil, setTargets, Res.ok.injEq] at hh; rw [hh]
    | cons x xs ih =>
      intro t1 hh
      simp only [List.map_cons, setTargets, List.getLast?_append, List.getLast?_singleton, Option.some_or] at hh
      unfold setTarget at hh
      split at hh
      · cases hh
      · split at hh
        · cases hh
        · have := ih _ hh
          simpa using this
  have hl := walkCreate_length w
  obtain ⟨rest, hr⟩ : ∃ rest, List.range (2 ^ (ceilDiv c.1 s * s - c.1)) = 0 :: rest := by
    have := Nat.two_pow_pos (ceilDiv c.1 s * s - c.1)
    rw [show 2 ^ (ceilDiv c.1 s * s - c.1) = (2 ^ (ceilDiv c.1 s * s - c.1) - 1) + 1 by omega, List.range_succ_eq_map]
    exact ⟨_, rfl⟩
  unfold flattenCode at hf
  rw [hp] at hf
  simp only [Res.bind_ok] at hf
  have hset' := hset (0 :: rest) (fun i => last + i) (ceilDiv c.1 s * s - c.1) t1
  rw [hr] at hf
  simp only [List.map_cons, Nat.add_zero, List.dropLast_concat, w, Res.bind_ok] at hf hset'
  have := hset' hf
  omega

theorem flattenLoop_total {s : Nat} (hs : 0 < s) (hs5 : s ≤ 5) {todo : List (Nat × Nat)} {t : Mat} {n : Nat} (h : Shape s t)
    (hw : WellFormedAt s todo) : ∃ t', flattenLoop s t n todo = .ok t' ∧ Shape s t' := by
  induction todo generalizing t n with
  | nil => exact ⟨t, rfl, h⟩
  | cons c cs ih =>
    obtain ⟨a1, a2, a3⟩ := hw c (by simp)
    obtain ⟨t1, e1, s1⟩ := flattenCode_total hs hs5 h a1 a2 a3 n
    obtain ⟨t2, e2, s2⟩ := ih (n := n + 1) s1 (fun x hx => hw x (by simp [hx]))
    exact ⟨t2, by unfold flattenLoop; rw [e1]; exact e2, s2⟩

theorem flattenLoop_built {s : Nat} (hs : 0 < s) (hs5 : s ≤ 5) {todo done : List (Nat × Nat)} {t t' : Mat} (h : Shape s t)
    (hw : WellFormedAt s (done ++ todo)) (pf : PrefixFree (done ++ todo))
    (hb : t.length ≤ 256 → Built s t done)
    (hf : flattenLoop s t done.length todo = .ok t') : t.length ≤ t'.length ∧ (t'.length ≤ 256 → Built s t' (done ++ todo)) := by
  induction todo generalizing t done with
  | nil =>
    simp only [flattenLoop, Res.ok.injEq] at hf
    subst hf
    exact ⟨Nat.le_refl _, fun hh => by simpa using hb hh⟩
  | cons c cs ih =>
    obtain ⟨a1, a2, a3⟩ := hw c (by simp)
    obtain ⟨t1, e1, s1⟩ := flattenCode_total hs hs5 h a1 a2 a3 done.length
    unfold flattenLoop at hf
    rw [e1] at hf
    have pf1 : PrefixFree (done ++ [c]) := by
      intro a b ca cb r ha hb'
      refine pf a b ca cb r ?_ ?_
      · rw [show done ++ c :: cs = (done ++ [c]) ++ cs by simp,
          List.getElem?_append_left (List.getElem?_eq_some_iff.mp ha).1]; exact ha
      · rw [show done ++ c :: cs = (done ++ [c]) ++ cs by simp,
          List.getElem?_append_left (List.getElem?_eq_some_iff.mp hb').1]; exact hb'
    have mono : t.length ≤ t1.length := flattenCode_length hs hs5 h a1 a2 a3 e1
    have hb1 : t1.length ≤ 256 → Built s t1 (done ++ [c]) := fun h1 => by
      have hcnt := built_count hs hs5 h (hb (by omega)) (fun x hx => hw x (by simp [hx]))
      have hpow : 2 ^ s ≤ 2 ^ 5 := Nat.pow_le_pow_right (by decide) hs5
      have hmul : t.length * 2 ^ s ≤ 256 * 2 ^ 5 := Nat.mul_le_mul (by omega) hpow
      exact (flattenCode_built hs hs5 h (hb (by omega)) a1 a2 a3 (by omega) pf1 e1).2 h1
    have := ih (done := done ++ [c]) s1 (by simpa using hw) (by simpa using pf) hb1
      (by simpa using hf)
    exact ⟨by omega, by simpa using this.2⟩

theorem flatten_built {codes : List (Nat × Nat)} {sp : Speed} {t : Mat} (hw : WellFormedAt sp.toNat codes)
    (pf : PrefixFree codes) (hf : flatten codes sp = .ok t) (h256 : t.length ≤ 256) : Built sp.toNat t codes := by
  have hs : 0 < sp.toNat := by cases sp <;> decide
  have hs5 : sp.toNat ≤ 5 := by cases sp <;> decide
  have := flattenLoop_built hs hs5 (done := []) (built_nil sp.toNat).1 (by simpa using hw) (by simpa using pf)
    (fun _ => (built_nil sp.toNat).2) (show flattenLoop _ _ ([] : List (Nat × Nat)).length codes = .ok t from hf)
  simpa using this.2 h256

end Verif.Huffman
