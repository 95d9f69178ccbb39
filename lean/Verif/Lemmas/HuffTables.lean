import Verif.Huffman.Decoder
import Verif.Lemmas.HuffCode
import Verif.Lemmas.HuffPaths
/-! The five decoding tables are correct walking tables of the RFC code: whole-table kernel checks, lifted. -/
namespace Verif.Huffman
open Verif.Spec

/-- What the reader needs to know about a table read `s` bits at a time. -/
structure TableOk (s : Nat) (tbl : List (List Cell)) (path : Nat → List Bool) : Prop where
  rows : 0 < tbl.length
  path0 : path 0 = []
  internal : ∀ id, id < tbl.length → NoCode (path id)
  cell : ∀ id, id < tbl.length → ∀ k : List Bool, k.length = s →
    (∃ n, lookup tbl id (bitsVal k) = some (some n, none, 0) ∧ n < tbl.length ∧ path n = path id ++ k) ∨
    (∃ a l, lookup tbl id (bitsVal k) = some (none, some a, l) ∧ a ≤ 256 ∧ l < s ∧
      path id ++ k.take (s - l) = code a)

/-- Path of row `id` as a number pair `(length, value)`. -/
def pathNum (e : Nat × Nat) : Nat × Nat :=
  match ENCODE_TABLE[e.2]? with
  | some (l, c) => (e.1, c / 2 ^ (l - e.1))
  | none => (0, 0)

def pathOf (P : List (Nat × Nat)) (id : Nat) : List Bool :=
  match P[id]? with
  | some e => natBits (pathNum e).1 (pathNum e).2
  | none => []

def cellOkB (s : Nat) (rows : Nat) (P : List (Nat × Nat)) (e : Nat × Nat) (key : Nat) (c : Cell) : Bool :=
  match c with
  | (some n, none, 0) => decide (n < rows) &&
      (match P[n]? with
       | some e' => pathNum e' == (e.1 + s, e.2 * 2 ^ s + key)
       | none => false)
  | (none, some a, l) => decide (a ≤ 256) && decide (l < s) &&
      ENCODE_TABLE[a]? == some (e.1 + (s - l), (e.2 * 2 ^ s + key) / 2 ^ l)
  | _ => false

def cellsOkB (s rows : Nat) (P : List (Nat × Nat)) (e : Nat × Nat) : Nat → List Cell → Bool
  | _, [] => true
  | k, c :: cs => cellOkB s rows P e k c && cellsOkB s rows P e (k + 1) cs

def rowOkB (s rows : Nat) (P : List (Nat × Nat)) (e : Nat × Nat) (row : List Cell) : Bool :=
  (match ENCODE_TABLE[e.2]? with
   | some (l, _) => decide (e.1 < l)
   | none => false) &&
  row.length == 2 ^ s && cellsOkB s rows P (pathNum e) 0 row

def tableOkB (s : Nat) (tbl : List (List Cell)) (P : List (Nat × Nat)) : Bool :=
  decide (0 < tbl.length) && P.length == tbl.length &&
  (match P[0]? with
   | some e => pathNum e == (0, 0)
   | none => false) &&
  (List.zipWith (rowOkB s tbl.length P) P tbl).all id

theorem cellsOkB_get {s rows : Nat} {P : List (Nat × Nat)} {e : Nat × Nat} {cs : List Cell} {k0 : Nat}
    (h : cellsOkB s rows P e k0 cs = true) {k : Nat} (hk : k < cs.length) :
    cellOkB s rows P e (k0 + k) cs[k] = true := by
  induction cs generalizing k0 k with
  | nil => simp at hk
  | cons c cs ih =>
    simp only [cellsOkB, Bool.and_eq_true] at h
    cases k with
    | zero => simpa using h.1
    | succ k =>
      have := ih h.2 (k := k) (by simpa using hk)
      rw [show k0 + 1 + k = k0 + (k + 1) by omega] at this
      simpa using this

theorem pathNum_lt {e : Nat × Nat} {l c : Nat} (h : ENCODE_TABLE[e.2]? = some (l, c)) (hlt : e.1 < l)
    (hc : c < 2 ^ l) : pathNum e = (e.1, c / 2 ^ (l - e.1)) ∧ c / 2 ^ (l - e.1) < 2 ^ e.1 := by
  constructor
  · simp [pathNum, h]
  · rw [Nat.div_lt_iff_lt_mul (Nat.two_pow_pos _), ← Nat.pow_add]
    rwa [show e.1 + (l - e.1) = l by omega]

theorem tableOk_of_check {s : Nat} {tbl : List (List Cell)} {P : List (Nat × Nat)}
    (h : tableOkB s tbl P = true) : TableOk s tbl (pathOf P) := by
  simp only [tableOkB, Bool.and_eq_true, decide_eq_true_eq, beq_iff_eq, List.all_eq_true] at h
  obtain ⟨⟨⟨hrows, hlen⟩, h0⟩, hz⟩ := h
  have hrow : ∀ id (h1 : id < tbl.length), rowOkB s tbl.length P (P[id]'(by omega)) tbl[id] = true := by
    intro id h1
    have hz' : id < (List.zipWith (rowOkB s tbl.length P) P tbl).length := by
      rw [List.length_zipWith]; omega
    have := hz _ (List.getElem_mem hz')
    rwa [List.getElem_zipWith] at this
  have hP : ∀ id (h1 : id < tbl.length), P[id]? = some (P[id]'(by omega)) :=
    fun id h1 => List.getElem?_eq_getElem _
  refine ⟨hrows, ?_, ?_, ?_⟩
  · rw [hP 0 hrows] at h0
    simp only [beq_iff_eq] at h0
    simp [pathOf, hP 0 hrows, h0, natBits]
  · intro id h1 a ha hp
    have := hrow id h1
    simp only [rowOkB, Bool.and_eq_true] at this
    have hw := this.1.1
    generalize hE : P[id]'(by omega) = e at *
    cases hT : ENCODE_TABLE[e.2]? with
    | none => rw [hT] at hw; simp at hw
    | some lc =>
      obtain ⟨l, c⟩ := lc
      rw [hT] at hw
      simp only [decide_eq_true_eq] at hw
      have he2 : e.2 ≤ 256 := by
        have := (List.getElem?_eq_some_iff.mp hT).1
        rw [encTable_length] at this; omega
      obtain ⟨l', c', hT', hcode, hc, _, _⟩ := encTable_entry he2
      rw [hT] at hT'
      simp only [Option.some.injEq, Prod.mk.injEq] at hT'
      obtain ⟨rfl, rfl⟩ := hT'
      obtain ⟨hpn, hplt⟩ := pathNum_lt hT hw hc
      have hpath : pathOf P id = natBits e.1 (c / 2 ^ (l - e.1)) := by simp [pathOf, hP id h1, hE, hpn]
      have hpre : IsPrefix (pathOf P id) (code e.2) := by
        refine ⟨natBits (l - e.1) c, ?_⟩
        rw [hpath, hcode, ← natBits_split]
        congr 1; omega
      have hae := code_prefix_free ha he2 (hp.trans hpre)
      subst hae
      have h2 := hp.length_le
      rw [hcode, hpath] at h2
      simp at h2
      omega
  · intro id h1 k hk
    have := hrow id h1
    simp only [rowOkB, Bool.and_eq_true, beq_iff_eq] at this
    obtain ⟨⟨hw, hrl⟩, hcells⟩ := this
    have hklt : bitsVal k < tbl[id].length := by rw [hrl, ← hk]; exact bitsVal_lt k
    have hcell := cellsOkB_get hcells hklt
    rw [Nat.zero_add] at hcell
    have hlook : lookup tbl id (bitsVal k) = some (tbl[id][bitsVal k]) := by
      simp [lookup, List.getElem?_eq_getElem h1, List.getElem?_eq_getElem hklt]
    have hpathid : pathOf P id = natBits (pathNum (P[id]'(by omega))).1 (pathNum (P[id]'(by omega))).2 := by
      simp [pathOf, hP id h1]
    generalize hE : pathNum (P[id]'(by omega)) = e at *
    have hkv : natBits s (bitsVal k) = k := by rw [← hk]; exact natBits_bitsVal k
    have happ : natBits (e.1 + s) (e.2 * 2 ^ s + bitsVal k) = pathOf P id ++ k := by
      rw [natBits_append _ _ _ _ (by rw [← hk]; exact bitsVal_lt k), hkv, hpathid]
    rw [hlook]
    generalize tbl[id][bitsVal k] = c at *
    match c, hcell with
    | (some n, none, 0), hcell =>
      left
      simp only [cellOkB, Bool.and_eq_true, decide_eq_true_eq] at hcell
      refine ⟨n, rfl, hcell.1, ?_⟩
      have h2 := hcell.2
      rw [hP n hcell.1] at h2
      simp only [beq_iff_eq] at h2
      simp [pathOf, hP n hcell.1, h2, happ]
    | (none, some a, l), hcell =>
      right
      simp only [cellOkB, Bool.and_eq_true, decide_eq_true_eq, beq_iff_eq] at hcell
      obtain ⟨⟨ha, hl⟩, hT⟩ := hcell
      refine ⟨a, l, rfl, ha, hl, ?_⟩
      obtain ⟨l', c', hT', hcode, hc, _, _⟩ := encTable_entry ha
      rw [hT] at hT'
      simp only [Option.some.injEq, Prod.mk.injEq] at hT'
      obtain ⟨rfl, rfl⟩ := hT'
      rw [hcode]
      have hs := natBits_split (e.1 + (s - l)) l (e.2 * 2 ^ s + bitsVal k)
      rw [show e.1 + (s - l) + l = e.1 + s by omega, happ] at hs
      have ht := congrArg (List.take (e.1 + (s - l))) hs
      have hpl : (pathOf P id).length = e.1 := by rw [hpathid]; simp
      rw [List.take_append, hpl, List.take_of_length_le (by rw [hpl]; omega),
        List.take_left' (by simp)] at ht
      rw [← ht]
      congr 2; omega

theorem table1_ok : TableOk 1 DECODE_TABLE1 (pathOf PATHS1) := tableOk_of_check (by decide +kernel)
theorem table2_ok : TableOk 2 DECODE_TABLE2 (pathOf PATHS2) := tableOk_of_check (by decide +kernel)
theorem table3_ok : TableOk 3 DECODE_TABLE3 (pathOf PATHS3) := tableOk_of_check (by decide +kernel)
theorem table4_ok : TableOk 4 DECODE_TABLE4 (pathOf PATHS4) := tableOk_of_check (by decide +kernel)
theorem table5_ok : TableOk 5 DECODE_TABLE5 (pathOf PATHS5) := tableOk_of_check (by decide +kernel)

theorem speed_tableOk (sp : Speed) : ∃ path, TableOk sp.toNat (tableOf sp.toNat) path := by
  cases sp
  · exact ⟨_, table1_ok⟩
  · exact ⟨_, table2_ok⟩
  · exact ⟨_, table3_ok⟩
  · exact ⟨_, table4_ok⟩
  · exact ⟨_, table5_ok⟩

end Verif.Huffman
