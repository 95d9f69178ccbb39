import Verif.Props.HpackSecrets
/-! Property theorem C138: a stored value is learned from the output only by guessing it completely (RFC 7541 7.1). -/
namespace Verif.Props
open Verif Verif.Spec Verif.Hpack

/-- What a literal does to the table. -/
def litEffect (t : SpecTable) (f : UInt8) (n v : Octets) : SpecTable := if f.toNat.testBit 2 then t.insert (n, v) else t

/-- What a call does to the table, whatever it returns. -/
def opEffect (t : SpecTable) : SessionOp → SpecTable
  | .header (.Indexed _) => t
  | .header (.IndexedName i v f) =>
    match t.addr i.toNat with
    | none => t
    | some e => litEffect t f e.1 v
  | .header (.Literal n v f) => if f.toNat.testBit 4 = true ∧ (n, v) ∈ rfcStatic ++ t.entries then t else litEffect t f n v
  | .resize n => t.resize n.toNat

theorem lit_eq (t : SpecTable) (f : UInt8) (n v : Octets) : SpecTable.lit t (flagMode f) n v = litEffect t f n v := by
  unfold SpecTable.lit litEffect flagMode
  cases f.toNat.testBit 2 <;> cases f.toNat.testBit 3 <;> rfl

theorem mem_all_of_addr {t : Table} {j : Nat} {e : Entry} (h : t.spec.addr j = some e) : e ∈ rfcStatic ++ t.spec.entries := by
  cases j with
  | zero => simp [SpecTable.addr] at h
  | succ j => rw [addr_eq_all] at h; exact List.mem_of_getElem? h

theorem addr_of_mem_all {t : Table} {e : Entry} (h : e ∈ rfcStatic ++ t.spec.entries) : ∃ j, t.spec.addr j = some e := by
  obtain ⟨j, hj⟩ := List.mem_iff_getElem?.mp h
  exact ⟨j + 1, by rw [addr_eq_all]; exact hj⟩

theorem encode_effect (s : EncoderState) (hwf : s.table.WF) (input : EncoderInput) :
    (encode input s).2.table.WF ∧ (encode input s).2.table.spec = opEffect s.table.spec (.header input) := by
  obtain ⟨rep, hc⟩ := Chosen.exists s.table hwf input
  have h := encode_spec s hwf input rep 0 hc
  have key : ∀ st : SpecTable, (match rep.apply 0 s.table.spec with | none => s.table.spec | some (_, st) => st) = st →
      (encode input s).2.table.WF ∧ (encode input s).2.table.spec = st := by
    rintro st rfl
    cases ha : rep.apply 0 s.table.spec with
    | none => rw [ha] at h; simp only at h; rw [h]; exact ⟨hwf, rfl⟩
    | some x =>
      rw [ha] at h
      simp only at h ⊢
      by_cases hf : RepFits (2 ^ 32) (huffName input) (huffValue input) rep
      · obtain ⟨bs, t', w, e, he, _⟩ := h.1 hf
        rw [he]; exact ⟨w, e⟩
      · obtain ⟨bs, t', w, e, he, _⟩ := h.2 hf
        rw [he]; exact ⟨w, e⟩
  apply key
  have litc : ∀ (m : Indexing) (nm : NameRef) (v n : Octets), nm.resolve s.table.spec = some n →
      (match (Rep.literal m nm v).apply 0 s.table.spec with | none => s.table.spec | some (_, st) => st) =
        SpecTable.lit s.table.spec m n v := by
    intro m nm v n hn
    simp only [Rep.apply, hn, SpecTable.lit]
  cases hc with
  | indexed i =>
    simp only [Rep.apply, opEffect]
    cases s.table.spec.addr i.toNat <;> rfl
  | indexedName i v f =>
    simp only [opEffect]
    cases ha : s.table.spec.addr i.toNat with
    | none => simp [Rep.apply, NameRef.resolve, ha]
    | some e => rw [litc _ _ _ e.1 (by simp [NameRef.resolve, ha]), lit_eq]
  | literal n v f hf =>
    rw [litc _ _ _ n rfl, lit_eq]
    simp [opEffect, hf]
  | bestFull n v f hf i hl =>
    obtain ⟨⟨e, he, rfl⟩, _⟩ := hl
    simp only [Rep.apply, he, opEffect]
    rw [if_pos ⟨hf, mem_all_of_addr he⟩]
  | bestName n v f hf hn i hl =>
    obtain ⟨⟨e, he, h1⟩, _⟩ := hl
    rw [litc _ _ _ n (by simp [NameRef.resolve, he, h1]), lit_eq]
    simp only [opEffect]
    rw [if_neg fun hc => ?_]
    obtain ⟨j, hj⟩ := addr_of_mem_all hc.2
    exact hn j hj
  | bestNew n v f hf hn =>
    rw [litc _ _ _ n rfl, lit_eq]
    simp only [opEffect]
    rw [if_neg fun hc => ?_]
    obtain ⟨j, hj⟩ := addr_of_mem_all hc.2
    exact hn j _ hj rfl

theorem op_effect (op : SessionOp) (t : Table) (hwf : t.WF) (d : Bytes) :
    (encOp op { table := t, dst := d }).2.table.WF ∧ (encOp op { table := t, dst := d }).2.table.spec = opEffect t.spec op := by
  cases op with
  | header input => exact encode_effect _ hwf input
  | resize n =>
    obtain ⟨bs, t', w, e, he, _⟩ := encUpdate_spec { table := t, dst := d } hwf n
    show (encUpdateMaxDynamicSize n { table := t, dst := d }).2.table.WF ∧ _ = _
    rw [show encOp (.resize n) = encUpdateMaxDynamicSize n from rfl, he]
    exact ⟨w, e⟩

theorem blind_rest (v : Bytes) (n : Bytes) (i : UInt32) (f : UInt8) : Blind (do
    (if f &&& 0x4 = 0x4 then do
      encInsert n v
      pushBytes (encodeInteger i 0x40 6)
    else if f &&& 0x8 = 0x8 then pushBytes (encodeInteger i 0x10 4)
    else pushBytes (encodeInteger i 0x0 4))
    pushBytes (encodeString v (f &&& 0x2 = 0x2))) :=
  .bind (.ite _ (.bind (.insert _ _) fun _ => .pushBytes _) (.ite _ (.pushBytes _) (.pushBytes _))) fun _ => .pushBytes _

theorem blind_literal (n v : Bytes) (f : UInt8) : Blind (encodeLiteral n v f) :=
  .bind (.ite _ (.bind (.push _) fun _ => .insert _ _) (.ite _ (.push _) (.push _)))
    fun _ => .bind (.pushBytes _) fun _ => .pushBytes _

theorem same_indexed {t1 t2 : Table} (w1 : t1.WF) (w2 : t2.WF) (d : Bytes) (i : UInt32)
    (hget : (t1.get i).map Prod.fst = (t2.get i).map Prod.fst) :
    (encodeIndexed i { table := t1, dst := d }).1 = (encodeIndexed i { table := t2, dst := d }).1 ∧
      (encodeIndexed i { table := t1, dst := d }).2.dst = (encodeIndexed i { table := t2, dst := d }).2.dst := by
  unfold encodeIndexed
  simp only [M.bind_apply, M.get_apply]
  cases h1 : t1.get i <;> cases h2 : t2.get i <;> rw [h1, h2] at hget <;> simp at hget
  · exact ⟨rfl, rfl⟩
  · simp only
    have := Blind.pushBytes (encodeInteger i 0x80 7) { table := t1, dst := d } { table := t2, dst := d } rfl w1 w2
    exact ⟨this.1, this.2.1⟩

theorem same_indexedName {t1 t2 : Table} (w1 : t1.WF) (w2 : t2.WF) (d : Bytes) (i : UInt32) (v : Bytes) (f : UInt8)
    (hget : (t1.get i).map Prod.fst = (t2.get i).map Prod.fst) :
    (encodeIndexedName i v f { table := t1, dst := d }).1 = (encodeIndexedName i v f { table := t2, dst := d }).1 ∧
      (encodeIndexedName i v f { table := t1, dst := d }).2.dst = (encodeIndexedName i v f { table := t2, dst := d }).2.dst := by
  unfold encodeIndexedName
  rw [M.bind_apply, M.bind_apply]
  simp only [M.get_apply]
  cases h1 : t1.get i <;> cases h2 : t2.get i <;> rw [h1, h2] at hget <;> simp at hget
  · exact ⟨rfl, rfl⟩
  · rename_i e1 e2
    simp only
    rw [hget]
    have := blind_rest v e2.1 i f { table := t1, dst := d } { table := t2, dst := d } rfl w1 w2
    exact ⟨this.1, this.2.1⟩

/-- Tables with the same names at all addresses in which a search comes to the same place give the same result and the same octets. -/
theorem op_same {t1 t2 : Table} (w1 : t1.WF) (w2 : t2.WF) (d : Bytes) (op : SessionOp)
    (hget : ∀ i, (t1.get i).map Prod.fst = (t2.get i).map Prod.fst)
    (hfind : ∀ n v f, op = .header (.Literal n v f) → t1.find n v = t2.find n v) :
    (encOp op { table := t1, dst := d }).1 = (encOp op { table := t2, dst := d }).1 ∧
      (encOp op { table := t1, dst := d }).2.dst = (encOp op { table := t2, dst := d }).2.dst := by
  cases op with
  | resize n =>
    show (encUpdateMaxDynamicSize n _).1 = (encUpdateMaxDynamicSize n _).1 ∧ (encUpdateMaxDynamicSize n _).2.dst = (encUpdateMaxDynamicSize n _).2.dst
    obtain ⟨u1, hu1, _⟩ := Table.resize_spec (ε := EncoderError) t1 w1 n
    obtain ⟨u2, hu2, _⟩ := Table.resize_spec (ε := EncoderError) t2 w2 n
    simp only [encUpdateMaxDynamicSize, M.bind_apply, M.get_apply, M.lift_apply, hu1, hu2, M.modify_apply]
    cases encodeInteger n 0x20 5 <;> exact ⟨rfl, rfl⟩
  | header input =>
    show (encode input _).1 = (encode input _).1 ∧ (encode input _).2.dst = (encode input _).2.dst
    cases input with
    | Indexed i => exact same_indexed w1 w2 d i (hget i)
    | IndexedName i v f => exact same_indexedName w1 w2 d i v f (hget i)
    | Literal n v f =>
      simp only [encode]
      by_cases hf : f &&& 0x10 = 0x10
      · rw [if_pos hf, M.bind_apply, M.bind_apply]
        simp only [M.get_apply]
        rw [hfind n v f rfl]
        cases t2.find n v with
        | none => exact ⟨rfl, rfl⟩
        | some r =>
          cases r with
          | none =>
            have := blind_literal n v f { table := t1, dst := d } { table := t2, dst := d } rfl w1 w2
            exact ⟨this.1, this.2.1⟩
          | some x =>
            obtain ⟨i, b⟩ := x
            cases b with
            | true => exact same_indexed w1 w2 d _ (hget _)
            | false => exact same_indexedName w1 w2 d _ v f (hget _)
      · rw [if_neg hf]
        have := blind_literal n v f { table := t1, dst := d } { table := t2, dst := d } rfl w1 w2
        exact ⟨this.1, this.2.1⟩

/-! ### Renaming -/

/-- A renaming of headers that keeps names and lengths, takes different headers to different headers and leaves the static table alone. -/
structure Renaming (σ : Octets × Octets → Octets × Octets) : Prop where
  name : ∀ e, (σ e).1 = e.1
  length : ∀ e, (σ e).2.length = e.2.length
  inj : ∀ a b, σ a = σ b → a = b
  static : ∀ e ∈ rfcStatic, σ e = e

variable {σ : Octets × Octets → Octets × Octets}

theorem Renaming.size (h : Renaming σ) (e : Octets × Octets) : entrySize (σ e) = entrySize e := by
  simp only [entrySize, h.name, h.length]

theorem Renaming.pair (h : Renaming σ) (n v : Octets) : (n, (σ (n, v)).2) = σ (n, v) := Prod.ext (h.name (n, v)).symm rfl

theorem Renaming.keep (h : Renaming σ) (l : List (Octets × Octets)) : ∀ m, keepFitting m (l.map σ) = (keepFitting m l).map σ := by
  induction l with
  | nil => intro m; rfl
  | cons e l ih =>
    intro m
    simp only [List.map_cons, keepFitting, h.size]
    split
    · rw [ih]; rfl
    · rfl

theorem Renaming.map_static (h : Renaming σ) : rfcStatic.map σ = rfcStatic := by
  have : ∀ l : List (Octets × Octets), (∀ e ∈ l, σ e = e) → l.map σ = l := by
    intro l hl
    induction l with
    | nil => rfl
    | cons e l ih => rw [List.map_cons, hl e (by simp), ih fun e' he' => hl e' (by simp [he'])]
  exact this _ h.static

/-- The renamed table. -/
def renameTable (σ : Octets × Octets → Octets × Octets) (t : SpecTable) : SpecTable := ⟨t.entries.map σ, t.max⟩

theorem Renaming.addr (h : Renaming σ) (t : SpecTable) (i : Nat) : (renameTable σ t).addr i = (t.addr i).map σ := by
  unfold SpecTable.addr renameTable
  split
  · rfl
  · split
    · cases hi : rfcStatic[i - 1]? with
      | none => rfl
      | some e => rw [Option.map_some, h.static e (List.mem_of_getElem? hi)]
    · simp

theorem Renaming.insert (h : Renaming σ) (t : SpecTable) (e : Octets × Octets) : renameTable σ (t.insert e) = (renameTable σ t).insert (σ e) := by
  unfold SpecTable.insert renameTable
  simp only [h.size]
  split
  · simp [h.keep]
  · rfl

theorem Renaming.litEffect (h : Renaming σ) (t : SpecTable) (f : UInt8) (n v : Octets) :
    renameTable σ (litEffect t f n v) = Verif.Props.litEffect (renameTable σ t) f n (σ (n, v)).2 := by
  unfold Verif.Props.litEffect
  split
  · rw [h.insert, h.pair]
  · rfl

theorem Renaming.mem (h : Renaming σ) (t : SpecTable) (e : Octets × Octets) :
    σ e ∈ rfcStatic ++ (renameTable σ t).entries ↔ e ∈ rfcStatic ++ t.entries := by
  show σ e ∈ rfcStatic ++ t.entries.map σ ↔ _
  conv => lhs; rw [← h.map_static, ← List.map_append]
  constructor
  · intro he
    obtain ⟨e', he', hs⟩ := List.mem_map.mp he
    rw [← h.inj _ _ hs]; exact he'
  · exact fun he => List.mem_map.mpr ⟨e, he, rfl⟩

theorem Renaming.findLoop (h : Renaming σ) (n v : Octets) (l : List (Octets × Octets)) : ∀ (i : Nat) (nm : Option Nat),
    Hpack.findLoop n (σ (n, v)).2 i nm (l.map σ) = Hpack.findLoop n v i nm l := by
  induction l with
  | nil => intro i nm; rfl
  | cons e l ih =>
    intro i nm
    simp only [List.map_cons, Hpack.findLoop, h.name e, ih]
    by_cases hn : n = e.1
    · have hv : (σ (n, v)).2 = (σ e).2 ↔ v = e.2 := by
        constructor
        · intro he
          have : σ (n, v) = σ e := Prod.ext (by rw [h.name, h.name]; exact hn) he
          exact congrArg Prod.snd (h.inj _ _ this)
        · rintro rfl; subst hn; rfl
      simp only [if_pos hn, hv]
    · simp only [if_neg hn]

/-- The two histories: calls that are the same in both and that mention only headers the renaming leaves alone, and headers that are
renamed. -/
inductive Renamed (σ : Octets × Octets → Octets × Octets) : SessionOp → SessionOp → Prop where
  | indexed (i : UInt32) : Renamed σ (.header (.Indexed i)) (.header (.Indexed i))
  | indexedName (i : UInt32) (v : Octets) (f : UInt8) (h : ∀ n, σ (n, v) = (n, v)) :
      Renamed σ (.header (.IndexedName i v f)) (.header (.IndexedName i v f))
  | literal (n v : Octets) (f : UInt8) : Renamed σ (.header (.Literal n v f)) (.header (.Literal n (σ (n, v)).2 f))
  | resize (m : UInt32) : Renamed σ (.resize m) (.resize m)

theorem Renaming.opEffect (h : Renaming σ) {op1 op2 : SessionOp} (hop : Renamed σ op1 op2) (t : SpecTable) :
    opEffect (renameTable σ t) op2 = renameTable σ (Verif.Props.opEffect t op1) := by
  cases hop with
  | indexed i => rfl
  | indexedName i v f hv =>
    simp only [Verif.Props.opEffect, h.addr]
    cases t.addr i.toNat with
    | none => rfl
    | some e => simp only [Option.map_some, h.litEffect, hv, h.name]
  | literal n v f =>
    have hm := h.mem t (n, v)
    rw [← h.pair] at hm
    simp only [Verif.Props.opEffect, hm]
    split
    · rfl
    · rw [h.litEffect]
  | resize m =>
    show SpecTable.mk (keepFitting m.toNat (t.entries.map σ)) m.toNat = SpecTable.mk ((keepFitting m.toNat t.entries).map σ) m.toNat
    rw [h.keep]

theorem Renaming.get (h : Renaming σ) {t1 t2 : Table} (hr : t2.spec = renameTable σ t1.spec) (i : UInt32) :
    (t1.get i).map Prod.fst = (t2.get i).map Prod.fst := by
  rw [Table.get_spec, Table.get_spec, hr, h.addr]
  cases t1.spec.addr i.toNat with
  | none => rfl
  | some e => simp [h.name]

theorem Renaming.find (h : Renaming σ) {t1 t2 : Table} (w1 : t1.WF) (w2 : t2.WF) (hr : t2.spec = renameTable σ t1.spec) (n v : Octets) :
    t2.find n (σ (n, v)).2 = t1.find n v := by
  have e : t2.all = t1.all.map σ := by
    have : t2.dynamic.inner = t1.dynamic.inner.map σ := congrArg SpecTable.entries hr
    rw [Table.all, Table.all, List.map_append, h.map_static, this]
  simp only [Table.find, Table.iter_spec t1 w1, Table.iter_spec t2 w2, Option.map_some, e, h.findLoop]

theorem Renamed.value {x y : SessionOp} (h : Renamed σ x y) {n v v' : Octets} {f : UInt8} (hx : x = .header (.Literal n v f))
    (hy : y = .header (.Literal n v' f)) : v' = (σ (n, v)).2 := by
  cases h with
  | literal a b c => cases hx; simp only [SessionOp.header.injEq, EncoderInput.Literal.injEq] at hy; exact hy.2.1.symm
  | _ => cases hx

/-- Call by call. -/
inductive RenamedAll (σ : Octets × Octets → Octets × Octets) : List SessionOp → List SessionOp → Prop where
  | nil : RenamedAll σ [] []
  | cons {x y : SessionOp} {a b : List SessionOp} (h : Renamed σ x y) (hs : RenamedAll σ a b) : RenamedAll σ (x :: a) (y :: b)

/-- C138. Symmetry under renaming: rename headers, keeping their names and lengths, in the table and in a history. The calls that are the
same in both histories return the same and write the same octets, and the tables stay renamings of one another. -/
theorem C138_renaming (h : Renaming σ) {ops1 ops2 : List SessionOp} (hr : RenamedAll σ ops1 ops2) (t1 t2 : Table) (w1 : t1.WF) (w2 : t2.WF)
    (ht : t2.spec = renameTable σ t1.spec) :
    (encEach ops2 t2).2.spec = renameTable σ (encEach ops1 t1).2.spec ∧
      ∀ (k : Nat) (op : SessionOp), ops1[k]? = some op → ops2[k]? = some op → (encEach ops1 t1).1[k]? = (encEach ops2 t2).1[k]? := by
  induction hr generalizing t1 t2 with
  | nil => exact ⟨ht, fun _ _ _ _ => rfl⟩
  | @cons x y a b hxy hs ih =>
    obtain ⟨v1, e1⟩ := op_effect x t1 w1 []
    obtain ⟨v2, e2⟩ := op_effect y t2 w2 []
    have hrec := ih _ _ v1 v2 (by rw [e2, e1, ht, h.opEffect hxy])
    refine ⟨hrec.1, fun k op h1 h2 => ?_⟩
    cases k with
    | succ k => exact hrec.2 k op h1 h2
    | zero =>
      have ex : x = op := by simpa using h1
      have ey : y = op := by simpa using h2
      subst ex; subst ey
      have hs := op_same w1 w2 [] y (h.get ht) (by
        rintro n v f rfl
        have hv : (σ (n, v)).2 = v := (hxy.value rfl rfl).symm
        have := h.find w1 w2 ht n v
        rw [hv] at this
        exact this.symm)
      show some ((encOp y { table := t1, dst := [] }).1, (encOp y { table := t1, dst := [] }).2.dst) =
        some ((encOp y { table := t2, dst := [] }).1, (encOp y { table := t2, dst := [] }).2.dst)
      rw [hs.1, hs.2]

/-! ### Two secrets -/

/-- The call does not mention the header `(n, s)`. -/
def NoGuess (n s : Octets) : SessionOp → Prop
  | .header (.Literal n' v _) => (n', v) ≠ (n, s)
  | .header (.IndexedName _ v _) => v ≠ s
  | _ => True

/-- Two histories that are the same but for one stored header: it has the value `s1` in the first and `s2` in the second, and no other
call mentions it with one of these values. -/
inductive SameButValue (n s1 s2 : Octets) : List SessionOp → List SessionOp → Prop where
  | nil : SameButValue n s1 s2 [] []
  | open_ {op : SessionOp} (h1 : NoGuess n s1 op) (h2 : NoGuess n s2 op) {a b : List SessionOp} (h : SameButValue n s1 s2 a b) :
      SameButValue n s1 s2 (op :: a) (op :: b)
  | secret (f : UInt8) {a b : List SessionOp} (h : SameButValue n s1 s2 a b) :
      SameButValue n s1 s2 (.header (.Literal n s1 f) :: a) (.header (.Literal n s2 f) :: b)

/-- The renaming that swaps the two values. -/
def swapValue (n s1 s2 : Octets) (e : Octets × Octets) : Octets × Octets :=
  if e = (n, s1) then (n, s2) else if e = (n, s2) then (n, s1) else e

theorem swapValue_renaming {n s1 s2 : Octets} (hl : s1.length = s2.length) (h1 : (n, s1) ∉ rfcStatic) (h2 : (n, s2) ∉ rfcStatic) :
    Renaming (swapValue n s1 s2) := by
  refine ⟨fun e => ?_, fun e => ?_, fun a b h => ?_, fun e he => ?_⟩
  · unfold swapValue
    split
    · rename_i h; rw [h]
    · split
      · rename_i h; rw [h]
      · rfl
  · unfold swapValue
    split
    · rename_i h; rw [h, hl]
    · split
      · rename_i h; rw [h, hl]
      · rfl
  · unfold swapValue at h
    grind
  · unfold swapValue
    rw [if_neg (fun h : e = (n, s1) => h1 (h ▸ he)), if_neg (fun h : e = (n, s2) => h2 (h ▸ he))]

theorem swapValue_fix {n s1 s2 : Octets} {e : Octets × Octets} (h1 : e ≠ (n, s1)) (h2 : e ≠ (n, s2)) : swapValue n s1 s2 e = e := by
  unfold swapValue; rw [if_neg h1, if_neg h2]

theorem SameButValue.renamed {n s1 s2 : Octets} {a b : List SessionOp} (h : SameButValue n s1 s2 a b) :
    RenamedAll (swapValue n s1 s2) a b := by
  induction h with
  | nil => exact .nil
  | @open_ op h1 h2 a b h ih =>
    refine .cons ?_ ih
    cases op with
    | resize m => exact .resize m
    | header input =>
      cases input with
      | Indexed i => exact .indexed i
      | IndexedName i v f =>
        exact .indexedName i v f fun n' => swapValue_fix (fun h => h1 (congrArg Prod.snd h)) (fun h => h2 (congrArg Prod.snd h))
      | Literal n' v f =>
        have := Renamed.literal (σ := swapValue n s1 s2) n' v f
        rw [swapValue_fix h1 h2] at this
        exact this
  | secret f h ih =>
    refine .cons ?_ ih
    have := Renamed.literal (σ := swapValue n s1 s2) n s1 f
    rw [show swapValue n s1 s2 (n, s1) = (n, s2) by unfold swapValue; rw [if_pos rfl]] at this
    exact this

theorem rename_fix {n s1 s2 : Octets} {t : SpecTable} (h1 : (n, s1) ∉ t.entries) (h2 : (n, s2) ∉ t.entries) :
    t = renameTable (swapValue n s1 s2) t := by
  have : ∀ l : List (Octets × Octets), (n, s1) ∉ l → (n, s2) ∉ l → l.map (swapValue n s1 s2) = l := by
    intro l h1 h2
    induction l with
    | nil => rfl
    | cons e l ih =>
      simp only [List.mem_cons, not_or] at h1 h2
      rw [List.map_cons, ih h1.2 h2.2, swapValue_fix (Ne.symm h1.1) (Ne.symm h2.1)]
  show t = ⟨_, _⟩
  rw [this _ h1 h2]

/-- C138. A value is learned only by guessing it completely: put a header with one value or with another value of the same length into a
history, as often as wanted and with any flags. All the calls that mention neither value return the same and write the same octets in both
cases, whatever they have in common with the values: a longer common prefix does not make the output shorter. -/
theorem C138_guess_completely {n s1 s2 : Octets} (hl : s1.length = s2.length) (h1 : (n, s1) ∉ rfcStatic) (h2 : (n, s2) ∉ rfcStatic)
    {ops1 ops2 : List SessionOp} (h : SameButValue n s1 s2 ops1 ops2) (t : Table) (hwf : t.WF) (ht1 : (n, s1) ∉ t.spec.entries)
    (ht2 : (n, s2) ∉ t.spec.entries) (k : Nat) (op : SessionOp) (hk1 : ops1[k]? = some op) (hk2 : ops2[k]? = some op) :
    (encEach ops1 t).1[k]? = (encEach ops2 t).1[k]? :=
  (C138_renaming (swapValue_renaming hl h1 h2) h.renamed t t hwf hwf (rename_fix ht1 ht2)).2 k op hk1 hk2

/-! ### Lengths -/

/-- The same result, and outputs of the same length, from any two states with outputs of the same length. -/
def SameLen {α : Type} (x y : M EncoderState EncoderError α) : Prop :=
  ∀ s1 s2 : EncoderState, s1.dst.length = s2.dst.length → s1.table.WF → s2.table.WF →
    (x s1).1 = (y s2).1 ∧ (x s1).2.dst.length = (y s2).2.dst.length ∧ (x s1).2.table.WF ∧ (y s2).2.table.WF

theorem SameLen.bind {α β : Type} {x y : M EncoderState EncoderError α} {f g : α → M EncoderState EncoderError β} (h : SameLen x y)
    (hf : ∀ a, SameLen (f a) (g a)) : SameLen (x >>= f) (y >>= g) := by
  intro s1 s2 h0 w1 w2
  have h1 := h s1 s2 h0 w1 w2
  rw [M.bind_apply, M.bind_apply]
  cases hx : x s1 with
  | mk r u1 =>
    cases hy : y s2 with
    | mk r' u2 =>
      rw [hx, hy] at h1
      obtain ⟨e1, e2, e3, e4⟩ := h1
      simp only at e1 e2 e3 e4
      subst e1
      cases r with
      | ok a => exact hf a u1 u2 e2 e3 e4
      | err e => exact ⟨rfl, e2, e3, e4⟩
      | panic => exact ⟨rfl, e2, e3, e4⟩
      | hang => exact ⟨rfl, e2, e3, e4⟩

theorem SameLen.pushBytes (r : Res EncoderError Bytes) : SameLen (pushBytes r) (Hpack.pushBytes r) := by
  intro s1 s2 h w1 w2
  cases r with
  | ok b => exact ⟨rfl, by simp [pushBytes_ok, h], w1, w2⟩
  | err e => exact ⟨rfl, h, w1, w2⟩
  | panic => exact ⟨rfl, h, w1, w2⟩
  | hang => exact ⟨rfl, h, w1, w2⟩

theorem SameLen.pushString {v1 v2 : Bytes} (hv : v1.length = v2.length) :
    SameLen (Hpack.pushBytes (encodeString v1 false)) (Hpack.pushBytes (encodeString v2 false)) := by
  intro s1 s2 h w1 w2
  have e : ∀ v : Bytes, encodeString v false = (if v.length > 2 ^ 32 - 1 then Res.err EncoderError.IntegerOverflow
      else (encodeInteger (UInt32.ofNat v.length) 0 7 >>= fun b => Res.ok (b ++ v))) := fun _ => rfl
  rw [e, e, hv]
  split
  · exact ⟨rfl, h, w1, w2⟩
  · cases encodeInteger (UInt32.ofNat v2.length) 0 7 with
    | ok b => exact ⟨rfl, by show (s1.dst ++ (b ++ v1)).length = (s2.dst ++ (b ++ v2)).length; simp [h, hv], w1, w2⟩
    | err e => exact ⟨rfl, h, w1, w2⟩
    | panic => exact ⟨rfl, h, w1, w2⟩
    | hang => exact ⟨rfl, h, w1, w2⟩

theorem SameLen.push (b : Bytes) : SameLen (M.modify fun s => { s with dst := s.dst ++ b } : M EncoderState EncoderError Unit)
    (M.modify fun s => { s with dst := s.dst ++ b }) :=
  fun s1 s2 h w1 w2 => ⟨rfl, by show (s1.dst ++ b).length = (s2.dst ++ b).length; simp [h], w1, w2⟩

theorem SameLen.insert (n v n' v' : Bytes) : SameLen (encInsert n v) (encInsert n' v') := by
  intro s1 s2 h w1 w2
  obtain ⟨u1, hu1, v1, _⟩ := Table.insert_spec (ε := EncoderError) s1.table w1 n v
  obtain ⟨u2, hu2, v2, _⟩ := Table.insert_spec (ε := EncoderError) s2.table w2 n' v'
  have e : ∀ (s : EncoderState) (u : Table) (n v : Bytes), s.table.insert (ε := EncoderError) n v = .ok u →
      encInsert n v s = (.ok (), { s with table := u }) := by
    intro s u n v hu
    show (M.lift (s.table.insert n v) >>= fun t => M.modify fun s => { s with table := t } : M EncoderState EncoderError Unit) s = _
    rw [hu]; rfl
  rw [e s1 u1 n v hu1, e s2 u2 n' v' hu2]
  exact ⟨rfl, h, v1, v2⟩

theorem SameLen.ite {α : Type} (c : Prop) [Decidable c] {x y x' y' : M EncoderState EncoderError α} (hx : SameLen x x') (hy : SameLen y y') :
    SameLen (if c then x else y) (if c then x' else y') := by
  split <;> assumption

theorem flag2_false {f : UInt8} (h : f.toNat.testBit 1 = false) : decide (f &&& 0x2 = 0x2) = false := by
  rw [flag2_iff, h]

theorem sameLen_literal (n : Bytes) {v1 v2 : Bytes} (hv : v1.length = v2.length) {f : UInt8} (hf : f.toNat.testBit 1 = false) :
    SameLen (encodeLiteral n v1 f) (encodeLiteral n v2 f) := by
  unfold encodeLiteral
  rw [flag2_false hf]
  exact .bind (.ite _ (.bind (.push _) fun _ => .insert _ _ _ _) (.ite _ (.push _) (.push _)))
    fun _ => .bind (.pushBytes _) fun _ => .pushString hv

theorem sameLen_indexedName {t1 t2 : Table} (w1 : t1.WF) (w2 : t2.WF) (d : Bytes) (i : UInt32) {v1 v2 : Bytes} (hv : v1.length = v2.length)
    {f : UInt8} (hf : f.toNat.testBit 1 = false) (hget : (t1.get i).map Prod.fst = (t2.get i).map Prod.fst) :
    (encodeIndexedName i v1 f { table := t1, dst := d }).1 = (encodeIndexedName i v2 f { table := t2, dst := d }).1 ∧
      (encodeIndexedName i v1 f { table := t1, dst := d }).2.dst.length = (encodeIndexedName i v2 f { table := t2, dst := d }).2.dst.length := by
  unfold encodeIndexedName
  rw [M.bind_apply, M.bind_apply]
  simp only [M.get_apply]
  cases h1 : t1.get i <;> cases h2 : t2.get i <;> rw [h1, h2] at hget <;> simp at hget
  · exact ⟨rfl, rfl⟩
  · rename_i e1 e2
    simp only
    rw [flag2_false hf]
    have hb : SameLen (do
        (if f &&& 0x4 = 0x4 then do
          encInsert e1.1 v1
          Hpack.pushBytes (encodeInteger i 0x40 6)
        else if f &&& 0x8 = 0x8 then Hpack.pushBytes (encodeInteger i 0x10 4)
        else Hpack.pushBytes (encodeInteger i 0x0 4))
        Hpack.pushBytes (encodeString v1 false)) (do
        (if f &&& 0x4 = 0x4 then do
          encInsert e2.1 v2
          Hpack.pushBytes (encodeInteger i 0x40 6)
        else if f &&& 0x8 = 0x8 then Hpack.pushBytes (encodeInteger i 0x10 4)
        else Hpack.pushBytes (encodeInteger i 0x0 4))
        Hpack.pushBytes (encodeString v2 false)) :=
      .bind (.ite _ (.bind (.insert _ _ _ _) fun _ => .pushBytes _) (.ite _ (.pushBytes _) (.pushBytes _))) fun _ => .pushString hv
    have := hb { table := t1, dst := d } { table := t2, dst := d } rfl w1 w2
    exact ⟨this.1, this.2.1⟩

theorem sameLen_encode {t1 t2 : Table} (w1 : t1.WF) (w2 : t2.WF) (d : Bytes) (n : Bytes) {v1 v2 : Bytes} (hv : v1.length = v2.length)
    {f : UInt8} (hf : f.toNat.testBit 1 = false) (hget : ∀ i, (t1.get i).map Prod.fst = (t2.get i).map Prod.fst)
    (hfind : t1.find n v1 = t2.find n v2) :
    (encode (.Literal n v1 f) { table := t1, dst := d }).1 = (encode (.Literal n v2 f) { table := t2, dst := d }).1 ∧
      (encode (.Literal n v1 f) { table := t1, dst := d }).2.dst.length = (encode (.Literal n v2 f) { table := t2, dst := d }).2.dst.length := by
  have hl := sameLen_literal n hv hf { table := t1, dst := d } { table := t2, dst := d } rfl w1 w2
  simp only [encode]
  by_cases hf16 : f &&& 0x10 = 0x10
  · rw [if_pos hf16, if_pos hf16, M.bind_apply, M.bind_apply]
    simp only [M.get_apply]
    rw [hfind]
    cases t2.find n v2 with
    | none => exact ⟨rfl, rfl⟩
    | some r =>
      cases r with
      | none => exact ⟨hl.1, hl.2.1⟩
      | some x =>
        obtain ⟨i, b⟩ := x
        cases b with
        | true =>
          have := same_indexed w1 w2 d (UInt32.ofNat i) (hget _)
          exact ⟨this.1, congrArg _ this.2⟩
        | false => exact sameLen_indexedName w1 w2 d _ hv hf (hget _)
  · rw [if_neg hf16, if_neg hf16]
    exact ⟨hl.1, hl.2.1⟩

/-- C138. Also the calls that carry the value itself have the same result and the same number of octets in both histories, if the value is
not Huffman coded: whoever sees the sizes of all messages learns nothing about the value. -/
theorem C138_sizes {n s1 s2 : Octets} (hl : s1.length = s2.length) (h1 : (n, s1) ∉ rfcStatic) (h2 : (n, s2) ∉ rfcStatic)
    {ops1 ops2 : List SessionOp} (h : SameButValue n s1 s2 ops1 ops2)
    (hp : ∀ f, SessionOp.header (.Literal n s1 f) ∈ ops1 → f.toNat.testBit 1 = false) (t : Table) (hwf : t.WF) (ht1 : (n, s1) ∉ t.spec.entries)
    (ht2 : (n, s2) ∉ t.spec.entries) :
    (encEach ops1 t).1.map (fun r => (r.1, r.2.length)) = (encEach ops2 t).1.map (fun r => (r.1, r.2.length)) := by
  have hσ := swapValue_renaming hl h1 h2
  have main : ∀ {ops1 ops2 : List SessionOp}, SameButValue n s1 s2 ops1 ops2 →
      (∀ f, SessionOp.header (.Literal n s1 f) ∈ ops1 → f.toNat.testBit 1 = false) → ∀ t1 t2 : Table, t1.WF → t2.WF →
      t2.spec = renameTable (swapValue n s1 s2) t1.spec →
      (encEach ops1 t1).1.map (fun r => (r.1, r.2.length)) = (encEach ops2 t2).1.map (fun r => (r.1, r.2.length)) := by
    intro ops1 ops2 h
    induction h with
    | nil => intros; rfl
    | @open_ op g1 g2 a b h ih =>
      intro hp t1 t2 w1 w2 ht
      have hr := (SameButValue.open_ g1 g2 h).renamed
      have hx : Renamed (swapValue n s1 s2) op op := by cases hr; assumption
      obtain ⟨v1, e1⟩ := op_effect op t1 w1 []
      obtain ⟨v2, e2⟩ := op_effect op t2 w2 []
      have := ih (fun f hf => hp f (List.mem_cons_of_mem _ hf)) _ _ v1 v2 (by rw [e2, e1, ht, hσ.opEffect hx])
      have hs := (C138_renaming hσ (.cons hx .nil) t1 t2 w1 w2 ht).2 0 op rfl rfl
      simp only [encEach, List.getElem?_cons_zero, Option.some.injEq, Prod.mk.injEq] at hs
      simp only [encEach, List.map_cons, hs.1, hs.2, this]
    | secret f h ih =>
      intro hp t1 t2 w1 w2 ht
      have hr := (SameButValue.secret (n := n) (s1 := s1) (s2 := s2) f h).renamed
      have hx : Renamed (swapValue n s1 s2) (.header (.Literal n s1 f)) (.header (.Literal n s2 f)) := by cases hr; assumption
      obtain ⟨v1, e1⟩ := op_effect (.header (.Literal n s1 f)) t1 w1 []
      obtain ⟨v2, e2⟩ := op_effect (.header (.Literal n s2 f)) t2 w2 []
      have := ih (fun f hf => hp f (List.mem_cons_of_mem _ hf)) _ _ v1 v2 (by rw [e2, e1, ht, hσ.opEffect hx])
      have hf := hσ.find w1 w2 ht n s1
      rw [← hx.value rfl rfl] at hf
      have hs := sameLen_encode w1 w2 [] n hl (hp f (by simp)) (hσ.get ht) hf.symm
      simp only [encEach, List.map_cons, this]
      rw [show encOp (.header (.Literal n s1 f)) = encode (.Literal n s1 f) from rfl,
        show encOp (.header (.Literal n s2 f)) = encode (.Literal n s2 f) from rfl, hs.1, hs.2]
  exact main h hp t t hwf hwf (rename_fix ht1 ht2)

/-- C138 needs its condition on guesses: the complete guess is seen, also without BEST_FORMAT on the header that is attacked. -/
theorem C138_complete_guess_seen : ∃ (n s1 s2 : Octets) (guess : SessionOp), s1.length = s2.length ∧
    (encEach [.header (.Literal n s1 0x4), guess] EncoderState.default.table).1[1]? ≠
      (encEach [.header (.Literal n s2 0x4), guess] EncoderState.default.table).1[1]? :=
  ⟨[120], [1, 2], [1, 3], .header (.Literal [120] [1, 2] 0x10), rfl, by decide +kernel⟩

/-- C138 needs its condition on lengths: a long and a short value are told apart by what has been evicted. -/
theorem C138_length_seen : ∃ (n s1 s2 : Octets) (guess : SessionOp), SameButValue n s1 s2 [guess, .header (.Literal n s1 0x4), guess]
      [guess, .header (.Literal n s2 0x4), guess] ∧
    (encEach [guess, .header (.Literal n s1 0x4), guess] (EncoderState.withDynamicSize 70).table).1[2]? ≠
      (encEach [guess, .header (.Literal n s2 0x4), guess] (EncoderState.withDynamicSize 70).table).1[2]? :=
  ⟨[120], [1], [1, 2, 3, 4, 5], .header (.Literal [121] [7] 0x14),
    .open_ (by show _ ≠ _; decide) (by show _ ≠ _; decide) (.secret _ (.open_ (by show _ ≠ _; decide) (by show _ ≠ _; decide) .nil)), by decide +kernel⟩

/-! A concrete case: a cookie, then guesses that have one octet, or all but one octet, in common with it. -/
example :
    let n : Octets := [99, 107]
    let s1 : Octets := [1, 2, 3]
    let s2 : Octets := [1, 9, 9]
    let ops (s : Octets) : List SessionOp := [.header (.Literal n s 0x4), .header (.Literal n [1, 2, 4] 0x10), .header (.Literal n [1, 2] 0x14),
      .header (.Literal n s 0x14), .resize 40, .header (.Indexed 62)]
    SameButValue n s1 s2 (ops s1) (ops s2) ∧ (n, s1) ∉ rfcStatic ∧ (n, s2) ∉ rfcStatic ∧
      (encEach (ops s1) EncoderState.default.table).1 = [(.ok (), [64, 2, 99, 107, 3, 1, 2, 3]), (.ok (), [15, 47, 3, 1, 2, 4]),
        (.ok (), [126, 2, 1, 2]), (.ok (), [191]), (.ok (), [63, 9]), (.ok (), [190])] ∧
      (encEach (ops s2) EncoderState.default.table).1 = [(.ok (), [64, 2, 99, 107, 3, 1, 9, 9]), (.ok (), [15, 47, 3, 1, 2, 4]),
        (.ok (), [126, 2, 1, 2]), (.ok (), [191]), (.ok (), [63, 9]), (.ok (), [190])] := by
  refine ⟨.secret _ (.open_ (by show _ ≠ _; decide) (by show _ ≠ _; decide) (.open_ (by show _ ≠ _; decide) (by show _ ≠ _; decide)
    (.secret _ (.open_ (by exact trivial) (by exact trivial) (.open_ (by exact trivial) (by exact trivial) .nil))))), ?_⟩
  decide +kernel

end Verif.Props
