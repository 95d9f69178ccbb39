import Verif.Props.HpackTries
/-! Property theorem C100: headers that are not to be stored do not influence anything else (non-interference). -/
namespace Verif.Props
open Verif Verif.Spec Verif.Hpack

/-- A user that makes the calls one after the other, each with an empty output vector, whatever the calls return: the result and
the octets of each call, and the final table of the encoder. -/
def encEach : List SessionOp → Table → List (Res EncoderError Unit × Bytes) × Table
  | [], t => ([], t)
  | op :: ops, t =>
    let r := encOp op { table := t, dst := [] }
    ((r.1, r.2.dst) :: (encEach ops r.2.table).1, (encEach ops r.2.table).2)

/-- A call that encodes a header without WITH_INDEXING (0x4). -/
def isUnstored : SessionOp → Bool
  | .header input => !(flagsOf input).toNat.testBit 2
  | .resize _ => false

/-- The results that belong to the calls that are not selected by `p`. -/
def resultsWithout {α : Type} (p : SessionOp → Bool) : List SessionOp → List α → List α
  | op :: ops, r :: rs => if p op then resultsWithout p ops rs else r :: resultsWithout p ops rs
  | _, _ => []

/-- The action leaves the table alone, whatever its result. -/
def KeepsTable {α : Type} (x : M EncoderState EncoderError α) : Prop := ∀ s, (x s).2.table = s.table

theorem KeepsTable.bind {α β : Type} {x : M EncoderState EncoderError α} {f : α → M EncoderState EncoderError β} (h : KeepsTable x)
    (hf : ∀ a, KeepsTable (f a)) : KeepsTable (x >>= f) := by
  intro s
  have h1 := h s
  rw [M.bind_apply]
  cases hx : x s with
  | mk r s1 =>
    rw [hx] at h1
    cases r <;> simp only
    · rw [hf, h1]
    all_goals exact h1

theorem KeepsTable.pushBytes (r : Res EncoderError Bytes) : KeepsTable (pushBytes r) := by
  intro s; cases r <;> rfl

theorem KeepsTable.push (b : Bytes) :
    KeepsTable (M.modify fun s => { s with dst := s.dst ++ b } : M EncoderState EncoderError Unit) := fun _ => rfl

theorem KeepsTable.ite {α : Type} (c : Prop) [Decidable c] {x y : M EncoderState EncoderError α} (hx : KeepsTable x) (hy : KeepsTable y) :
    KeepsTable (if c then x else y) := by
  split <;> assumption

theorem KeepsTable.get_bind {α : Type} {f : EncoderState → M EncoderState EncoderError α} (hf : ∀ s, KeepsTable (f s)) :
    KeepsTable (M.get >>= f) := fun s => hf s s

theorem flag4_false {f : UInt8} (h : f.toNat.testBit 2 = false) : ¬ (f &&& 0x4 = 0x4) := by
  intro hc
  revert h hc
  revert f
  apply forall_u8
  decide +kernel

theorem keeps_indexed (i : UInt32) : KeepsTable (encodeIndexed i) := by
  refine .get_bind fun s => ?_
  split
  · exact fun _ => rfl
  · exact .pushBytes _

theorem keeps_indexedName (i : UInt32) (v : Bytes) {f : UInt8} (h : f.toNat.testBit 2 = false) : KeepsTable (encodeIndexedName i v f) := by
  refine .get_bind fun s => ?_
  split
  · exact fun _ => rfl
  · rw [if_neg (flag4_false h)]
    exact .bind (.ite _ (.pushBytes _) (.pushBytes _)) fun _ => .pushBytes _

theorem keeps_literal (n v : Bytes) {f : UInt8} (h : f.toNat.testBit 2 = false) : KeepsTable (encodeLiteral n v f) := by
  unfold encodeLiteral
  rw [if_neg (flag4_false h)]
  exact .bind (.ite _ (.push _) (.push _)) fun _ => .bind (.pushBytes _) fun _ => .pushBytes _

/-- A call without WITH_INDEXING leaves the table alone, whatever its result. -/
theorem keeps_unstored (op : SessionOp) (h : isUnstored op = true) : KeepsTable (encOp op) := by
  cases op with
  | resize n => cases h
  | header input =>
    show KeepsTable (encode input)
    unfold encode
    split
    · exact keeps_indexed _
    · exact keeps_indexedName _ _ (by simpa [isUnstored, flagsOf] using h)
    · rename_i n v f
      have hf : f.toNat.testBit 2 = false := by simpa [isUnstored, flagsOf] using h
      refine .ite _ (.get_bind fun s => ?_) (keeps_literal _ _ hf)
      split
      · exact fun _ => rfl
      · exact keeps_indexed _
      · exact keeps_indexedName _ _ hf
      · exact keeps_literal _ _ hf

/-- C100. Headers that are not to be stored leave no trace: take any calls away from a history, or put any calls in, all of them
headers without WITH_INDEXING; the results and the octets of all the other calls, and the final table, are the same. -/
theorem C100_no_trace (ops : List SessionOp) (t : Table) :
    resultsWithout isUnstored ops (encEach ops t).1 = (encEach (ops.filter fun op => !isUnstored op) t).1 ∧
      (encEach ops t).2 = (encEach (ops.filter fun op => !isUnstored op) t).2 := by
  induction ops generalizing t with
  | nil => exact ⟨rfl, rfl⟩
  | cons op ops ih =>
    cases h : isUnstored op with
    | true =>
      have hk := keeps_unstored op h { table := t, dst := [] }
      simp only [encEach, resultsWithout, h, if_true]
      rw [List.filter_cons_of_neg (by simp [h]), hk]
      exact ih t
    | false =>
      simp only [encEach, resultsWithout, h, Bool.false_eq_true, if_false]
      rw [List.filter_cons_of_pos (by simp [h])]
      simp only [encEach]
      exact ⟨congrArg _ (ih _).1, (ih _).2⟩

/-- Two histories that differ only in the contents of headers that are not to be stored. -/
inductive SameButSecrets : List SessionOp → List SessionOp → Prop where
  | nil : SameButSecrets [] []
  | same (op : SessionOp) {a b : List SessionOp} (h : SameButSecrets a b) : SameButSecrets (op :: a) (op :: b)
  | secret {x y : SessionOp} (hx : isUnstored x = true) (hy : isUnstored y = true) {a b : List SessionOp} (h : SameButSecrets a b) :
      SameButSecrets (x :: a) (y :: b)

/-- C100. Non-interference: if two histories differ only in headers without WITH_INDEXING, then the calls that are the same in both
have the same results and write the same octets, also the headers without WITH_INDEXING among them, and the tables end up the same. -/
theorem C100_non_interference {ops1 ops2 : List SessionOp} (h : SameButSecrets ops1 ops2) (t : Table) :
    (encEach ops1 t).2 = (encEach ops2 t).2 ∧
      ∀ (k : Nat) (op : SessionOp), ops1[k]? = some op → ops2[k]? = some op → (encEach ops1 t).1[k]? = (encEach ops2 t).1[k]? := by
  induction h generalizing t with
  | nil => exact ⟨rfl, fun _ _ _ _ => rfl⟩
  | same op h ih =>
    refine ⟨(ih _).1, fun k o h1 h2 => ?_⟩
    cases k with
    | zero => rfl
    | succ k => exact (ih _).2 k o h1 h2
  | @secret x y hx hy a b h ih =>
    have kx := keeps_unstored x hx { table := t, dst := [] }
    have ky := keeps_unstored y hy { table := t, dst := [] }
    simp only at kx ky
    simp only [encEach, kx, ky]
    refine ⟨(ih _).1, fun k o h1 h2 => ?_⟩
    cases k with
    | zero =>
      have e1 : x = o := by simpa using h1
      have e2 : y = o := by simpa using h2
      rw [e1, e2]; rfl
    | succ k => exact (ih _).2 k o h1 h2

/-- Two passwords: the requests around them are written the same. -/
example (t : Table) (a : SessionOp) : (encEach [a, .header (.Literal [112] [1, 2] 0x18), a] t).1[2]? =
    (encEach [a, .header (.Literal [112] [3] 0x18), a] t).1[2]? :=
  (C100_non_interference (.same a (.secret rfl rfl (.same a .nil))) t).2 2 a rfl rfl

/-- The action does not look at the table: same result and same output from any two states with the same output. -/
def Blind {α : Type} (x : M EncoderState EncoderError α) : Prop :=
  ∀ s1 s2 : EncoderState, s1.dst = s2.dst → s1.table.WF → s2.table.WF →
    (x s1).1 = (x s2).1 ∧ (x s1).2.dst = (x s2).2.dst ∧ (x s1).2.table.WF ∧ (x s2).2.table.WF

theorem Blind.bind {α β : Type} {x : M EncoderState EncoderError α} {f : α → M EncoderState EncoderError β} (h : Blind x)
    (hf : ∀ a, Blind (f a)) : Blind (x >>= f) := by
  intro s1 s2 h0 w1 w2
  have h1 := h s1 s2 h0 w1 w2
  rw [M.bind_apply, M.bind_apply]
  cases hx : x s1 with
  | mk r u1 =>
    cases hy : x s2 with
    | mk r' u2 =>
      rw [hx, hy] at h1
      obtain ⟨e1, e2, e3, e4⟩ := h1
      simp only at e1 e2 e3 e4
      subst e1
      cases r with
      | ok a => exact hf a u1 u2 e2 e3 e4
      | err e => exact ⟨rfl, e2, e3, e4⟩
      | panic => exact ⟨rfl, e2, e3, e4⟩
      | hang => exact ⟨rfl, e2, e3, e4⟩

theorem Blind.pushBytes (r : Res EncoderError Bytes) : Blind (pushBytes r) := by
  intro s1 s2 h w1 w2
  cases r with
  | ok b => exact ⟨rfl, congrArg (· ++ b) h, w1, w2⟩
  | err e => exact ⟨rfl, h, w1, w2⟩
  | panic => exact ⟨rfl, h, w1, w2⟩
  | hang => exact ⟨rfl, h, w1, w2⟩

theorem Blind.push (b : Bytes) : Blind (M.modify fun s => { s with dst := s.dst ++ b } : M EncoderState EncoderError Unit) :=
  fun _ _ h w1 w2 => ⟨rfl, congrArg (· ++ b) h, w1, w2⟩

theorem Blind.insert (n v : Bytes) : Blind (encInsert n v) := by
  intro s1 s2 h w1 w2
  obtain ⟨u1, hu1, v1, _⟩ := Table.insert_spec (ε := EncoderError) s1.table w1 n v
  obtain ⟨u2, hu2, v2, _⟩ := Table.insert_spec (ε := EncoderError) s2.table w2 n v
  have e : ∀ (s : EncoderState) (u : Table), s.table.insert (ε := EncoderError) n v = .ok u →
      encInsert n v s = (.ok (), { s with table := u }) := by
    intro s u hu
    show (M.lift (s.table.insert n v) >>= fun t => M.modify fun s => { s with table := t } : M EncoderState EncoderError Unit) s = _
    rw [hu]; rfl
  rw [e s1 u1 hu1, e s2 u2 hu2]
  exact ⟨rfl, h, v1, v2⟩

theorem Blind.ite {α : Type} (c : Prop) [Decidable c] {x y : M EncoderState EncoderError α} (hx : Blind x) (hy : Blind y) :
    Blind (if c then x else y) := by
  split <;> assumption

theorem flag10_false {f : UInt8} (h : f.toNat.testBit 4 = false) : ¬ (f &&& 0x10 = 0x10) := by
  intro hc
  revert h hc
  revert f
  apply forall_u8
  decide +kernel

/-- C100. Without BEST_FORMAT a literal is written without a look at the table: in all states the octets and the result are the
same, so nothing about other headers shows in them. -/
theorem C100_literal_blind (t1 t2 : Table) (h1 : t1.WF) (h2 : t2.WF) (n v : Bytes) (f : UInt8) (hf : f.toNat.testBit 4 = false) :
    (encode (.Literal n v f) { table := t1, dst := [] }).1 = (encode (.Literal n v f) { table := t2, dst := [] }).1 ∧
      (encode (.Literal n v f) { table := t1, dst := [] }).2.dst = (encode (.Literal n v f) { table := t2, dst := [] }).2.dst := by
  have e : encode (.Literal n v f) = encodeLiteral n v f := by
    show (if f &&& 0x10 = 0x10 then _ else encodeLiteral n v f) = _
    rw [if_neg (flag10_false hf)]
  have hb : Blind (encodeLiteral n v f) :=
    .bind (.ite _ (.bind (.push _) fun _ => .insert _ _) (.ite _ (.push _) (.push _)))
      fun _ => .bind (.pushBytes _) fun _ => .pushBytes _
  rw [e]
  have := hb { table := t1, dst := [] } { table := t2, dst := [] } rfl h1 h2
  exact ⟨this.1, this.2.1⟩

/-- C100 needs its condition on BEST_FORMAT: with that flag the size of the output tells whether the header was sent and stored
before, so whoever can choose a header and see sizes learns what is in the table. -/
theorem C100_best_format_leaks : ∃ (t1 t2 : Table) (n v : Bytes), t1.WF ∧ t2.WF ∧
    (encode (.Literal n v 0x10) { table := t1, dst := [] }).2.dst.length ≠ (encode (.Literal n v 0x10) { table := t2, dst := [] }).2.dst.length := by
  refine ⟨EncoderState.default.table, (encEach [.header (.Literal [1] [2] 0x4)] EncoderState.default.table).2, [1], [2], ?_, ?_, ?_⟩
  · exact ⟨by unfold Dynamic.Acc; decide +kernel, by decide +kernel⟩
  · exact ⟨by unfold Dynamic.Acc; decide +kernel, by decide +kernel⟩
  · decide +kernel

/-! Concrete cases: a password between two requests; the second request is written the same with another password or without one. -/
example :
    let a := SessionOp.header (.Literal [97] [98] 0x14)
    let p (pw : Bytes) := SessionOp.header (.Literal [112] pw 0x18)
    SameButSecrets [a, p [1, 2], a] [a, p [3], a] ∧
      (encEach [a, p [1, 2], a] EncoderState.default.table).1 =
        [(.ok (), [64, 1, 97, 1, 98]), (.ok (), [16, 1, 112, 2, 1, 2]), (.ok (), [190])] ∧
      (encEach [a, p [3], a] EncoderState.default.table).1 =
        [(.ok (), [64, 1, 97, 1, 98]), (.ok (), [16, 1, 112, 1, 3]), (.ok (), [190])] ∧
      resultsWithout isUnstored [a, p [3], a] (encEach [a, p [3], a] EncoderState.default.table).1 =
        (encEach [a, a] EncoderState.default.table).1 := by
  refine ⟨.same _ (.secret rfl rfl (.same _ .nil)), ?_⟩
  decide +kernel

end Verif.Props
