import Verif.Lemmas.ProtosDecoder
import Verif.Protos.Client
/-! `Decoder::decode` as a machine: one round, runs of rounds, more input later. -/
namespace Verif.Protos
open Verif.Spec Verif.Spec.Proto

@[simp] theorem app_app (s : DState) (x y : Bytes) : (s.app x).app y = s.app (x ++ y) := by simp [DState.app]
@[simp] theorem app_nil (s : DState) : s.app [] = s := by simp [DState.app]

/-! ### More input does not change what has been read -/

theorem decodeVarint_app {chk buf} (x : Bytes) (h : decodeVarint chk buf ≠ .err .inputUnderflow) :
    decodeVarint chk (buf ++ x) = decodeVarint chk buf := by
  rcases decodeVarint_cases chk buf with ⟨cs, r, v, h1, h2, h3⟩ | ⟨_, _, h3⟩ | ⟨h1, h2, h3, h4⟩
  · rw [h3, h1, List.append_assoc, decodeVarint_ok h2]
  · exact absurd h3 h
  · rw [h4]
    subst h1
    refine loop_panic _ 0 0 ?_ (by simp; omega) (by omega)
    rw [List.take_append_of_le_length (by omega)]
    exact h3

theorem decodeKey_app {chk buf} (x : Bytes) (h : decodeKey chk buf ≠ .err .inputUnderflow) :
    decodeKey chk (buf ++ x) = decodeKey chk buf := by
  have : decodeVarint chk buf ≠ .err .inputUnderflow := by
    intro h2; apply h; simp only [decodeKey, h2]; rfl
  simp only [decodeKey, decodeVarint_app x this]

theorem extractLoop_ok (cs r : Bytes) (i : Nat) (acc : Bytes) (h : IsCont cs) :
    extractVarintLoop (cs ++ r) i acc = .ok (acc ++ cs, i + cs.length) := by
  induction cs generalizing i acc with
  | nil => exact h.elim
  | cons c cs ih =>
    rw [List.cons_append, extractVarintLoop]
    cases cs with
    | nil =>
      have h1 : c.toNat < 128 := h
      rw [if_pos ((le127_iff c).mpr h1)]
      simp
    | cons d ds =>
      have h1 : ¬ c ≤ 0x7F := by rw [le127_iff]; have := h.1; omega
      rw [if_neg h1, ih (i + 1) _ h.2]
      simp; omega

theorem extractLoop_underflow (cs : Bytes) (i : Nat) (acc : Bytes) (h : ∀ c ∈ cs, 128 ≤ c.toNat) :
    extractVarintLoop cs i acc = .err .inputUnderflow := by
  induction cs generalizing i acc with
  | nil => rfl
  | cons c cs ih =>
    have h1 : ¬ c ≤ 0x7F := by rw [le127_iff]; have := h c (by simp); omega
    rw [extractVarintLoop, if_neg h1]
    exact ih _ _ (fun d hd => h d (by simp [hd]))

theorem extractVarint_ok {cs : Bytes} (h : IsCont cs) (r : Bytes) : extractVarint (cs ++ r) = .ok (cs, cs.length) := by
  rw [extractVarint, extractLoop_ok cs r 0 [] h]; simp

theorem extractVarint_app {buf} (x : Bytes) (h : extractVarint buf ≠ .err .inputUnderflow) :
    extractVarint (buf ++ x) = extractVarint buf := by
  rcases cont_dichotomy buf with ⟨cs, r, rfl, h1⟩ | h1
  · rw [List.append_assoc, extractVarint_ok h1, extractVarint_ok h1]
  · exact absurd (extractLoop_underflow buf 0 [] h1) h

theorem extract_fixed_app {buf : Bytes} {k : Nat} (x : Bytes) (h : ¬ buf.length < k) :
    (if (buf ++ x).length < k then (.err .inputUnderflow : Res DecoderError (Bytes × Nat)) else .ok ((buf ++ x).take k, k)) =
    if buf.length < k then .err .inputUnderflow else .ok (buf.take k, k) := by
  rw [if_neg h, if_neg (by simp; omega), List.take_append_of_le_length (by omega)]

theorem orUnderflow_app {α : Type} {r : Res DecoderError (α × Nat)} {k : α → Nat → DState → DState} {s : DState} (x : Bytes)
    (hr : r ≠ .err .inputUnderflow) (hk : ∀ a n, r = .ok (a, n) → k a n (s.app x) = (k a n s).app x) :
    orUnderflow r k (s.app x) = ((orUnderflow r k s).1, (orUnderflow r k s).2.app x) := by
  rcases r with ⟨a, n⟩ | e | _ | _
  · simp only [orUnderflow]
    rw [hk a n rfl]
  · cases e <;> first | rfl | exact absurd rfl hr
  · rfl
  · rfl

theorem orUnderflow_ne {α : Type} {r : Res DecoderError (α × Nat)} {k : α → Nat → DState → DState} {s : DState}
    (h : orUnderflow r k s ≠ (.ok 0, s)) : r ≠ .err .inputUnderflow := by
  rintro rfl; exact h rfl

theorem drain_app {s : DState} {x : Bytes} {n : Nat} (h : n ≤ s.buf.length) : (s.app x).drain n = (s.drain n).app x := by
  simp only [DState.app, DState.drain, List.drop_append_of_le_length h]

/-- A round that does something does the same when more bytes are there. -/
theorem step_app (chk : Bool) (s : DState) (x : Bytes) (h : decodeStep chk s ≠ (.ok 0, s)) :
    decodeStep chk (s.app x) = ((decodeStep chk s).1, (decodeStep chk s).2.app x) := by
  have done : ∀ (n : Nat) (b : Bytes), n ≤ s.buf.length →
      ((s.app x).push b |>.drain n).reset = (((s.push b).drain n).reset).app x := by
    intro n b hn
    simp only [DState.app, DState.push, DState.drain, DState.reset, List.drop_append_of_le_length hn]
  unfold decodeStep at h ⊢
  have hkey : (s.app x).key = s.key := rfl
  rw [hkey]
  cases hk : s.key.2 <;> simp only [hk] at h ⊢
  · -- varint
    have hr := orUnderflow_ne h
    unfold stepVarint
    rw [show (s.app x).buf = s.buf ++ x from rfl, extractVarint_app x hr]
    refine orUnderflow_app x hr ?_
    intro a n e
    refine done n a ?_
    rcases cont_dichotomy s.buf with ⟨cs, r, h1, h2⟩ | h1
    · rw [h1, extractVarint_ok h2] at e
      simp only [Res.ok.injEq, Prod.mk.injEq] at e
      rw [h1, ← e.2]; simp
    · exact absurd (extractLoop_underflow s.buf 0 [] h1) hr
  · -- bit64
    have hr := orUnderflow_ne h
    have hl : ¬ s.buf.length < 8 := fun hl => hr (by rw [extractBit64, if_pos hl])
    unfold stepBit64
    rw [show extractBit64 (s.app x).buf = extractBit64 s.buf from extract_fixed_app x hl]
    refine orUnderflow_app x hr ?_
    intro a n e
    rw [extractBit64, if_neg hl] at e
    simp only [Res.ok.injEq, Prod.mk.injEq] at e
    exact done n a (by omega)
  · -- length-delimited
    unfold stepLd at h ⊢
    have hld : (s.app x).ldLen = s.ldLen := rfl
    rw [hld]
    cases hn : s.ldLen with
    | none =>
      simp only [hn] at h ⊢
      have hr := orUnderflow_ne h
      unfold stepLdLen
      rw [show (s.app x).buf = s.buf ++ x from rfl, decodeVarint_app x hr]
      refine orUnderflow_app x hr ?_
      intro a n e
      rcases decodeVarint_cases chk s.buf with ⟨cs, r, v, h1, h2, h3⟩ | ⟨_, _, h3⟩ | ⟨h1, h2, h3, h4⟩
      · rw [h3] at e
        simp only [Res.ok.injEq, Prod.mk.injEq] at e
        have hle : n ≤ s.buf.length := by rw [h1, ← e.2]; simp
        simp only [DState.app, DState.drain, List.drop_append_of_le_length hle]
      · exact absurd h3 hr
      · rw [h4] at e; cases e
    | some len =>
      simp only [hn] at h ⊢
      have hr := orUnderflow_ne h
      have hl : ¬ s.buf.length < len.toNat := fun hl => hr (by rw [extractLd, if_pos hl])
      unfold stepLdBytes
      rw [show extractLd (s.app x).buf len = extractLd s.buf len from extract_fixed_app x hl]
      refine orUnderflow_app x hr ?_
      intro a n e
      rw [extractLd, if_neg hl] at e
      simp only [Res.ok.injEq, Prod.mk.injEq] at e
      exact done n a (by omega)
  · -- bit32
    have hr := orUnderflow_ne h
    have hl : ¬ s.buf.length < 4 := fun hl => hr (by rw [extractBit32, if_pos hl])
    unfold stepBit32
    rw [show extractBit32 (s.app x).buf = extractBit32 s.buf from extract_fixed_app x hl]
    refine orUnderflow_app x hr ?_
    intro a n e
    rw [extractBit32, if_neg hl] at e
    simp only [Res.ok.injEq, Prod.mk.injEq] at e
    exact done n a (by omega)
  · -- key
    have hr := orUnderflow_ne h
    unfold stepKey
    rw [show (s.app x).buf = s.buf ++ x from rfl, decodeKey_app x hr]
    refine orUnderflow_app x hr ?_
    intro a n e
    rcases decodeKey_cases chk s.buf with ⟨cs, r, v, t, h1, h2, h3⟩ | ⟨cs, r, v, h1, h2, h3, h4⟩ | ⟨_, _, h3⟩ | ⟨h1, h2, h3, h4⟩
    · rw [h3] at e
      simp only [Res.ok.injEq, Prod.mk.injEq] at e
      have hle : n ≤ s.buf.length := by rw [h1, ← e.2]; simp
      simp only [DState.app, DState.drain, List.drop_append_of_le_length hle]
    · rw [h4] at e; cases e
    · exact absurd h3 hr
    · rw [h4] at e; cases e

/-! ### One round -/

/-- Like `HeaderWire`, also with a length of zero, which occurs only between two rounds. -/
def Mid (chk : Bool) (key : UInt32 × Typ) (len : Option UInt64) (bs : Octets) : Prop :=
  (key = (0, .unknown) ∧ len = none ∧ bs = []) ∨
  (KeyWire chk bs key.1.toNat key.2 ∧ len = none) ∨
  (∃ k l n, bs = k ++ l ∧ KeyWire chk k key.1.toNat key.2 ∧ key.2 = .lengthDelimited ∧ len = some n ∧ VarintWire chk l n.toNat)

theorem HeaderWire.mid {chk key len bs} (h : HeaderWire chk key len bs) : Mid chk key len bs := by
  rcases h with h | h | ⟨k, l, n, h1, h2, h3, h4, _, h5⟩
  · exact Or.inl h
  · exact Or.inr (Or.inl h)
  · exact Or.inr (Or.inr ⟨k, l, n, h1, h2, h3, h4, h5⟩)

theorem Mid.header {chk key len bs} (h : Mid chk key len bs) (h0 : len ≠ some 0) : HeaderWire chk key len bs := by
  rcases h with h | h | ⟨k, l, n, h1, h2, h3, h4, h5⟩
  · exact Or.inl h
  · exact Or.inr (Or.inl h)
  · exact Or.inr (Or.inr ⟨k, l, n, h1, h2, h3, h4, by rintro rfl; exact h0 h4, h5⟩)

theorem HeaderWire.ne_zero {chk key len bs} (h : HeaderWire chk key len bs) : len ≠ some 0 := by
  rcases h with h | h | ⟨k, l, n, h1, h2, h3, h4, h5, _⟩
  · rw [h.2.1]; simp
  · rw [h.2]; simp
  · rw [h4]; simpa using h5

/-- Everything one round can do. -/
inductive StepCase (chk : Bool) (s : DState) (hb : Bytes) : Prop
  | more (used rest : Bytes) (key : UInt32 × Typ) (len : Option UInt64)
      (h1 : s.buf = used ++ rest) (h2 : used ≠ [])
      (h3 : decodeStep chk s = (.ok used.length, { key := key, ldLen := len, buf := rest, dst := s.dst }))
      (h4 : Mid chk key len (hb ++ used))
  | record (used rest : Bytes) (r : Rec)
      (h1 : s.buf = used ++ rest) (h2 : used = [] ↔ s.ldLen = some 0)
      (h3 : decodeStep chk s = (.ok used.length, DState.fresh rest (s.dst ++ [r])))
      (h4 : RecordWire chk r (hb ++ used)) (h5 : r.2.2 = used)
  | stuck (h1 : decodeStep chk s = (.ok 0, s)) (h2 : s.ldLen ≠ some 0) (h3 : Incomplete s.key s.ldLen s.buf)
  | bad (cs r : Bytes) (v : Nat) (h1 : decodeStep chk s = (.err .invalidInput, s)) (h2 : s.key = (0, .unknown))
      (h3 : s.ldLen = none) (h4 : hb = []) (h5 : s.buf = cs ++ r) (h6 : VarintWire chk cs v) (h7 : BadKey v)
  | panic (h1 : decodeStep chk s = (.panic, s)) (h2 : chk = true) (h3 : 10 < s.buf.length)
      (h4 : ∀ c ∈ s.buf.take 10, 128 ≤ c.toNat) (h5 : s.key.2 = .unknown ∨ (s.key.2 = .lengthDelimited ∧ s.ldLen = none))

theorem stepCase_key {chk : Bool} {s : DState} (h1 : s.key = (0, .unknown)) (h2 : s.ldLen = none) : StepCase chk s [] := by
  have hs : decodeStep chk s = orUnderflow (decodeKey chk s.buf) (fun key size s => ({ s with key := key }).drain size) s := by
    simp only [decodeStep, h1]; rfl
  rcases decodeKey_cases chk s.buf with ⟨cs, r, v, t, e1, e2, e3⟩ | ⟨cs, r, v, e1, e2, e3, e4⟩ | ⟨e1, e2, e3⟩ | ⟨e1, e2, e3, e4⟩
  · refine .more cs r (v, t) none e1 e2.2.2.2.1.ne_nil ?_ (Or.inr (Or.inl ⟨e2, rfl⟩))
    rw [hs, e3]
    simp only [orUnderflow, DState.drain, e1, h2, List.drop_left' rfl]
  · refine .bad cs r v ?_ h1 h2 rfl e1 e2 e3
    rw [hs, e4]; rfl
  · refine .stuck ?_ (by rw [h2]; simp) ?_
    · rw [hs, e3]; rfl
    · simp only [Incomplete, h1]; exact e1
  · refine .panic ?_ e1 e2 e3 (Or.inl (by rw [h1]))
    rw [hs, e4]; rfl

/-- A round that takes the first `b` bytes of the buffer as payload. -/
theorem stepCase_done {chk : Bool} {s : DState} {hb : Bytes} {b r : Bytes} (he : s.buf = b ++ r)
    (hs : decodeStep chk s = (.ok b.length, ((s.push b).drain b.length).reset))
    (hw : RecordWire chk (s.key.1, s.key.2, b) (hb ++ b)) (h2 : b = [] ↔ s.ldLen = some 0) : StepCase chk s hb := by
  refine .record b r (s.key.1, s.key.2, b) he h2 ?_ hw rfl
  rw [hs]
  simp only [DState.push, DState.drain, DState.reset, DState.fresh, he, List.drop_left' rfl]

theorem step_cases {chk : Bool} {s : DState} {hb : Bytes} (h : Mid chk s.key s.ldLen hb) : StepCase chk s hb := by
  rcases h with ⟨h1, h2, rfl⟩ | ⟨h1, h2⟩ | ⟨k, l, n, rfl, h2, h3, h4, h5⟩
  · exact stepCase_key h1 h2
  · have hl0 : s.ldLen ≠ some 0 := by rw [h2]; simp
    have ne : ∀ {b : Bytes}, b ≠ [] → (b = [] ↔ s.ldLen = some 0) := by
      intro b hb; simp [hb, hl0]
    have rw_rec : ∀ {b : Bytes}, BodyWire chk s.key.2 b b → RecordWire chk (s.key.1, s.key.2, b) (hb ++ b) :=
      fun hb' => ⟨hb, _, rfl, h1, hb'⟩
    cases ht : s.key.2 with
    | unknown => exact absurd ht h1.2.2.1
    | varint =>
      have hs : decodeStep chk s = stepVarint s := by simp only [decodeStep, ht]
      rcases cont_dichotomy s.buf with ⟨cs, r, e1, e2⟩ | e1
      · refine stepCase_done e1 ?_ (rw_rec (by rw [ht]; exact ⟨rfl, e2⟩)) (ne e2.ne_nil)
        rw [hs, stepVarint, e1, extractVarint_ok e2]; rfl
      · refine .stuck ?_ hl0 (by simp only [Incomplete, ht]; exact e1)
        rw [hs, stepVarint, extractVarint, extractLoop_underflow _ _ _ e1]; rfl
    | bit32 =>
      have hs : decodeStep chk s = stepBit32 s := by simp only [decodeStep, ht]
      by_cases hl : s.buf.length < 4
      · refine .stuck ?_ hl0 (by simp only [Incomplete, ht]; exact hl)
        rw [hs, stepBit32, extractBit32, if_pos hl]; rfl
      · have hl4 : (s.buf.take 4).length = 4 := by simp; omega
        refine stepCase_done (List.take_append_drop 4 s.buf).symm ?_ (rw_rec (by rw [ht]; exact ⟨rfl, hl4⟩))
          (ne (by intro h; rw [h] at hl4; simp at hl4))
        rw [hs, stepBit32, extractBit32, if_neg hl, hl4]; rfl
    | bit64 =>
      have hs : decodeStep chk s = stepBit64 s := by simp only [decodeStep, ht]
      by_cases hl : s.buf.length < 8
      · refine .stuck ?_ hl0 (by simp only [Incomplete, ht]; exact hl)
        rw [hs, stepBit64, extractBit64, if_pos hl]; rfl
      · have hl8 : (s.buf.take 8).length = 8 := by simp; omega
        refine stepCase_done (List.take_append_drop 8 s.buf).symm ?_ (rw_rec (by rw [ht]; exact ⟨rfl, hl8⟩))
          (ne (by intro h; rw [h] at hl8; simp at hl8))
        rw [hs, stepBit64, extractBit64, if_neg hl, hl8]; rfl
    | lengthDelimited =>
      have hs : decodeStep chk s = stepLdLen chk s := by simp only [decodeStep, ht, stepLd, h2]
      rcases decodeVarint_cases chk s.buf with ⟨cs, r, v, e1, e2, e3⟩ | ⟨e1, e2, e3⟩ | ⟨e1, e2, e3, e4⟩
      · refine .more cs r s.key (some (UInt64.ofNat v)) e1 e2.1.ne_nil ?_ (Or.inr (Or.inr ⟨hb, cs, UInt64.ofNat v, rfl, h1, ht, rfl, ?_⟩))
        · rw [hs, stepLdLen, e3]
          simp only [orUnderflow, DState.drain, e1, List.drop_left' rfl]
        · rw [UInt64.toNat_ofNat_of_lt' (VarintWire.lt e2)]; exact e2
      · refine .stuck ?_ hl0 (by simp only [Incomplete, ht, h2]; exact e1)
        rw [hs, stepLdLen, e3]; rfl
      · refine .panic ?_ e1 e2 e3 (Or.inr ⟨ht, h2⟩)
        rw [hs, stepLdLen, e4]; rfl
  · have hs : decodeStep chk s = stepLdBytes n s := by simp only [decodeStep, h3, stepLd, h4]
    by_cases hl : s.buf.length < n.toNat
    · refine .stuck ?_ ?_ (by simp only [Incomplete, h3, h4]; exact hl)
      · rw [hs, stepLdBytes, extractLd, if_pos hl]; rfl
      · rw [h4]
        intro h
        simp only [Option.some.injEq] at h
        subst h
        exact absurd hl (by show ¬ s.buf.length < 0; omega)
    · have hln : (s.buf.take n.toNat).length = n.toNat := by simp; omega
      refine stepCase_done (List.take_append_drop n.toNat s.buf).symm ?_ ?_ ?_
      · rw [hs, stepLdBytes, extractLd, if_neg hl, hln]; rfl
      · refine ⟨k, l ++ s.buf.take n.toNat, by simp, h2, ?_⟩
        rw [h3]
        exact ⟨l, rfl, by show VarintWire chk l (s.buf.take n.toNat).length; rw [hln]; exact h5⟩
      · rw [h4, ← List.length_eq_zero_iff, hln]
        simp only [Option.some.injEq]
        exact UInt64.toNat_inj (b := 0)

/-! ### One call -/

theorem messageWire_append {chk rs r a b} (h1 : MessageWire chk rs a) (h2 : MessageWire chk r b) :
    MessageWire chk (rs ++ r) (a ++ b) := by
  induction rs generalizing a with
  | nil => obtain rfl : a = [] := h1; exact h2
  | cons x xs ih =>
    obtain ⟨c, d, rfl, h3, h4⟩ := h1
    exact ⟨c, d ++ b, by simp, h3, ih h4⟩

theorem messageWire_single {chk r b} (h : RecordWire chk r b) : MessageWire chk [r] b :=
  ⟨b, [], by simp, h, rfl⟩

theorem fresh_header (chk : Bool) (buf : Bytes) (dst : List Rec) :
    HeaderWire chk (DState.fresh buf dst).key (DState.fresh buf dst).ldLen [] := Or.inl ⟨rfl, rfl, rfl⟩

/-- How a call ends. -/
inductive CallEnd (chk : Bool) (n : Nat) (recs : List Rec) (hb : Bytes) (s' : DState) : Res DecoderError Nat → Prop
  /-- Everything that could be read has been read. -/
  | all (h : decodeStep chk s' = (.ok 0, s')) (h2 : Incomplete s'.key s'.ldLen s'.buf) : CallEnd chk n recs hb s' (.ok n)
  /-- The last field read was an empty length-delimited one. -/
  | empty (tag : UInt32) (pre : List Rec) (h : recs = pre ++ [(tag, .lengthDelimited, [])])
      (h2 : s'.key = (0, .unknown)) (h3 : s'.ldLen = none) : CallEnd chk n recs hb s' (.ok n)
  | bad (cs r : Bytes) (v : Nat) (h1 : decodeStep chk s' = (.err .invalidInput, s')) (h2 : s'.key = (0, .unknown))
      (h3 : s'.ldLen = none) (h4 : hb = []) (h5 : s'.buf = cs ++ r) (h6 : VarintWire chk cs v) (h7 : BadKey v) :
      CallEnd chk n recs hb s' (.err .invalidInput)
  | panic (h1 : decodeStep chk s' = (.panic, s')) (h2 : chk = true) (h3 : 10 < s'.buf.length)
      (h4 : ∀ c ∈ s'.buf.take 10, 128 ≤ c.toNat) (h5 : s'.key.2 = .unknown ∨ (s'.key.2 = .lengthDelimited ∧ s'.ldLen = none)) :
      CallEnd chk n recs hb s' .panic

theorem decodeLoop_spec {chk : Bool} (fuel total : Nat) {s : DState} {hb : Bytes} (hm : Mid chk s.key s.ldLen hb)
    (hf : s.buf.length < fuel) :
    ∃ used m recs hb', s.buf = used ++ (decodeLoop chk fuel total s).2.buf ∧
      (decodeLoop chk fuel total s).2.dst = s.dst ++ recs ∧ hb ++ used = m ++ hb' ∧ MessageWire chk recs m ∧
      HeaderWire chk (decodeLoop chk fuel total s).2.key (decodeLoop chk fuel total s).2.ldLen hb' ∧
      (recs.map (·.2.2)).flatten.Sublist used ∧
      CallEnd chk (total + used.length) recs hb' (decodeLoop chk fuel total s).2 (decodeLoop chk fuel total s).1 := by
  induction fuel generalizing total s hb with
  | zero => omega
  | succ fuel ih =>
    have hdef : decodeLoop chk (fuel + 1) total s =
        (decodeStep chk >>= fun size => if size = 0 then pure total else decodeLoop chk fuel (total + size)) s := rfl
    cases step_cases hm with
    | more used rest key len h1 h2 h3 h4 =>
      have hl : used.length ≠ 0 := by simpa using h2
      have e : decodeLoop chk (fuel + 1) total s =
          decodeLoop chk fuel (total + used.length) { key := key, ldLen := len, buf := rest, dst := s.dst } := by
        rw [hdef, M.bind_of_ok h3, if_neg hl]
      rw [e]
      have hlt : rest.length < fuel := by rw [h1] at hf; simp at hf; omega
      obtain ⟨u, m, recs, hb', e1, e2, e3, e4, e5, e7, e6⟩ := ih (total + used.length) (s := { key := key, ldLen := len, buf := rest, dst := s.dst }) h4 hlt
      refine ⟨used ++ u, m, recs, hb', ?_, e2, ?_, e4, e5, e7.trans (List.sublist_append_right _ _), ?_⟩
      · rw [h1, List.append_assoc]; exact congrArg (used ++ ·) e1
      · rw [← List.append_assoc]; exact e3
      · rw [List.length_append, ← Nat.add_assoc]; exact e6
    | record used rest r h1 h2 h3 h4 h5 =>
      by_cases hl : used.length = 0
      · have hu : used = [] := by simpa using hl
        subst hu
        have hld := h2.mp rfl
        have e : decodeLoop chk (fuel + 1) total s = (.ok total, DState.fresh rest (s.dst ++ [r])) := by
          rw [hdef, M.bind_of_ok h3]; rfl
        rw [e]
        refine ⟨[], hb, [r], [], h1, rfl, by simp, messageWire_single (by simpa using h4), fresh_header _ _ _, by simp [h5], ?_⟩
        have hkd : decodeStep chk s = stepLdBytes 0 s := by
          rcases hm with ⟨a, b, _⟩ | ⟨a, b⟩ | ⟨k, l, n, _, b, c, d, _⟩
          · rw [hld] at b; cases b
          · rw [hld] at b; cases b
          · simp only [decodeStep, c, stepLd, hld]
        have hty : s.key.2 = .lengthDelimited := by
          rcases hm with ⟨a, b, _⟩ | ⟨a, b⟩ | ⟨k, l, n, _, b, c, d, _⟩
          · rw [hld] at b; cases b
          · rw [hld] at b; cases b
          · exact c
        have hr : r = (s.key.1, .lengthDelimited, []) := by
          rw [hkd] at h3
          have h3' : (stepLdBytes 0 s).2.dst = (DState.fresh rest (s.dst ++ [r])).dst := by rw [h3]
          have h3'' : (stepLdBytes 0 s).2.dst = s.dst ++ [(s.key.1, s.key.2, [])] := by
            simp only [stepLdBytes, extractLd]
            rw [if_neg (by show ¬ s.buf.length < 0; omega)]
            rfl
          rw [h3''] at h3'
          have := List.append_cancel_left h3'
          simp only [List.cons.injEq, and_true] at this
          rw [← this, hty]
        exact .empty s.key.1 [] (by rw [hr]; rfl) rfl rfl
      · have e : decodeLoop chk (fuel + 1) total s =
            decodeLoop chk fuel (total + used.length) (DState.fresh rest (s.dst ++ [r])) := by
          rw [hdef, M.bind_of_ok h3, if_neg hl]
        rw [e]
        have hlt : rest.length < fuel := by rw [h1] at hf; simp at hf; omega
        obtain ⟨u, m, recs, hb', e1, e2, e3, e4, e5, e7, e6⟩ :=
          ih (total + used.length) (s := DState.fresh rest (s.dst ++ [r])) (HeaderWire.mid (fresh_header _ _ _)) hlt
        refine ⟨used ++ u, (hb ++ used) ++ m, r :: recs, hb', ?_, ?_, ?_, ?_, e5, ?_, ?_⟩
        · rw [h1, List.append_assoc]; exact congrArg (used ++ ·) e1
        · rw [e2]; show (s.dst ++ [r]) ++ recs = _; simp
        · have : u = m ++ hb' := by simpa using e3
          rw [this]; simp
        · exact ⟨hb ++ used, m, rfl, h4, e4⟩
        · rw [List.map_cons, List.flatten_cons, h5]
          exact (List.Sublist.refl _).append e7
        · rw [List.length_append, ← Nat.add_assoc]
          generalize (decodeLoop chk fuel (total + used.length) (DState.fresh rest (s.dst ++ [r]))).2 = t at *
          generalize (decodeLoop chk fuel (total + used.length) (DState.fresh rest (s.dst ++ [r]))).1 = res at *
          cases e6 with
          | all a b => exact .all a b
          | empty tag pre a b c => exact .empty tag (r :: pre) (by rw [a]; rfl) b c
          | bad cs r v a1 a2 a3 a4 a5 a6 a7 => exact .bad cs r v a1 a2 a3 a4 a5 a6 a7
          | panic a1 a2 a3 a4 a5 => exact .panic a1 a2 a3 a4 a5
    | stuck h1 h2 h3 =>
      have e : decodeLoop chk (fuel + 1) total s = (.ok total, s) := by
        rw [hdef, M.bind_of_ok h1]; rfl
      rw [e]
      exact ⟨[], [], [], hb, by simp, by simp, by simp, rfl, Mid.header hm h2, by simp, .all h1 h3⟩
    | bad cs r v h1 h2 h3 h4 h5 h6 h7 =>
      have e : decodeLoop chk (fuel + 1) total s = (.err .invalidInput, s) := by
        rw [hdef, M.bind_of_err h1]
      rw [e]
      exact ⟨[], [], [], hb, by simp, by simp, by simp, rfl, Mid.header hm (by rw [h3]; simp), by simp, .bad cs r v h1 h2 h3 h4 h5 h6 h7⟩
    | panic h1 h2 h3 h4 h5 =>
      have e : decodeLoop chk (fuel + 1) total s = (.panic, s) := by
        rw [hdef, M.bind_apply, h1]
      rw [e]
      refine ⟨[], [], [], hb, by simp, by simp, by simp, rfl, Mid.header hm ?_, by simp, .panic h1 h2 h3 h4 h5⟩
      rcases h5 with h5 | ⟨_, h5⟩
      · rcases hm with ⟨a, b, _⟩ | ⟨a, b⟩ | ⟨k, l, n, _, b, c, d, _⟩
        · rw [b]; simp
        · rw [b]; simp
        · rw [h5] at c; cases c
      · rw [h5]; simp

/-- Everything one call of `decode` can do. -/
theorem decode_spec {chk : Bool} {s : DState} {hb : Bytes} (hm : HeaderWire chk s.key s.ldLen hb) :
    ∃ used m recs hb', s.buf = used ++ (decode chk s).2.buf ∧
      (decode chk s).2.dst = s.dst ++ recs ∧ hb ++ used = m ++ hb' ∧ MessageWire chk recs m ∧
      HeaderWire chk (decode chk s).2.key (decode chk s).2.ldLen hb' ∧ (recs.map (·.2.2)).flatten.Sublist used ∧
      CallEnd chk used.length recs hb' (decode chk s).2 (decode chk s).1 := by
  obtain ⟨used, m, recs, hb', h1, h2, h3, h4, h5, h7, h6⟩ := decodeLoop_spec (s.buf.length + 1) 0 (HeaderWire.mid hm) (Nat.lt_succ_self _)
  exact ⟨used, m, recs, hb', h1, h2, h3, h4, h5, h7, by rw [Nat.zero_add] at h6; exact h6⟩

/-! ### Runs of rounds -/

/-- The outcome of performing rounds as long as they do something. -/
inductive Run (chk : Bool) : DState → Res DecoderError Unit × DState → Prop
  | stuck {s} (h : decodeStep chk s = (.ok 0, s)) : Run chk s (.ok (), s)
  | step {s s' n o} (h : decodeStep chk s = (.ok n, s')) (hne : decodeStep chk s ≠ (.ok 0, s)) (h2 : Run chk s' o) : Run chk s o
  | err {s s' e} (h : decodeStep chk s = (.err e, s')) : Run chk s (.err e, s')
  | panic {s s'} (h : decodeStep chk s = (.panic, s')) : Run chk s (.panic, s')

theorem Run.det {chk s o o'} (h : Run chk s o) (h' : Run chk s o') : o = o' := by
  induction h with
  | stuck h =>
    cases h' with
    | stuck => rfl
    | step _ hne => exact absurd h hne
    | err h2 => rw [h] at h2; cases h2
    | panic h2 => rw [h] at h2; cases h2
  | step h hne h2 ih =>
    cases h' with
    | stuck h3 => exact absurd h3 hne
    | step h3 _ h4 => rw [h] at h3; cases h3; exact ih h4
    | err h3 => rw [h] at h3; cases h3
    | panic h3 => rw [h] at h3; cases h3
  | err h =>
    cases h' with
    | stuck h3 => rw [h] at h3; cases h3
    | step h3 => rw [h] at h3; cases h3
    | err h3 => rw [h] at h3; cases h3; rfl
    | panic h3 => rw [h] at h3; cases h3
  | panic h =>
    cases h' with
    | stuck h3 => rw [h] at h3; cases h3
    | step h3 => rw [h] at h3; cases h3
    | err h3 => rw [h] at h3; cases h3
    | panic h3 => rw [h] at h3; cases h3; rfl

/-- `s'` is reached from `s` by rounds that do something. -/
inductive Reach (chk : Bool) : DState → DState → Prop
  | refl {s} : Reach chk s s
  | step {s s' n t} (h : decodeStep chk s = (.ok n, s')) (hne : decodeStep chk s ≠ (.ok 0, s)) (h2 : Reach chk s' t) : Reach chk s t

theorem Reach.run {chk s t o} (h : Reach chk s t) (h2 : Run chk t o) : Run chk s o := by
  induction h with
  | refl => exact h2
  | step h hne _ ih => exact .step h hne (ih h2)

theorem Reach.app {chk s t} (h : Reach chk s t) (x : Bytes) : Reach chk (s.app x) (t.app x) := by
  induction h with
  | refl => exact .refl
  | @step s s' n t h hne _ ih =>
    have e := step_app chk s x hne
    rw [h] at e
    refine .step e ?_ ih
    intro h3
    rw [e] at h3
    apply hne
    rw [h]
    have h4 : s'.app x = s.app x := congrArg Prod.snd h3
    have h5 : n = 0 := by have := congrArg Prod.fst h3; simpa using this
    have h6 : s' = s := by
      rcases s' with ⟨_, _, _, _⟩
      rcases s with ⟨_, _, _, _⟩
      simp only [DState.app, DState.mk.injEq, List.append_cancel_right_eq] at h4
      simp only [DState.mk.injEq]
      exact h4
    rw [h5, h6]

theorem Run.of {chk s o} (h : Run chk s o) :
    ∃ t, Reach chk s t ∧ ((o = (.ok (), t) ∧ decodeStep chk t = (.ok 0, t)) ∨
      (∃ e, decodeStep chk t = (.err e, o.2) ∧ o.1 = .err e) ∨ (decodeStep chk t = (.panic, o.2) ∧ o.1 = .panic)) := by
  induction h with
  | stuck h => exact ⟨_, .refl, Or.inl ⟨rfl, h⟩⟩
  | step h hne _ ih =>
    obtain ⟨t, h1, h2⟩ := ih
    exact ⟨t, .step h hne h1, h2⟩
  | err h => exact ⟨_, .refl, Or.inr (Or.inl ⟨_, h, rfl⟩)⟩
  | panic h => exact ⟨_, .refl, Or.inr (Or.inr ⟨h, rfl⟩)⟩

/-- A run that did not fail goes on when more bytes arrive. -/
theorem Run.app_ok {chk s t} (h : Run chk s (.ok (), t)) (x : Bytes) : Reach chk (s.app x) (t.app x) := by
  obtain ⟨u, h1, h2 | ⟨e, _, h2⟩ | ⟨_, h2⟩⟩ := h.of
  · obtain ⟨h3, _⟩ := h2
    cases h3
    exact h1.app x
  · cases h2
  · cases h2

/-- A run that failed fails in the same way with more bytes. -/
theorem Run.app_fail {chk s r t} (h : Run chk s (r, t)) (hr : r ≠ .ok ()) (x : Bytes) : Run chk (s.app x) (r, t.app x) := by
  obtain ⟨u, h1, ⟨h2, _⟩ | ⟨e, h2, h3⟩ | ⟨h2, h3⟩⟩ := h.of
  · cases h2; exact absurd rfl hr
  · subst h3
    refine (h1.app x).run (.err ?_)
    have := step_app chk u x (by rw [h2]; simp)
    rw [h2] at this
    exact this
  · subst h3
    refine (h1.app x).run (.panic ?_)
    have := step_app chk u x (by rw [h2]; simp)
    rw [h2] at this
    exact this

theorem Mid.step {chk s s' n hb} (hm : Mid chk s.key s.ldLen hb) (h : decodeStep chk s = (.ok n, s')) :
    ∃ hb', Mid chk s'.key s'.ldLen hb' := by
  cases step_cases hm with
  | more used rest key len h1 h2 h3 h4 => rw [h] at h3; cases h3; exact ⟨_, h4⟩
  | record used rest r h1 h2 h3 h4 h5 => rw [h] at h3; cases h3; exact ⟨[], HeaderWire.mid (fresh_header _ _ _)⟩
  | stuck h1 h2 h3 => rw [h] at h1; cases h1; exact ⟨_, hm⟩
  | bad cs r v h1 => rw [h] at h1; cases h1
  | panic h1 => rw [h] at h1; cases h1

/-- What a call of `decode` has to do with runs. -/
theorem decodeLoop_reach {chk : Bool} (fuel total : Nat) {s : DState} {hb : Bytes} (hm : Mid chk s.key s.ldLen hb)
    (hf : s.buf.length < fuel) :
    match decodeLoop chk fuel total s with
    | (.ok _, s') => Reach chk s s'
    | (.err e, s') => Run chk s (.err e, s')
    | (.panic, s') => Run chk s (.panic, s')
    | (.hang, _) => False := by
  induction fuel generalizing total s hb with
  | zero => omega
  | succ fuel ih =>
    have hdef : decodeLoop chk (fuel + 1) total s =
        (decodeStep chk >>= fun size => if size = 0 then pure total else decodeLoop chk fuel (total + size)) s := rfl
    have goOn : ∀ (n : Nat) (s' : DState) (hb' : Bytes), decodeStep chk s = (.ok n, s') → n ≠ 0 → s'.buf.length < fuel →
        Mid chk s'.key s'.ldLen hb' →
        (match decodeLoop chk (fuel + 1) total s with
          | (.ok _, s') => Reach chk s s'
          | (.err e, s') => Run chk s (.err e, s')
          | (.panic, s') => Run chk s (.panic, s')
          | (.hang, _) => False) := by
      intro n s' hb' h3 hl hlt h4
      have e : decodeLoop chk (fuel + 1) total s = decodeLoop chk fuel (total + n) s' := by
        rw [hdef, M.bind_of_ok h3, if_neg hl]
      rw [e]
      have hne : decodeStep chk s ≠ (.ok 0, s) := by
        rw [h3]; simp [hl]
      have := ih (total + n) h4 hlt
      rcases hd : decodeLoop chk fuel (total + n) s' with ⟨_ | _ | _ | _, t⟩
      · rw [hd] at this; exact .step h3 hne this
      · rw [hd] at this; exact .step h3 hne this
      · rw [hd] at this; exact .step h3 hne this
      · rw [hd] at this; exact this
    cases step_cases hm with
    | more used rest key len h1 h2 h3 h4 =>
      exact goOn _ _ _ h3 (by simpa using h2) (by rw [h1] at hf; rcases used with _ | _ <;> simp at *; omega) h4
    | record used rest r h1 h2 h3 h4 h5 =>
      by_cases hl : used.length = 0
      · have e : decodeLoop chk (fuel + 1) total s = (.ok total, DState.fresh rest (s.dst ++ [r])) := by
          rw [hdef, M.bind_of_ok h3, if_pos hl]; rfl
        rw [e]
        refine .step h3 ?_ .refl
        have hu : used = [] := by simpa using hl
        have := h2.mp hu
        rw [h3]
        intro h5
        have h6 : (DState.fresh rest (s.dst ++ [r])).ldLen = s.ldLen := congrArg (fun p => p.2.ldLen) h5
        rw [this] at h6
        cases h6
      · exact goOn _ _ _ h3 hl (by rw [h1, List.length_append] at hf; show rest.length < fuel; omega) (HeaderWire.mid (fresh_header _ _ _))
    | stuck h1 h2 h3 =>
      have e : decodeLoop chk (fuel + 1) total s = (.ok total, s) := by
        rw [hdef, M.bind_of_ok h1]; rfl
      rw [e]
      exact .refl
    | bad cs r v h1 =>
      have e : decodeLoop chk (fuel + 1) total s = (.err .invalidInput, s) := by
        rw [hdef, M.bind_of_err h1]
      rw [e]
      exact .err h1
    | panic h1 =>
      have e : decodeLoop chk (fuel + 1) total s = (.panic, s) := by
        rw [hdef, M.bind_apply, h1]
      rw [e]
      exact .panic h1

theorem decode_reach {chk : Bool} {s : DState} {hb : Bytes} (hm : HeaderWire chk s.key s.ldLen hb) :
    match decode chk s with
    | (.ok _, s') => Reach chk s s'
    | (.err e, s') => Run chk s (.err e, s')
    | (.panic, s') => Run chk s (.panic, s')
    | (.hang, _) => False :=
  decodeLoop_reach (s.buf.length + 1) 0 (HeaderWire.mid hm) (Nat.lt_succ_self _)

/-- A call that returns 0 has done nothing, because nothing could be done. -/
theorem decode_zero {chk : Bool} {s s' : DState} {hb : Bytes} (hm : HeaderWire chk s.key s.ldLen hb)
    (h : decode chk s = (.ok 0, s')) : s' = s ∧ decodeStep chk s = (.ok 0, s) ∧ Incomplete s.key s.ldLen s.buf := by
  have hdef : decode chk s =
      (decodeStep chk >>= fun size => if size = 0 then pure 0 else decodeLoop chk s.buf.length (0 + size)) s := rfl
  have goOn : ∀ (n : Nat) (t : DState) (hb' : Bytes), decodeStep chk s = (.ok n, t) → n ≠ 0 → t.buf.length < s.buf.length →
      Mid chk t.key t.ldLen hb' → False := by
    intro n t hb' h3 hl hlt h4
    rw [hdef, M.bind_of_ok h3, if_neg hl] at h
    obtain ⟨u, m, recs, hb', e1, e2, e3, e4, e5, e7, e6⟩ := decodeLoop_spec (chk := chk) s.buf.length (0 + n) h4 hlt
    rw [h] at e6
    have : ∀ k, CallEnd chk k recs hb' s' (.ok 0) → k = 0 := by
      intro k hk; cases hk <;> rfl
    have := this _ e6
    omega
  cases step_cases (HeaderWire.mid hm) with
  | more used rest key len h1 h2 h3 h4 =>
    exact (goOn _ _ _ h3 (by simpa using h2) (by rw [h1]; rcases used with _ | _ <;> simp at *; omega) h4).elim
  | record used rest r h1 h2 h3 h4 h5 =>
    have hu : used ≠ [] := fun hu => HeaderWire.ne_zero hm (h2.mp hu)
    refine (goOn _ _ _ h3 (by simpa using hu) ?_ (HeaderWire.mid (fresh_header _ _ _))).elim
    show rest.length < _
    rw [h1]; rcases used with _ | _ <;> simp at *; omega
  | stuck h1 h2 h3 =>
    rw [hdef, M.bind_of_ok h1] at h
    cases h
    exact ⟨rfl, h1, h3⟩
  | bad cs r v h1 => rw [hdef, M.bind_of_err h1] at h; cases h
  | panic h1 => rw [hdef, M.bind_apply, h1] at h; cases h

end Verif.Protos
