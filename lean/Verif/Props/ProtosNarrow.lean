import Verif.Protos.Narrow
import Verif.Lemmas.ProtosMachine
/-! Property theorems C91: the protos decoder on 32-bit targets. -/
namespace Verif.Props
open Verif Verif.Protos

/-- Add `n` to a successful count. -/
def plus (n : Nat) : Res DecoderError Nat → Res DecoderError Nat
  | .ok m => .ok (n + m)
  | .err e => .err e
  | .panic => .panic
  | .hang => .hang

/-- The decoder waits for the payload of a field whose declared length does not fit `w` bits. -/
def WaitsForTooMuch (w : Nat) (s : DState) : Prop := s.key.2 = .lengthDelimited ∧ ∃ l, s.ldLen = some l ∧ 2 ^ w ≤ l.toNat

theorem step_narrow (w : Nat) (chk : Bool) (s : DState) (h : ¬ WaitsForTooMuch w s) : decodeStepOn w chk s = decodeStep chk s := by
  unfold decodeStepOn decodeStep
  cases hk : s.key.2 <;> simp only
  unfold stepLdOn stepLd
  cases hl : s.ldLen with
  | none => rfl
  | some l =>
    have h1 : l.toNat < 2 ^ w := by
      apply Nat.lt_of_not_le
      intro h2
      exact h ⟨hk, l, hl, h2⟩
    simp only [stepLdBytesOn, stepLdBytes, extractLdOn, extractLd, Nat.mod_eq_of_lt h1]

theorem step_waits (w : Nat) (chk : Bool) (s : DState) (h : WaitsForTooMuch w s) (hb : s.buf.length < 2 ^ w) :
    decodeStep chk s = (.ok 0, s) := by
  obtain ⟨hk, l, hl, h2⟩ := h
  unfold decodeStep
  simp only [hk, stepLd, hl, stepLdBytes, extractLd]
  rw [if_pos (Nat.lt_of_lt_of_le hb h2)]
  rfl

theorem varintLoop_count (chk : Bool) (buf : Bytes) : ∀ (c : Nat) (v v' : UInt64) (n : Nat),
    decodeVarintLoop chk buf c v = .ok (v', n) → n ≤ c + buf.length ∧ c < n := by
  induction buf with
  | nil => intro c v v' n h; simp [decodeVarintLoop] at h
  | cons b r ih =>
    intro c v v' n h
    simp only [decodeVarintLoop] at h
    split at h
    · cases h
    · split at h
      · simp only [Res.ok.injEq, Prod.mk.injEq] at h
        simp only [List.length_cons]; omega
      · have := ih _ _ _ _ h
        simp only [List.length_cons]; omega

theorem decodeKey_count {chk : Bool} {buf : Bytes} {k : UInt32 × Typ} {n : Nat} (h : decodeKey chk buf = .ok (k, n)) :
    n ≤ buf.length ∧ 0 < n := by
  unfold decodeKey at h
  cases hv : decodeVarint chk buf with
  | ok p =>
    obtain ⟨v, m⟩ := p
    have := varintLoop_count chk buf 0 0 v m hv
    rw [hv] at h
    simp only [Res.bind_ok] at h
    split at h
    · cases h
    · split at h
      · cases h
      · split at h
        · cases h
        · simp only [Res.pure_eq, Res.ok.injEq, Prod.mk.injEq] at h
          omega
  | err e => rw [hv] at h; cases h
  | panic => rw [hv] at h; cases h
  | hang => rw [hv] at h; cases h

theorem extractLoop_count (buf : Bytes) : ∀ (c : Nat) (v v' : Bytes) (n : Nat),
    extractVarintLoop buf c v = .ok (v', n) → n ≤ c + buf.length := by
  induction buf with
  | nil => intro c v v' n h; simp [extractVarintLoop] at h
  | cons b r ih =>
    intro c v v' n h
    simp only [extractVarintLoop] at h
    split at h
    · simp only [Res.ok.injEq, Prod.mk.injEq] at h
      simp only [List.length_cons]; omega
    · have := ih _ _ _ _ h
      simp only [List.length_cons]; omega

theorem orUnderflow_removes {α : Type} {r : Res DecoderError (α × Nat)} {k : α → Nat → DState → DState} {s s' : DState} {n : Nat}
    (hk : ∀ a m, (k a m s).buf = s.buf.drop m) (hr : ∀ a m, r = .ok (a, m) → m ≤ s.buf.length)
    (h : orUnderflow r k s = (.ok n, s')) : s'.buf.length + n = s.buf.length := by
  unfold orUnderflow at h
  split at h
  · rename_i a m
    simp only [Prod.mk.injEq, Res.ok.injEq] at h
    obtain ⟨rfl, rfl⟩ := h
    have := hr a m rfl
    rw [hk, List.length_drop]; omega
  all_goals (simp only [Prod.mk.injEq, Res.ok.injEq, reduceCtorEq, false_and] at h)
  all_goals (obtain ⟨rfl, rfl⟩ := h; rfl)

theorem step_removes (w : Nat) (chk : Bool) (s s' : DState) (n : Nat) (h : decodeStepOn w chk s = (.ok n, s')) :
    s'.buf.length + n = s.buf.length := by
  unfold decodeStepOn at h
  split at h
  · refine orUnderflow_removes ?_ ?_ h
    · intros; rfl
    · intro a m hm; exact (decodeKey_count hm).1
  · refine orUnderflow_removes ?_ ?_ h
    · intros; rfl
    · intro a m hm; have := extractLoop_count s.buf 0 [] a m hm; omega
  · refine orUnderflow_removes ?_ ?_ h
    · intros; rfl
    · intro a m hm
      unfold extractBit32 at hm
      split at hm
      · cases hm
      · simp only [Res.ok.injEq, Prod.mk.injEq] at hm; omega
  · refine orUnderflow_removes ?_ ?_ h
    · intros; rfl
    · intro a m hm
      unfold extractBit64 at hm
      split at hm
      · cases hm
      · simp only [Res.ok.injEq, Prod.mk.injEq] at hm; omega
  · unfold stepLdOn at h
    split at h
    · rename_i len _
      refine orUnderflow_removes ?_ ?_ h
      · intros; rfl
      · intro a m hm
        simp only [extractLdOn] at hm
        split at hm
        · cases hm
        · simp only [Res.ok.injEq, Prod.mk.injEq] at hm; omega
    · refine orUnderflow_removes ?_ ?_ h
      · intros; rfl
      · intro a m hm; have := varintLoop_count chk s.buf 0 0 a m hm; omega

theorem step_zero (chk : Bool) (s t : DState) (h : decodeStep chk s = (.ok 0, t)) : t = s ∨ t.key.2 = .unknown := by
  have key : ∀ {α : Type} {r : Res DecoderError (α × Nat)} {k : α → Nat → DState → DState},
      orUnderflow r k s = (.ok 0, t) → t = s ∨ ∃ a, r = .ok (a, 0) ∧ t = k a 0 s := by
    intro α r k h
    unfold orUnderflow at h
    split at h
    · rename_i a m
      simp only [Prod.mk.injEq, Res.ok.injEq] at h
      obtain ⟨rfl, rfl⟩ := h
      exact Or.inr ⟨a, rfl, rfl⟩
    all_goals (simp only [Prod.mk.injEq, reduceCtorEq, false_and] at h)
    exact Or.inl h.2.symm
  unfold decodeStep at h
  split at h
  · rcases key h with h | ⟨a, h, _⟩
    · exact Or.inl h
    · exact absurd (decodeKey_count h).2 (Nat.lt_irrefl _)
  · rcases key h with h | ⟨a, _, rfl⟩
    · exact Or.inl h
    · exact Or.inr rfl
  · rcases key h with h | ⟨a, _, rfl⟩
    · exact Or.inl h
    · exact Or.inr rfl
  · rcases key h with h | ⟨a, _, rfl⟩
    · exact Or.inl h
    · exact Or.inr rfl
  · unfold stepLd at h
    split at h
    · rcases key h with h | ⟨a, _, rfl⟩
      · exact Or.inl h
      · exact Or.inr rfl
    · rcases key h with h | ⟨a, h, _⟩
      · exact Or.inl h
      · exact absurd (varintLoop_count chk s.buf 0 0 a 0 h).2 (Nat.lt_irrefl _)

theorem loopOn_succ (w : Nat) (chk : Bool) (fuel total : Nat) (s : DState) :
    decodeLoopOn w chk (fuel + 1) total s = match decodeStepOn w chk s with
      | (.ok n, s') => if n = 0 then (.ok total, s') else decodeLoopOn w chk fuel (total + n) s'
      | (.err e, s') => (.err e, s')
      | (.panic, s') => (.panic, s')
      | (.hang, s') => (.hang, s') := by
  show (decodeStepOn w chk >>= _) s = _
  rw [M.bind_apply]
  cases decodeStepOn w chk s with
  | mk r t =>
    cases r <;> simp

theorem loop_succ (chk : Bool) (fuel total : Nat) (s : DState) :
    decodeLoop chk (fuel + 1) total s = match decodeStep chk s with
      | (.ok n, s') => if n = 0 then (.ok total, s') else decodeLoop chk fuel (total + n) s'
      | (.err e, s') => (.err e, s')
      | (.panic, s') => (.panic, s')
      | (.hang, s') => (.hang, s') := by
  show (decodeStep chk >>= _) s = _
  rw [M.bind_apply]
  cases decodeStep chk s with
  | mk r t =>
    cases r <;> simp

theorem loopOn_total (w : Nat) (chk : Bool) : ∀ (f total : Nat) (s : DState),
    decodeLoopOn w chk f total s = (plus total (decodeLoopOn w chk f 0 s).1, (decodeLoopOn w chk f 0 s).2) := by
  intro f
  induction f with
  | zero => intro total s; rfl
  | succ f ih =>
    intro total s
    rw [loopOn_succ, loopOn_succ]
    cases hs : decodeStepOn w chk s with
    | mk r t =>
      cases r with
      | ok n =>
        simp only
        by_cases hn : n = 0
        · simp [hn, plus]
        · have e1 := ih (total + n) t
          have e2 := ih (0 + n) t
          simp only [if_neg hn]
          rw [e1, e2]
          simp only [Prod.mk.injEq, and_true]
          cases (decodeLoopOn w chk f 0 t).1 <;> simp [plus, Nat.add_assoc]
      | err e => rfl
      | panic => rfl
      | hang => rfl

/-- Enough fuel is enough, and the total is only added. -/
theorem loopOn_shift (w : Nat) (chk : Bool) : ∀ (f1 f2 total : Nat) (s : DState), s.buf.length < f1 → s.buf.length < f2 →
    decodeLoopOn w chk f1 total s = (plus total (decodeLoopOn w chk f2 0 s).1, (decodeLoopOn w chk f2 0 s).2) := by
  intro f1
  induction f1 with
  | zero => intro f2 total s h; omega
  | succ f1 ih =>
    intro f2 total s h1 h2
    obtain ⟨g, rfl⟩ : ∃ g, f2 = g + 1 := ⟨f2 - 1, by omega⟩
    rw [loopOn_succ, loopOn_succ]
    cases hs : decodeStepOn w chk s with
    | mk r t =>
      cases r with
      | ok n =>
        simp only
        by_cases hn : n = 0
        · simp [hn, plus]
        · have hr := step_removes w chk s t n hs
          have e1 := ih g (total + n) t (by omega) (by omega)
          have e2 := loopOn_total w chk g n t
          simp only [if_neg hn]
          rw [e1, Nat.zero_add, e2]
          simp only [Prod.mk.injEq, and_true]
          cases (decodeLoopOn w chk g 0 t).1 <;> simp [plus, Nat.add_assoc]
      | err e => rfl
      | panic => rfl
      | hang => rfl

theorem loop_narrow (w : Nat) (chk : Bool) : ∀ (fuel total : Nat) (s : DState), s.buf.length < 2 ^ w →
    ¬ WaitsForTooMuch w (decodeLoop chk fuel total s).2 → decodeLoopOn w chk fuel total s = decodeLoop chk fuel total s := by
  intro fuel
  induction fuel with
  | zero => intros; rfl
  | succ fuel ih =>
    intro total s hb hn
    by_cases hw : WaitsForTooMuch w s
    · rw [loop_succ, step_waits w chk s hw hb] at hn
      exact absurd hw hn
    · rw [loop_succ] at hn ⊢
      rw [loopOn_succ, step_narrow w chk s hw]
      cases hs : decodeStep chk s with
      | mk r t =>
        rw [hs] at hn
        cases r with
        | ok n =>
          simp only at hn ⊢
          by_cases h0 : n = 0
          · simp [h0]
          · rw [if_neg h0] at hn ⊢
            rw [if_neg h0]
            have hr := step_removes w chk s t n ((step_narrow w chk s hw).trans hs)
            exact ih _ _ (by omega) hn
        | err e => rfl
        | panic => rfl
        | hang => rfl

theorem loop_truncated (w : Nat) (chk : Bool) : ∀ (fuel total : Nat) (s s1 : DState) (m : Nat), s.buf.length < 2 ^ w → s.buf.length < fuel →
    decodeLoop chk fuel total s = (.ok m, s1) → WaitsForTooMuch w s1 →
    decodeLoopOn w chk fuel total s = (plus m (decodeOn w chk s1).1, (decodeOn w chk s1).2) := by
  intro fuel
  induction fuel with
  | zero => intro total s s1 m _ h; omega
  | succ fuel ih =>
    intro total s s1 m hb hf h hw1
    by_cases hw : WaitsForTooMuch w s
    · rw [loop_succ, step_waits w chk s hw hb] at h
      simp only [if_pos, Prod.mk.injEq, Res.ok.injEq] at h
      obtain ⟨rfl, rfl⟩ := h
      exact loopOn_shift w chk _ _ _ _ hf (Nat.lt_succ_self _)
    · rw [loop_succ] at h
      rw [loopOn_succ, step_narrow w chk s hw]
      cases hs : decodeStep chk s with
      | mk r t =>
        rw [hs] at h
        have hs' := (step_narrow w chk s hw).trans hs
        cases r with
        | ok n =>
          have hr := step_removes w chk s t n hs'
          simp only at h ⊢
          by_cases h0 : n = 0
          · rw [if_pos h0] at h ⊢
            simp only [Prod.mk.injEq, Res.ok.injEq] at h
            obtain ⟨rfl, rfl⟩ := h
            subst h0
            rcases step_zero chk s t hs with rfl | h
            · exact absurd hw1 hw
            · rw [hw1.1] at h; cases h
          · rw [if_neg h0] at h ⊢
            exact ih _ _ _ _ (by omega) (by omega) h hw1
        | err e => cases h
        | panic => cases h
        | hang => cases h

/-- C91. On a 64-bit target the width-aware model is `decode` itself. -/
theorem C91_width64 (chk : Bool) (s : DState) : decodeOn 64 chk s = decode chk s := by
  have h : ∀ s, ¬ WaitsForTooMuch 64 s := by
    rintro s ⟨_, l, _, h⟩
    have := l.toNat_lt
    omega
  have hl : ∀ fuel total s, decodeLoopOn 64 chk fuel total s = decodeLoop chk fuel total s := by
    intro fuel
    induction fuel with
    | zero => intros; rfl
    | succ fuel ih =>
      intro total s
      rw [loop_succ, loopOn_succ, step_narrow 64 chk s (h s)]
      cases decodeStep chk s with
      | mk r t => cases r <;> simp [ih]
  exact hl _ _ _

/-- C91. On a target with a `usize` of `w` bits, for a buffer that fits its address space, `decode` gives the same result and
leaves the same state as on a 64-bit target, unless the 64-bit decoder ends up waiting for the payload of a field whose
declared length does not fit `w` bits. -/
theorem C91_same_on_narrow (w : Nat) (chk : Bool) (s : DState) (hb : s.buf.length < 2 ^ w)
    (hn : ¬ WaitsForTooMuch w (decode chk s).2) : decodeOn w chk s = decode chk s :=
  loop_narrow w chk _ 0 s hb hn

/-- The field with the `k` next bytes as its payload was delivered, and the decoder is ready for the next key. -/
def deliver (k : Nat) (s : DState) : DState :=
  { key := (0, .unknown), ldLen := none, buf := s.buf.drop k, dst := s.dst ++ [(s.key.1, s.key.2, s.buf.take k)] }

/-- C91. In the other case the narrow decoder takes the declared length modulo `2^w`: it still waits when fewer bytes are
there, and otherwise delivers that many bytes as the whole field and goes on with a wrong field boundary. -/
theorem C91_length_truncated (w : Nat) (chk : Bool) (s s1 : DState) (n : Nat) (l : UInt64) (hb : s.buf.length < 2 ^ w)
    (h : decode chk s = (.ok n, s1)) (hk : s1.key.2 = .lengthDelimited) (hl : s1.ldLen = some l) (hbig : 2 ^ w ≤ l.toNat) :
    (s1.buf.length < l.toNat % 2 ^ w → decodeOn w chk s = (.ok n, s1)) ∧
    (l.toNat % 2 ^ w = 0 → decodeOn w chk s = (.ok n, deliver 0 s1)) ∧
    (0 < l.toNat % 2 ^ w → l.toNat % 2 ^ w ≤ s1.buf.length →
      let after := decodeOn w chk (deliver (l.toNat % 2 ^ w) s1)
      decodeOn w chk s = (plus (n + l.toNat % 2 ^ w) after.1, after.2)) := by
  have h1 : decodeOn w chk s = (plus n (decodeOn w chk s1).1, (decodeOn w chk s1).2) :=
    loop_truncated w chk _ 0 s s1 n hb (Nat.lt_succ_self _) h ⟨hk, l, hl, hbig⟩
  have hstep : decodeStepOn w chk s1 = if s1.buf.length < l.toNat % 2 ^ w then (.ok 0, s1) else
      (.ok (l.toNat % 2 ^ w), deliver (l.toNat % 2 ^ w) s1) := by
    simp only [decodeStepOn, hk, stepLdOn, hl, stepLdBytesOn, extractLdOn]
    split <;> rfl
  have hloop : decodeOn w chk s1 = decodeLoopOn w chk (s1.buf.length + 1) 0 s1 := rfl
  rw [loopOn_succ, hstep] at hloop
  refine ⟨?_, ?_, ?_⟩
  · intro h2
    rw [if_pos h2] at hloop
    rw [h1, hloop]; rfl
  · intro h2
    rw [h2] at hloop
    simp only [Nat.not_lt_zero, if_false] at hloop
    rw [h1, hloop]; rfl
  · intro h2 h3
    rw [if_neg (Nat.not_lt.mpr h3)] at hloop
    simp only at hloop
    have hlen : (deliver (l.toNat % 2 ^ w) s1).buf.length + l.toNat % 2 ^ w = s1.buf.length := by
      simp only [deliver, List.length_drop]; omega
    rw [if_neg (by omega), loopOn_shift w chk _ ((deliver (l.toNat % 2 ^ w) s1).buf.length + 1) _ _ (by omega) (Nat.lt_succ_self _)]
      at hloop
    rw [h1, hloop]
    show (plus n (plus _ (decodeOn w chk (deliver (l.toNat % 2 ^ w) s1)).1), _) = _
    simp only [Prod.mk.injEq]
    refine ⟨?_, rfl⟩
    cases (decodeOn w chk (deliver (l.toNat % 2 ^ w) s1)).1 <;> simp [plus, Nat.add_assoc]

/-- A field with tag 1 that declares 2^32+1 bytes of which two are there: on a 64-bit target the decoder waits, on a 32-bit
target it delivers one byte as the field and then reads the second as a key. -/
example : decode true (DState.fresh [0x0A, 0x81, 0x80, 0x80, 0x80, 0x10, 0x61, 0x08]) =
      (.ok 6, { key := (1, .lengthDelimited), ldLen := some 4294967297, buf := [0x61, 0x08], dst := [] }) ∧
    decodeOn 32 true (DState.fresh [0x0A, 0x81, 0x80, 0x80, 0x80, 0x10, 0x61, 0x08]) =
      (.ok 8, { key := (1, .varint), ldLen := none, buf := [], dst := [(1, .lengthDelimited, [0x61])] }) := by
  decide +kernel

/-- An ordinary message meets the hypotheses of `C91_same_on_narrow` for 32 bits. -/
example : ¬ WaitsForTooMuch 32 (decode true (DState.fresh [0x0A, 1, 0x61, 0x10, 5])).2 ∧
    ([0x0A, 1, 0x61, 0x10, 5] : Bytes).length < 2 ^ 32 := by
  have h : (decode true (DState.fresh [0x0A, 1, 0x61, 0x10, 5])).2.key.2 = .unknown := by decide +kernel
  refine ⟨?_, by decide⟩
  rintro ⟨h2, _⟩
  rw [h] at h2
  cases h2

end Verif.Props
