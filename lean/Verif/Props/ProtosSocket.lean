import Verif.Protos.Socket
import Verif.Props.ProtosStream
/-! Property theorem C103: writers that take the bytes in pieces. -/
namespace Verif.Props
open Verif Verif.Protos Verif.Spec.Proto

/-- No call of `write` fails or takes nothing. -/
def Willing (sc : List WriteOutcome) : Prop := ∀ o ∈ sc, o = .interrupted ∨ ∃ n, o = .accept (n + 1)

theorem socketWriteAll_spec (sc : List WriteOutcome) : ∀ (sent buf : Bytes), ∃ p r sc', buf = p ++ r ∧
    socketWriteAll sc sent buf = (decide (r = []), (sc', sent ++ p)) ∧ (Willing sc → r = [] ∧ Willing sc') := by
  induction sc with
  | nil =>
    intro sent buf
    cases buf with
    | nil => exact ⟨[], [], [], rfl, by simp [socketWriteAll], fun h => ⟨rfl, h⟩⟩
    | cons b bs => exact ⟨b :: bs, [], [], by simp, by simp [socketWriteAll], fun h => ⟨rfl, h⟩⟩
  | cons o sc ih =>
    intro sent buf
    cases buf with
    | nil => exact ⟨[], [], o :: sc, rfl, by simp [socketWriteAll], fun h => ⟨rfl, h⟩⟩
    | cons b bs =>
      cases o with
      | fail =>
        refine ⟨[], b :: bs, sc, rfl, by simp [socketWriteAll], fun h => ?_⟩
        rcases h .fail (by simp) with h | ⟨n, h⟩ <;> cases h
      | interrupted =>
        obtain ⟨p, r, sc', h1, h2, h3⟩ := ih sent (b :: bs)
        exact ⟨p, r, sc', h1, by rw [socketWriteAll, h2], fun h => h3 fun o ho => h o (by simp [ho])⟩
      | accept n =>
        cases n with
        | zero =>
          refine ⟨[], b :: bs, sc, rfl, by simp [socketWriteAll], fun h => ?_⟩
          rcases h (.accept 0) (by simp) with h | ⟨n, h⟩ <;> cases h
        | succ n =>
          obtain ⟨p, r, sc', h1, h2, h3⟩ := ih (sent ++ b :: bs.take n) (bs.drop n)
          refine ⟨b :: bs.take n ++ p, r, sc', ?_, ?_, fun h => h3 fun o ho => h o (by simp [ho])⟩
          · rw [List.append_assoc, ← h1]; simp
          · rw [socketWriteAll, h2]; simp

theorem runPlan_socket (plan : List Bytes) : ∀ (sc : List WriteOutcome) (sent : Bytes), ∃ p r sc', plan.flatten = p ++ r ∧
    runPlan socketWriter plan (sc, sent) = (decide (r = []), (sc', sent ++ p)) ∧ (Willing sc → r = []) := by
  induction plan with
  | nil => intro sc sent; exact ⟨[], [], sc, rfl, by simp [runPlan], fun _ => rfl⟩
  | cons b plan ih =>
    intro sc sent
    obtain ⟨p, r, sc', h1, h2, h3⟩ := socketWriteAll_spec sc sent b
    have hw : socketWriter.writeAll (sc, sent) b = (decide (r = []), (sc', sent ++ p)) := h2
    by_cases hr : r = []
    · subst hr
      obtain ⟨p', r', sc'', h1', h2', h3'⟩ := ih sc' (sent ++ p)
      refine ⟨p ++ p', r', sc'', ?_, ?_, fun h => h3' (h3 h).2⟩
      · rw [List.flatten_cons, h1, h1']; simp
      · rw [runPlan, hw]
        simp only [decide_true]
        rw [h2']; simp
    · refine ⟨p, r ++ plan.flatten, sc', ?_, ?_, fun h => absurd (h3 h).1 hr⟩
      · rw [List.flatten_cons, h1]; simp
      · rw [runPlan, hw]
        simp [hr]

/-- C103. Writers that take bytes in pieces: whatever the schedule of `write` calls (any sizes, interruptions, failures at any point), what
the writer got is a beginning of the bytes that a vector would get; the call succeeds if and only if it is all of them, otherwise it
returns `Interrupted`. If no call of `write` fails, the call succeeds. -/
theorem C103_pieces (fs : List (UInt32 × EncoderLit)) (h : ∀ f ∈ fs, GoodField f) (sc : List WriteOutcome) (sent : Bytes) :
    ∃ p r sc', encodeAll vecWriter fs [] = (.ok (p ++ r).length, p ++ r) ∧
      encodeAll socketWriter fs (sc, sent) = (if r = [] then .ok p.length else .err .interrupted, (sc', sent ++ p)) ∧
      (Willing sc → r = []) := by
  obtain ⟨plan, hp, hr⟩ := encodeAll_runs (fs := fs) (goodField h)
  obtain ⟨p, r, sc', h1, h2, h3⟩ := runPlan_socket plan sc sent
  have hv := C56_append_all fs h []
  simp only [List.nil_append] at hv
  refine ⟨p, r, sc', ?_, ?_, h3⟩
  · rw [hv, ← h1, hp]
  · have := hr _ socketWriter (sc, sent)
    simp only [h2] at this
    rw [this]
    by_cases hn : r = []
    · subst hn
      simp only [decide_true, if_true]
      rw [← hp, h1, List.append_nil]
    · simp [hn]

/-- C103. And what the receiver makes of it: whatever the schedule, the receiver of the bytes gets a beginning of the fields, without an
error; all of them if the call succeeded. -/
theorem C103_received (chk : Bool) (fs : List (UInt32 × EncoderLit)) (h : ∀ f ∈ fs, GoodField f) (sc : List WriteOutcome) (dst : List Rec) :
    ∃ fs1 fs2 t, fs = fs1 ++ fs2 ∧
      drain chk (DState.fresh (encodeAll socketWriter fs (sc, [])).2.2 dst) = (.ok (), t) ∧
      t.dst = dst ++ (fs1.map fun f => (f.1, wireType f.2, payload f.2)) ∧
      (∀ n, (encodeAll socketWriter fs (sc, [])).1 = .ok n → fs2 = []) := by
  obtain ⟨p, r, sc', h1, h2, _⟩ := C103_pieces fs h sc []
  obtain ⟨fs1, fs2, r1, t, e1, e2, e3, e4, e5⟩ := C97_cut_off chk fs h dst p r h1
  refine ⟨fs1, fs2, t, e1, ?_, e5, ?_⟩
  · rw [h2]
    simpa using e4
  · rw [h2]
    intro n hn
    by_cases hr : r = []
    · cases fs2 with
      | nil => rfl
      | cons f fs' =>
        exfalso
        obtain ⟨r', hne, he⟩ := e3
        subst hr
        subst e1
        have hl1 := C56_append_all (fs1 ++ f :: fs') h []
        have hl2 := C56_append_all fs1 (fun g hg => h g (by simp [hg])) []
        have hl3 := C56_append f.1 f.2 (h f (by simp)) []
        simp only [List.nil_append, List.append_nil] at hl1 hl2 hl3 h1
        rw [hl1] at h1
        rw [hl2] at e2
        rw [hl3] at he
        simp only [Prod.mk.injEq] at h1
        have hp := h1.2
        simp only at e2 he
        rw [← e2, List.flatMap_append, List.flatMap_cons, he] at hp
        have := congrArg List.length hp
        simp only [List.length_append] at this
        have : 0 < r'.length := List.length_pos_iff.mpr hne
        omega
    · simp [hr] at hn

/-- C103. The documentation of `EncoderError::Interrupted` says that interrupted operations can typically be retried. That is not so
for `encode`: the bytes written before the failure stay, and after a successful second call the receiver does not get the field. -/
theorem C103_retry_corrupts : ∃ (tag : UInt32) (lit : EncoderLit) (sc : List WriteOutcome) (s1 s2 : List WriteOutcome × Bytes) (n : Nat),
    GoodField (tag, lit) ∧ Encoder.encode socketWriter tag lit (sc, []) = (.err .interrupted, s1) ∧
    Encoder.encode socketWriter tag lit s1 = (.ok n, s2) ∧
    (drain true (DState.fresh s2.2 [])).2.dst = [] := by
  refine ⟨1, .bytes [1, 2, 3], [.accept 1, .fail], ([], [10]), ([], [10, 10, 3, 1, 2, 3]), 5, ⟨by decide, by decide, ?_⟩, by decide, by decide, by decide⟩
  show [1, 2, 3].length < 2 ^ 64
  decide

example : Willing [.accept 1, .interrupted, .accept 2] := by
  intro o ho
  simp only [List.mem_cons, List.not_mem_nil, or_false] at ho
  rcases ho with rfl | rfl | rfl
  · exact Or.inr ⟨0, rfl⟩
  · exact Or.inl rfl
  · exact Or.inr ⟨1, rfl⟩
example : Encoder.encode socketWriter 1 (.bytes [1, 2, 3]) ([.accept 1, .interrupted, .accept 7, .accept 2], []) =
    (.ok 5, ([], [10, 3, 1, 2, 3])) := by decide
example : Encoder.encode socketWriter 1 (.bytes [1, 2, 3]) ([.accept 1, .accept 1, .accept 2, .accept 0], []) =
    (.err .interrupted, ([], [10, 3, 1, 2])) := by decide

end Verif.Props
