import Verif.Hpack.Work
import Verif.Lemmas.HpackBlock
import Verif.Props.HuffCost
/-! Lemmas for C111: the counted HPACK decoder. -/
namespace Verif.Hpack
open Verif.Spec
open Verif.Huffman (Speed)

/-- The counted step does what the step does. -/
def Sim {α : Type} (mw : MW α) (m : M DecoderState DecoderError α) : Prop :=
  ∀ s k, (mw (s, k)).1 = (m s).1 ∧ (mw (s, k)).2.1 = (m s).2

theorem Sim.bind {α β : Type} {mw : MW α} {m : M DecoderState DecoderError α} {f : α → MW β} {g : α → M DecoderState DecoderError β}
    (h : Sim mw m) (hf : ∀ a, Sim (f a) (g a)) : Sim (mw >>= f) (m >>= g) := by
  intro s k
  have h1 := h s k
  rw [M.bind_apply, M.bind_apply]
  rcases hc : mw (s, k) with ⟨x, s1, k1⟩
  rcases hd : m s with ⟨y, s2⟩
  rw [hc, hd] at h1
  obtain ⟨rfl, rfl⟩ := h1
  cases x
  · exact hf _ _ _
  all_goals exact ⟨rfl, rfl⟩

theorem Sim.free {α : Type} (m : M DecoderState DecoderError α) : Sim (free m) m := fun _ _ => ⟨rfl, rfl⟩
theorem Sim.lift {α : Type} (x : Res DecoderError α) : Sim (M.lift x) (M.lift x) := fun _ _ => ⟨rfl, rfl⟩
theorem Sim.pure {α : Type} (a : α) : Sim (pure a) (pure a) := fun _ _ => ⟨rfl, rfl⟩
theorem Sim.liftW {α : Type} {r : Res DecoderError α × Nat} {x : Res DecoderError α} (h : r.1 = x) : Sim (liftW r) (M.lift x) :=
  fun _ _ => ⟨h, rfl⟩

theorem decodeStringW_result (buf : Bytes) (sp : Speed) : (decodeStringW buf sp).1 = decodeString buf sp := by
  unfold decodeStringW decodeString
  cases buf with
  | nil => rfl
  | cons b0 bs =>
    simp only
    cases hd : decodeInteger (b0 :: bs) 7 with
    | ok x =>
      obtain ⟨len, total⟩ := x
      simp only [Res.bind_ok]
      by_cases h1 : (b0 :: bs).length < total
      · rw [if_pos h1, if_pos h1]
      · rw [if_neg h1, if_neg h1]
        by_cases h2 : len > (b0 :: bs).length - total
        · rw [if_pos h2, if_pos h2]
        · rw [if_neg h2, if_neg h2]
          by_cases h3 : ((b0 &&& 128) == 128) = true
          · rw [if_pos h3, if_pos h3, ← Props.C108_same_result]
            rcases Huffman.decodeC (((b0 :: bs).drop total).take len) [] sp with ⟨r, d, w⟩
            rcases r with _ | ⟨⟨⟩⟩ | _ | _ <;> rfl
          · rw [if_neg h3, if_neg h3]
    | err e => rfl
    | panic => rfl
    | hang => rfl

/-- Lookups are bounded by the octets of the literal if it is read, and by the octets there are otherwise. -/
theorem decodeStringW_cost (buf : Bytes) (sp : Speed) :
    (∃ str n w, decodeStringW buf sp = (.ok (str, n), w) ∧ n ≤ buf.length ∧ w ≤ 8 * n) ∨
    (∃ r w, decodeStringW buf sp = (r, w) ∧ (∀ x, r ≠ .ok x) ∧ w ≤ 8 * buf.length) := by
  unfold decodeStringW
  cases buf with
  | nil => right; exact ⟨_, _, rfl, by simp, by simp⟩
  | cons b0 bs =>
    simp only
    cases hd : decodeInteger (b0 :: bs) 7 with
    | ok x =>
      obtain ⟨len, total⟩ := x
      obtain ⟨_, is, _, hb, _, ht, hw⟩ := decodeInteger_sound (by decide) (by decide) hd
      have htot : 1 ≤ total := by
        rw [ht]
        rcases hw.1 with ⟨_, rfl⟩ | ⟨cs, _, _, rfl⟩ <;> simp
      simp only
      by_cases h1 : (b0 :: bs).length < total
      · rw [if_pos h1]; right; exact ⟨_, _, rfl, by simp, by simp⟩
      · rw [if_neg h1]
        by_cases h2 : len > (b0 :: bs).length - total
        · rw [if_pos h2]; right; exact ⟨_, _, rfl, by simp, by simp⟩
        · rw [if_neg h2]
          by_cases h3 : ((b0 &&& 128) == 128) = true
          · rw [if_pos h3]
            have hl := (Props.C108_linear (((b0 :: bs).drop total).take len) [] sp).2
            have hlen : (((b0 :: bs).drop total).take len).length ≤ len := by rw [List.length_take]; omega
            rcases hc : Huffman.decodeC (((b0 :: bs).drop total).take len) [] sp with ⟨r, d, w⟩
            rw [hc] at hl
            simp only at hl
            rcases r with _ | ⟨⟨⟩⟩ | _ | _
            · left; exact ⟨_, _, _, rfl, by omega, by omega⟩
            · right; exact ⟨_, _, rfl, by simp, by omega⟩
            · right; exact ⟨_, _, rfl, by simp, by omega⟩
            · right; exact ⟨_, _, rfl, by simp, by omega⟩
          · rw [if_neg h3]; left; exact ⟨_, _, _, rfl, by omega, by omega⟩
    | err e => right; exact ⟨_, _, rfl, by simp, by simp⟩
    | panic => right; exact ⟨_, _, rfl, by simp, by simp⟩
    | hang => right; exact ⟨_, _, rfl, by simp, by simp⟩

theorem decodeNameW_result (s : DecoderState) (i total : Nat) : (decodeNameW s i total).1 = decodeName s i total := by
  unfold decodeNameW decodeName
  by_cases h : i = 0
  · rw [if_pos h, if_pos h, ← decodeStringW_result]
    rcases decodeStringW (s.buf.drop total) s.speed with ⟨r, w⟩
    cases r <;> rfl
  · rw [if_neg h, if_neg h]
    cases s.table.get (UInt32.ofNat i) <;> rfl

theorem decodeNameW_cost (s : DecoderState) (i total : Nat) (ht : total ≤ s.buf.length) :
    (∃ str n w, decodeNameW s i total = (.ok (str, n), w) ∧ total ≤ n ∧ n ≤ s.buf.length ∧ w ≤ 8 * (n - total)) ∨
    (∃ r w, decodeNameW s i total = (r, w) ∧ (∀ x, r ≠ .ok x) ∧ w ≤ 8 * (s.buf.length - total)) := by
  unfold decodeNameW
  by_cases h : i = 0
  · rw [if_pos h]
    rcases decodeStringW_cost (s.buf.drop total) s.speed with ⟨str, n, w, e, h1, h2⟩ | ⟨r, w, e, h1, h2⟩
    · rw [e]
      rw [List.length_drop] at h1
      left; exact ⟨_, _, _, rfl, by omega, by omega, by omega⟩
    · rw [e]
      rw [List.length_drop] at h2
      right
      cases r with
      | ok x => exact absurd rfl (h1 x)
      | err => exact ⟨_, _, rfl, by simp, h2⟩
      | panic => exact ⟨_, _, rfl, by simp, h2⟩
      | hang => exact ⟨_, _, rfl, by simp, h2⟩
  · rw [if_neg h]
    cases s.table.get (UInt32.ofNat i) with
    | some x => left; exact ⟨_, _, _, rfl, by omega, by omega, by omega⟩
    | none => right; exact ⟨_, _, rfl, by simp, by omega⟩

theorem decodeLiteralW_sim : Sim decodeLiteralW decodeLiteral := by
  intro s k
  unfold decodeLiteralW decodeLiteral
  rw [M.bind_apply, M.bind_apply]
  simp only [M.get_apply]
  cases hb : s.buf with
  | nil => exact ⟨rfl, rfl⟩
  | cons o os =>
    refine Sim.bind (Sim.lift _) (fun x => ?_) s k
    refine Sim.bind (Sim.liftW (decodeNameW_result _ _ _)) (fun y => ?_)
    refine Sim.bind (Sim.liftW (decodeStringW_result _ _)) (fun z => ?_)
    refine Sim.bind (Sim.free _) (fun _ => ?_)
    exact Sim.bind (Sim.free _) (fun _ => Sim.pure _)

theorem decodeOneW_sim : Sim decodeOneW decodeOne := by
  intro s k
  unfold decodeOneW decodeOne
  rw [M.bind_apply, M.bind_apply]
  simp only [M.get_apply]
  cases hb : s.buf with
  | nil => exact ⟨rfl, rfl⟩
  | cons o os =>
    simp only [M.ite_apply]
    by_cases h1 : o &&& 128 = 128
    · simp only [h1, if_true]; exact Sim.free _ _ _
    · simp only [h1, if_false]
      by_cases h2 : o &&& 64 = 64
      · simp only [h2, if_true]; exact decodeLiteralW_sim _ _
      · simp only [h2, if_false]
        by_cases h3 : o &&& 32 = 32
        · simp only [h3, if_true]; exact Sim.bind (Sim.free _) (fun _ => Sim.pure _) _ _
        · simp only [h3, if_false, ite_self]; exact decodeLiteralW_sim _ _

theorem decodeExactLoopW_sim (limit total : Nat) : Sim (decodeExactLoopW limit total) (decodeExactLoop limit total) := by
  induction limit generalizing total with
  | zero => exact Sim.pure _
  | succ limit ih =>
    intro s k
    simp only [decodeExactLoopW, decodeExactLoop]
    rw [M.bind_apply, M.bind_apply]
    simp only [M.get_apply, M.ite_apply]
    by_cases h : s.buf.isEmpty = true
    · simp only [h, if_true]; exact Sim.pure _ _ _
    · simp only [h, Bool.false_eq_true, if_false]
      exact Sim.bind decodeOneW_sim (fun n => ih _) s k

theorem decodeLoopW_sim (fuel total : Nat) : Sim (decodeLoopW fuel total) (decodeLoop fuel total) := by
  induction fuel generalizing total with
  | zero =>
    intro s k
    unfold decodeLoopW decodeLoop
    by_cases h : s.buf.isEmpty = true <;> simp [h]
  | succ fuel ih =>
    intro s k
    unfold decodeLoopW decodeLoop
    by_cases h : s.buf.isEmpty = true
    · simp [h]
    · simp only [h, Bool.false_eq_true, if_false]
      have h1 := decodeExactLoopW_sim 1 0 { s with dst := [] } k
      simp only [decodeExactW, decodeExact]
      rcases hc : decodeExactLoopW 1 0 ({ s with dst := [] }, k) with ⟨x, s1, m1⟩
      rcases hd : decodeExactLoop 1 0 { s with dst := [] } with ⟨y, s2⟩
      rw [hc, hd] at h1
      obtain ⟨rfl, rfl⟩ := h1
      cases x
      · exact ih _ _ _
      all_goals exact ⟨rfl, rfl⟩

theorem decodeW_result (s : DecoderState) : ((decodeW s).1, (decodeW s).2.1) = decode s := by
  have h := decodeLoopW_sim s.buf.length 0 s 0
  exact Prod.ext h.1 h.2

/-- One representation: on success it has paid for by the octets taken, otherwise by the octets there are. -/
def Paid (s : DecoderState) (k : Nat) (r : Res DecoderError Nat × DecoderState × Nat) : Prop :=
  (∃ n, r.1 = .ok n ∧ r.2.2 + 8 * r.2.1.buf.length ≤ k + 8 * s.buf.length) ∨
  ((∀ n, r.1 ≠ .ok n) ∧ r.2.2 ≤ k + 8 * s.buf.length)

theorem Paid.free {m : M DecoderState DecoderError Nat} {s : DecoderState} {k : Nat} (h : (m s).2.buf.length ≤ s.buf.length) :
    Paid s k (free m (s, k)) := by
  unfold Paid Hpack.free
  cases hr : (m s).1 with
  | ok n => left; exact ⟨n, rfl, by simp only; omega⟩
  | err e => right; exact ⟨by simp, by simp only; omega⟩
  | panic => right; exact ⟨by simp, by simp only; omega⟩
  | hang => right; exact ⟨by simp, by simp only; omega⟩

theorem decodeLiteralW_cost (s : DecoderState) (k : Nat) : Paid s k (decodeLiteralW (s, k)) := by
  unfold decodeLiteralW
  rw [M.bind_apply]
  simp only [M.get_apply]
  cases hb : s.buf with
  | nil => right; exact ⟨by simp, by simp⟩
  | cons o os =>
    simp only
    rw [← hb, M.bind_apply]
    simp only [M.lift_apply]
    cases hi : decodeInteger s.buf (if o &&& 64 = 64 then 6 else 4) with
    | err e => right; exact ⟨by simp, by simp⟩
    | panic => right; exact ⟨by simp, by simp⟩
    | hang => right; exact ⟨by simp, by simp⟩
    | ok x =>
      obtain ⟨index, total⟩ := x
      have htot : total ≤ s.buf.length := by
        have hp : 1 ≤ (if o &&& 64 = 64 then 6 else 4) ∧ (if o &&& 64 = 64 then 6 else 4) ≤ 8 := by
          split <;> decide
        obtain ⟨_, is, rest, hb', _, ht, _⟩ := decodeInteger_sound hp.1 hp.2 hi
        rw [ht, hb', List.length_append]; omega
      simp only
      rw [M.bind_apply]
      simp only [liftW]
      rcases decodeNameW_cost s index total htot with ⟨nm, n, w, e, h1, h2, h3⟩ | ⟨r, w, e, h1, h2⟩
      · rw [e]
        simp only
        rw [M.bind_apply]
        simp only [liftW]
        rcases decodeStringW_cost (s.buf.drop n) s.speed with ⟨str, n', w', e', h1', h2'⟩ | ⟨r', w', e', h1', h2'⟩
        · rw [e']
          rw [List.length_drop] at h1'
          simp only
          rw [M.bind_apply]
          have key : ∀ d : DecoderState, d.buf = s.buf → Paid s k ((Hpack.free (M.modify fun s => { s with buf := s.buf.drop (n + n') }) >>=
              fun _ => (pure (n + n') : MW Nat)) (d, k + w + w')) := by
            intro d hd
            left
            refine ⟨_, rfl, ?_⟩
            show k + w + w' + 8 * (d.buf.drop (n + n')).length ≤ _
            rw [List.length_drop, hd]
            omega
          by_cases h64 : o &&& 64 = 64
          · simp only [h64, if_true, Hpack.free]
            rw [M.bind_apply]
            simp only [M.lift_apply]
            cases s.table.insert (ε := DecoderError) nm str with
            | ok t => exact key _ rfl
            | err e => right; exact ⟨by simp, by simp only; omega⟩
            | panic => right; exact ⟨by simp, by simp only; omega⟩
            | hang => right; exact ⟨by simp, by simp only; omega⟩
          · simp only [h64, if_false, Hpack.free]
            by_cases h16 : o &&& 16 = 16
            · simp only [h16, if_true]; exact key _ rfl
            · simp only [h16, if_false]; exact key _ rfl
        · rw [e']
          rw [List.length_drop] at h2'
          cases r' with
          | ok x => exact absurd rfl (h1' x)
          | err e => right; exact ⟨by simp, by simp only; omega⟩
          | panic => right; exact ⟨by simp, by simp only; omega⟩
          | hang => right; exact ⟨by simp, by simp only; omega⟩
      · rw [e]
        cases r with
        | ok x => exact absurd rfl (h1 x)
        | err e => right; exact ⟨by simp, by simp only; omega⟩
        | panic => right; exact ⟨by simp, by simp only; omega⟩
        | hang => right; exact ⟨by simp, by simp only; omega⟩

theorem decodeIndexed_shrinks (s : DecoderState) : (decodeIndexed s).2.buf.length ≤ s.buf.length := by
  unfold decodeIndexed
  rw [M.bind_apply]
  simp only [M.get_apply]
  rw [M.bind_apply]
  simp only [M.lift_apply]
  cases decodeInteger s.buf 7 with
  | ok x =>
    simp only
    cases s.table.get (UInt32.ofNat x.1) with
    | none => exact Nat.le_refl _
    | some e =>
      show (s.buf.drop x.2).length ≤ _
      rw [List.length_drop]; omega
  | err e => exact Nat.le_refl _
  | panic => exact Nat.le_refl _
  | hang => exact Nat.le_refl _

theorem decUpdate_shrinks (s : DecoderState) : (decUpdateMaxDynamicSize s).2.buf.length ≤ s.buf.length := by
  unfold decUpdateMaxDynamicSize
  rw [M.bind_apply]
  simp only [M.get_apply]
  rw [M.bind_apply]
  simp only [M.lift_apply]
  cases decodeInteger s.buf 5 with
  | ok x =>
    simp only [M.ite_apply]
    split
    · exact Nat.le_refl _
    · rw [M.bind_apply]
      simp only [M.lift_apply]
      cases s.table.updateMaxDynamicSize (ε := DecoderError) (UInt32.ofNat x.1) with
      | ok t =>
        show (s.buf.drop x.2).length ≤ _
        rw [List.length_drop]; omega
      | err e => exact Nat.le_refl _
      | panic => exact Nat.le_refl _
      | hang => exact Nat.le_refl _
  | err e => exact Nat.le_refl _
  | panic => exact Nat.le_refl _
  | hang => exact Nat.le_refl _

theorem decodeOneW_cost (s : DecoderState) (k : Nat) : Paid s k (decodeOneW (s, k)) := by
  unfold decodeOneW
  rw [M.bind_apply]
  simp only [M.get_apply]
  cases hb : s.buf with
  | nil => right; exact ⟨by simp, by simp⟩
  | cons o os =>
    simp only [M.ite_apply]
    by_cases h1 : o &&& 128 = 128
    · simp only [h1, if_true]; exact Paid.free (decodeIndexed_shrinks s)
    · simp only [h1, if_false]
      by_cases h2 : o &&& 64 = 64
      · simp only [h2, if_true]; exact decodeLiteralW_cost s k
      · simp only [h2, if_false]
        by_cases h3 : o &&& 32 = 32
        · simp only [h3, if_true]
          have h := Paid.free (k := k) (decUpdate_shrinks s)
          rw [M.bind_apply]
          rcases hc : free decUpdateMaxDynamicSize (s, k) with ⟨r, s1, k1⟩
          rw [hc] at h
          rcases h with ⟨n, hr, h⟩ | ⟨hr, h⟩
          · simp only at hr; subst hr; left; exact ⟨_, rfl, h⟩
          · simp only at hr h
            right
            cases r with
            | ok n => exact absurd rfl (hr n)
            | err e => exact ⟨by simp, h⟩
            | panic => exact ⟨by simp, h⟩
            | hang => exact ⟨by simp, h⟩
        · simp only [h3, if_false, ite_self]; exact decodeLiteralW_cost s k

theorem decodeExactLoopW_cost (limit total : Nat) (s : DecoderState) (k : Nat) : Paid s k (decodeExactLoopW limit total (s, k)) := by
  induction limit generalizing total s k with
  | zero => left; exact ⟨_, rfl, Nat.le_refl _⟩
  | succ limit ih =>
    simp only [decodeExactLoopW]
    rw [M.bind_apply]
    simp only [M.get_apply, M.ite_apply]
    by_cases h : s.buf.isEmpty = true
    · simp only [h, if_true]; left; exact ⟨_, rfl, Nat.le_refl _⟩
    · simp only [h, Bool.false_eq_true, if_false]
      rw [M.bind_apply]
      have h1 := decodeOneW_cost s k
      rcases hc : decodeOneW (s, k) with ⟨r, s1, k1⟩
      rw [hc] at h1
      rcases h1 with ⟨n, hr, h1⟩ | ⟨hr, h1⟩
      · simp only at hr h1
        subst hr
        rcases ih (total + n) s1 k1 with ⟨n', h2, h3⟩ | ⟨h2, h3⟩
        · left; exact ⟨n', h2, by simp only at h3 ⊢; omega⟩
        · right; exact ⟨h2, by simp only at h3 ⊢; omega⟩
      · simp only at hr h1
        right
        cases r with
        | ok n => exact absurd rfl (hr n)
        | err e => exact ⟨by simp, h1⟩
        | panic => exact ⟨by simp, h1⟩
        | hang => exact ⟨by simp, h1⟩

theorem decodeLoopW_cost (fuel total : Nat) (s : DecoderState) (k : Nat) : Paid s k (decodeLoopW fuel total (s, k)) := by
  induction fuel generalizing total s k with
  | zero =>
    unfold decodeLoopW
    by_cases h : s.buf.isEmpty = true
    · simp only [h, if_true]; left; exact ⟨_, rfl, Nat.le_refl _⟩
    · simp only [h, Bool.false_eq_true, if_false]; right; exact ⟨by simp, by simp⟩
  | succ fuel ih =>
    unfold decodeLoopW
    by_cases h : s.buf.isEmpty = true
    · simp only [h, if_true]; left; exact ⟨_, rfl, Nat.le_refl _⟩
    · simp only [h, Bool.false_eq_true, if_false]
      have h1 := decodeExactLoopW_cost 1 0 { s with dst := [] } k
      simp only [decodeExactW]
      rcases hc : decodeExactLoopW 1 0 ({ s with dst := [] }, k) with ⟨r, s1, k1⟩
      rw [hc] at h1
      rcases h1 with ⟨n, hr, h1⟩ | ⟨hr, h1⟩
      · simp only at hr h1
        subst hr
        rcases ih (total + n) { s1 with dst := s.dst ++ s1.dst } k1 with ⟨n', h2, h3⟩ | ⟨h2, h3⟩
        · left; exact ⟨n', h2, by simp only at h3 ⊢; omega⟩
        · right; exact ⟨h2, by simp only at h3 ⊢; omega⟩
      · simp only at hr h1
        right
        cases r with
        | ok n => exact absurd rfl (hr n)
        | err e => exact ⟨by simp, h1⟩
        | panic => exact ⟨by simp, h1⟩
        | hang => exact ⟨by simp, h1⟩

end Verif.Hpack
