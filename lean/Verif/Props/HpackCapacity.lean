import Verif.Hpack.Capacity
import Verif.Lemmas.HpackBlock
/-! Property theorems C83: the result of `decode` does not depend on the capacity the allocator grants. -/
namespace Verif.Props
open Verif Verif.Hpack Verif.Spec

theorem granted_spec (grant : Nat → Nat) (hg : ∀ i, 1 ≤ grant i) : ∀ (fuel i total : Nat) (s : DecoderState) (fuel' : Nat), s.table.WF →
    s.buf.length ≤ fuel → s.buf.length ≤ fuel' →
    ∃ hs lost, (decodeLoopGranted grant fuel i total s).1 = (decodeLoop fuel' total s).1 ∧
      (decodeLoop fuel' total s).2.dst = s.dst ++ hs ++ lost ∧
      (decodeLoopGranted grant fuel i total s).2 = { (decodeLoop fuel' total s).2 with dst := s.dst ++ hs } ∧
      ((decodeLoop fuel' total s).1.isOk = true → lost = []) := by
  intro fuel
  induction fuel with
  | zero =>
    intro i total s fuel' _ hf _
    have hnil : s.buf = [] := List.eq_nil_of_length_eq_zero (by omega)
    rw [decodeLoop_nil _ _ hnil]
    have he : s.buf.isEmpty = true := by simp [hnil]
    refine ⟨[], [], ?_, by simp, ?_, fun _ => rfl⟩ <;> (unfold decodeLoopGranted; simp [he])
  | succ fuel ih =>
    intro i total s fuel' hwf hf hf'
    by_cases hnil : s.buf = []
    · rw [decodeLoop_nil _ _ hnil]
      have he : s.buf.isEmpty = true := by simp [hnil]
      refine ⟨[], [], ?_, by simp, ?_, fun _ => rfl⟩ <;> (unfold decodeLoopGranted; simp [he])
    have hemp : s.buf.isEmpty = false := by simpa using hnil
    obtain ⟨s1, ws, hs, r, h1, ⟨⟨used, hb, hblk⟩, hdst, hwf1, hsp, hlim⟩, h3⟩ :=
      decodeExactLoop_spec (grant i) 0 { s with dst := [] } hwf
    simp only [List.nil_append] at hdst hb hblk hsp hlim
    obtain ⟨t', h4, h5, fuel2, hf2, h6⟩ := block_steps hblk s fuel' total s1.buf hwf rfl rfl hb hf'
    have ht' : t' = s1.table := Table.WF.ext h4 hwf1 h5
    subst ht'
    have hst : ({ s with buf := s1.buf, dst := s.dst ++ hs, table := s1.table } : DecoderState) = { s1 with dst := s.dst ++ s1.dst } := by
      obtain ⟨sp1, m1, t1, buf1, d1⟩ := s1
      simp only at hsp hlim hdst ⊢
      rw [hsp, hlim, hdst]
    rw [hst] at h6
    have hde : decodeExact (grant i) { s with dst := [] } = (r, s1) := h1
    unfold decodeLoopGranted
    simp only [hemp, Bool.false_eq_true, if_false, hde]
    rcases h3 with ⟨hr, h3⟩ | ⟨hstop, _⟩
    · subst hr
      simp only [Nat.zero_add]
      have hlt : s1.buf.length ≤ fuel := by
        have h7 : s.buf.length = used.length + s1.buf.length := by rw [hb]; simp
        rcases h3 with ⟨h3, _⟩ | h3
        · rw [h3]; simp
        · have := hg i
          have hu : 1 ≤ used.length := by
            obtain ⟨hw, rfl, _⟩ := hblk
            cases ws with
            | nil => simp at h3; omega
            | cons w ws =>
              have := RepWire.pos (hw w List.mem_cons_self)
              simp [wireOf]; omega
          omega
      obtain ⟨hs2, lost, e1, e2, e3, e4⟩ := ih (i + 1) (total + (headerOctets ws).length) { s1 with dst := s.dst ++ s1.dst } fuel2 hwf1 hlt hf2
      rw [← h6] at e1 e2 e3 e4
      refine ⟨hs ++ hs2, lost, e1, ?_, ?_, e4⟩
      · rw [e2, hdst]; simp
      · rw [e3, hdst]; simp
    · have key : s1.buf ≠ [] ∧ ((∃ e, r = .err e) ∨ r = .panic) ∧ decodeOne s1 = (r, s1) := by
        cases hstop with
        | err e hne h _ _ => exact ⟨hne, Or.inl ⟨e, rfl⟩, h⟩
        | panic hne h _ _ => exact ⟨hne, Or.inr rfl, h⟩
      obtain ⟨hne, hr, h7⟩ := key
      have hfail : ∀ d, decodeOne { s1 with dst := d } = (r, { s1 with dst := d }) := by
        intro d
        rcases decodeOne_frame hwf1 hne with ⟨rep, bs, rest, hdr, t', hb, hw, ha, hwf', h⟩ | ⟨hno, ⟨e, he, hc⟩ | ⟨he, hc⟩⟩
        · have := (h s1.dst).symm.trans h7
          rcases hr with ⟨e, rfl⟩ | rfl <;> cases this
        · have := (he s1.dst).symm.trans h7
          simp only [Prod.mk.injEq] at this
          rw [he d, this.1]
        · have := (he s1.dst).symm.trans h7
          simp only [Prod.mk.injEq] at this
          rw [he d, this.1]
      have h8 := decodeLoop_fail (s := { s1 with dst := s.dst ++ s1.dst }) hwf1 hne (total := total + (headerOctets ws).length) hf2
        (hfail _) (by rcases hr with ⟨e, rfl⟩ | rfl <;> (intro n h; cases h))
      rw [h8] at h6
      rw [h6]
      refine ⟨[], s1.dst, ?_, by simp, ?_, ?_⟩ <;> (rcases hr with ⟨e, rfl⟩ | rfl) <;> simp [Res.isOk]

/-- C83. Whatever capacities (at least one) the allocator grants to the vectors `decode` makes inside, it returns the same
result, count included, and leaves the same table, limit and buffer. When it succeeds it delivers the same headers; when it
fails, the delivered headers are the same up to a tail (the headers read into the vector that the failing round throws away). -/
theorem C83_any_capacity (grant : Nat → Nat) (hg : ∀ i, 1 ≤ grant i) (s : DecoderState) (hwf : s.table.WF) :
    (decodeGranted grant s).1 = (decode s).1 ∧
    (decodeGranted grant s).2.table = (decode s).2.table ∧ (decodeGranted grant s).2.buf = (decode s).2.buf ∧
    (decodeGranted grant s).2.maxDynamicSize = (decode s).2.maxDynamicSize ∧
    (∀ k, (decode s).1 = .ok k → (decodeGranted grant s).2.dst = (decode s).2.dst) ∧
    ∃ lost, (decode s).2.dst = (decodeGranted grant s).2.dst ++ lost := by
  obtain ⟨hs, lost, h1, h2, h3, h4⟩ := granted_spec grant hg s.buf.length 0 0 s s.buf.length hwf (Nat.le_refl _) (Nat.le_refl _)
  have e : decodeLoop s.buf.length 0 s = decode s := rfl
  have e' : decodeLoopGranted grant s.buf.length 0 0 s = decodeGranted grant s := rfl
  rw [e, e'] at h1
  rw [e] at h2 h4
  rw [e, e'] at h3
  refine ⟨h1, by rw [h3], by rw [h3], by rw [h3], ?_, lost, by rw [h2, h3]⟩
  intro k hk
  rw [h3, h2, h4 (by rw [hk]; rfl), List.append_nil]

/-- C83. With the capacity 1 it is `decode` itself, also when it fails. -/
theorem C83_capacity_one (s : DecoderState) : decodeGranted (fun _ => 1) s = decode s := by
  have h : ∀ (fuel i total : Nat) (s : DecoderState), decodeLoopGranted (fun _ => 1) fuel i total s = decodeLoop fuel total s := by
    intro fuel
    induction fuel with
    | zero => intro i total s; unfold decodeLoopGranted decodeLoop; rfl
    | succ fuel ih =>
      intro i total s
      unfold decodeLoopGranted decodeLoop
      simp only [ih]
      generalize decodeExact 1 _ = x
      obtain ⟨r, t⟩ := x
      cases r <;> rfl
  exact h _ _ _ _

/-- Two headers and a bad octet: with capacity 2 the second header of the failing round is lost, with capacity 1 it is not. -/
example : (decode { DecoderState.default with buf := [0x82, 0x87, 0x84, 0x80] }).1 = .err .InvalidIndex ∧
    (decode { DecoderState.default with buf := [0x82, 0x87, 0x84, 0x80] }).2.dst.length = 3 ∧
    (decodeGranted (fun _ => 2) { DecoderState.default with buf := [0x82, 0x87, 0x84, 0x80] }).1 = .err .InvalidIndex ∧
    (decodeGranted (fun _ => 2) { DecoderState.default with buf := [0x82, 0x87, 0x84, 0x80] }).2.dst.length = 2 := by
  decide +kernel

end Verif.Props
