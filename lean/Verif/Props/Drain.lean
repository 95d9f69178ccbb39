import Verif.Spec.Moves
import Verif.Hpack.Cost
import Verif.Protos.Cost
import Verif.Lemmas.HpackBlock
import Verif.Lemmas.ProtosMessage
import Verif.Props.Protos
/-! C109: octets moved while decoding. -/
namespace Verif.Spec

/-- Taking off pieces of at least one octet moves at most `n(n-1)/2` octets. -/
theorem movedBy_le (rest : Nat) (ls : List Nat) (h : ∀ l ∈ ls, 1 ≤ l) :
    2 * movedBy rest ls ≤ (ls.sum + rest) * (ls.sum + rest - 1) := by
  induction ls with
  | nil => simp [movedBy]
  | cons l ls ih =>
    have h1 := ih (fun l' hl => h l' (by simp [hl]))
    have h2 := h l (by simp)
    simp only [movedBy, List.sum_cons]
    generalize hm : ls.sum + rest = m at *
    have hn : l + ls.sum + rest = m + 1 + (l - 1) := by omega
    rw [hn]
    have h3 : (m + 1) * m ≤ (m + 1 + (l - 1)) * (m + 1 + (l - 1) - 1) :=
      Nat.mul_le_mul (by omega) (by omega)
    have h4 : (m + 1) * m = m * (m - 1) + 2 * m := by
      cases m with
      | zero => rfl
      | succ k => simp only [Nat.add_sub_cancel]; rw [Nat.add_mul, Nat.add_mul, Nat.mul_comm (k + 1) k]; omega
    omega

theorem movedBy_ones (k : Nat) : 2 * movedBy 0 (List.replicate k 1) = k * (k - 1) := by
  induction k with
  | zero => rfl
  | succ k ih =>
    rw [List.replicate_succ, movedBy, Nat.mul_add, ih]
    simp only [List.sum_replicate_nat, Nat.add_zero, Nat.mul_one, Nat.add_sub_cancel]
    cases k with
    | zero => rfl
    | succ j => simp only [Nat.add_sub_cancel, Nat.add_mul, Nat.mul_add]; omega

end Verif.Spec

namespace Verif.Hpack
open Verif.Spec

theorem decodeExactLoopC_result (limit total : Nat) (s : DecoderState) (m : Nat) :
    (decodeExactLoopC limit total (s, m)).1 = (decodeExactLoop limit total s).1 ∧
    (decodeExactLoopC limit total (s, m)).2.1 = (decodeExactLoop limit total s).2 := by
  induction limit generalizing total s m with
  | zero => exact ⟨rfl, rfl⟩
  | succ limit ih =>
    simp only [decodeExactLoopC, decodeExactLoop]
    rw [M.bind_apply, M.bind_apply]
    simp only [M.get_apply, M.ite_apply, M.pure_apply]
    by_cases h : s.buf.isEmpty = true
    · simp [h]
    · simp only [h, Bool.false_eq_true, if_false]
      rw [M.bind_apply, M.bind_apply]
      simp only [counting]
      rcases decodeOne s with ⟨x, s1⟩
      cases x
      · exact ih _ _ _
      all_goals exact ⟨rfl, rfl⟩

theorem decodeLoopC_result (fuel total : Nat) (s : DecoderState) (m : Nat) :
    (decodeLoopC fuel total (s, m)).1 = (decodeLoop fuel total s).1 ∧
    (decodeLoopC fuel total (s, m)).2.1 = (decodeLoop fuel total s).2 := by
  induction fuel generalizing total s m with
  | zero =>
    unfold decodeLoopC decodeLoop
    by_cases h : s.buf.isEmpty = true <;> simp [h]
  | succ fuel ih =>
    unfold decodeLoopC decodeLoop
    by_cases h : s.buf.isEmpty = true
    · simp [h]
    · simp only [h, Bool.false_eq_true, if_false]
      have h1 := decodeExactLoopC_result 1 0 { s with dst := [] } m
      simp only [decodeExactC, decodeExact]
      rcases hc : decodeExactLoopC 1 0 ({ s with dst := [] }, m) with ⟨x, s1, m1⟩
      rcases hd : decodeExactLoop 1 0 { s with dst := [] } with ⟨y, s2⟩
      rw [hc, hd] at h1
      obtain ⟨rfl, rfl⟩ := h1
      cases x
      · exact ih _ _ _
      all_goals exact ⟨rfl, rfl⟩

theorem decodeC_result (s : DecoderState) : ((decodeC s).1, (decodeC s).2.1) = decode s := by
  have h := decodeLoopC_result s.buf.length 0 s 0
  exact Prod.ext h.1 h.2

theorem drainMoves_append {bs rest : Bytes} (h : 1 ≤ bs.length) : drainMoves (bs ++ rest).length rest.length = rest.length := by
  unfold drainMoves
  rw [if_pos (by rw [List.length_append]; omega)]

theorem drainMoves_self (n : Nat) : drainMoves n n = 0 := by simp [drainMoves]

theorem decodeLoopC_spec (fuel total : Nat) (s : DecoderState) (m : Nat) (hwf : s.table.WF) (hf : s.buf.length ≤ fuel) :
    ∃ s' ws hs r, decodeLoopC fuel total (s, m) = (r, s', m + movedBy s'.buf.length (ws.map (·.2.length))) ∧ Reads s s' ws hs ∧
      (s'.buf = [] ∨ ∀ n, r ≠ .ok n) := by
  induction fuel generalizing total s m with
  | zero =>
    have : s.buf = [] := List.eq_nil_of_length_eq_zero (by omega)
    refine ⟨s, [], [], .ok total, ?_, Reads.refl hwf, Or.inl this⟩
    unfold decodeLoopC
    simp [this, movedBy]
  | succ fuel ih =>
    by_cases hne : s.buf = []
    · refine ⟨s, [], [], .ok total, ?_, Reads.refl hwf, Or.inl hne⟩
      unfold decodeLoopC
      simp [hne, movedBy]
    · unfold decodeLoopC
      have hemp : s.buf.isEmpty = false := by simpa using hne
      have hex : ∀ r s1, decodeOne { s with dst := [] } = (r, s1) →
          decodeExactC 1 ({ s with dst := [] }, m) = (r, s1, m + drainMoves s.buf.length s1.buf.length) := by
        intro r s1 h
        simp only [decodeExactC, decodeExactLoopC, M.bind_apply, M.get_apply, M.ite_apply, hemp, counting, h]
        cases r <;> simp
      rcases decodeOne_frame hwf hne with ⟨rep, bs, rest, hdr, t', hb, hw, ha, hwf', h⟩ | ⟨hno, ⟨e, he, hc⟩ | ⟨he, hc⟩⟩
      · simp only [hemp, hex _ _ (h []), Bool.false_eq_true, if_false, List.nil_append]
        have hpos := RepWire.pos hw
        have hl : rest.length ≤ fuel := by
          rw [hb, List.length_append] at hf; omega
        obtain ⟨s', ws, hs, r, h1, h2, h3⟩ := ih (total + (if rep.isHeader then bs.length else 0))
          { s with dst := s.dst ++ hdr.toList, buf := rest, table := t' } (m + drainMoves s.buf.length rest.length) hwf' hl
        refine ⟨s', (rep, bs) :: ws, hdr.toList ++ hs, r, h1.trans ?_, Reads.step hb hw ha h2, h3⟩
        obtain ⟨⟨used, h4, h5⟩, _, _, _, _⟩ := h2
        have hlen : rest.length = (ws.map (·.2.length)).sum + s'.buf.length := by
          have h4' : rest = used ++ s'.buf := h4
          rw [h4', h5.2.1, List.length_append]
          congr 1
          simp [wireOf, List.length_flatMap]
        rw [hb, drainMoves_append hpos]
        simp only [List.map_cons, movedBy, hlen, Nat.add_assoc]
      · simp only [hemp, hex _ _ (he []), Bool.false_eq_true, if_false]
        exact ⟨s, [], [], .err e, by simp [drainMoves_self, movedBy], Reads.refl hwf, Or.inr (by simp)⟩
      · simp only [hemp, hex _ _ (he []), Bool.false_eq_true, if_false]
        exact ⟨s, [], [], .panic, by simp [drainMoves_self, movedBy], Reads.refl hwf, Or.inr (by simp)⟩

end Verif.Hpack

namespace Verif.Props
open Verif.Spec Verif.Hpack

/-- C109. Counting changes nothing. -/
theorem C109_hpack_same_result (s : DecoderState) : ((Hpack.decodeC s).1, (Hpack.decodeC s).2.1) = Hpack.decode s :=
  Hpack.decodeC_result s

/-- C109. The octets moved by a call of `decode`: the call reads representations `ws` off the front (as in C31 to C33), and after
each of them everything behind it is moved. -/
theorem C109_hpack_moved (s : DecoderState) (hwf : s.table.WF) :
    ∃ used ws hs r s', s.buf = used ++ s'.buf ∧
      Block lenientPads s.maxDynamicSize.toNat s.table.spec used ws hs s'.table.spec ∧
      Hpack.decodeC s = (r, s', movedBy s'.buf.length (ws.map (·.2.length))) := by
  obtain ⟨s', ws, hs, r, h1, ⟨⟨used, h2, h3⟩, _, _, _, _⟩, _⟩ := decodeLoopC_spec s.buf.length 0 s 0 hwf (Nat.le_refl _)
  exact ⟨used, ws, hs, r, s', h2, h3, by rw [Hpack.decodeC, h1, Nat.zero_add]⟩

/-- A header block of three representations, then an octet that does not belong to it. -/
example : ∃ used ws hs r s', [0x82, 0x40, 1, 97, 1, 98, 0xbe, 0x80] = used ++ s'.buf ∧ Block lenientPads 4096 DecoderState.default.table.spec used ws hs s'.table.spec ∧
    Hpack.decodeC { DecoderState.default with buf := [0x82, 0x40, 1, 97, 1, 98, 0xbe, 0x80] } =
      (r, s', movedBy s'.buf.length (ws.map (·.2.length))) :=
  C109_hpack_moved { DecoderState.default with buf := [0x82, 0x40, 1, 97, 1, 98, 0xbe, 0x80] } (Table.withDynamicSize_WF 4096)

/-- C109. It is never more than quadratic. -/
theorem C109_hpack_bound (s : DecoderState) (hwf : s.table.WF) :
    2 * (Hpack.decodeC s).2.2 ≤ s.buf.length * (s.buf.length - 1) := by
  obtain ⟨used, ws, hs, r, s', h1, h2, h3⟩ := C109_hpack_moved s hwf
  have hlen : s.buf.length = (ws.map (·.2.length)).sum + s'.buf.length := by
    rw [h1, h2.2.1, List.length_append]
    congr 1
    simp [wireOf, List.length_flatMap]
  rw [h3, hlen]
  refine movedBy_le _ _ ?_
  intro l hl
  simp only [List.mem_map] at hl
  obtain ⟨w, hw, rfl⟩ := hl
  exact RepWire.pos (h2.1 w hw)

/-- Seven octets, six of them moved by the first removal, and so on. -/
example : 2 * (Hpack.decodeC { DecoderState.default with buf := [0x82, 0x40, 1, 97, 1, 98, 0xbe] }).2.2 ≤ 7 * 6 :=
  C109_hpack_bound _ (Table.withDynamicSize_WF 4096)

/-- One indexed field of the static table. -/
theorem decodeOne_0x82 (s : DecoderState) (rest : Bytes) :
    decodeOne { s with buf := 0x82 :: rest } =
      (.ok 1, { s with buf := rest, dst := s.dst ++ [([58, 109, 101, 116, 104, 111, 100], [71, 69, 84], 0)] }) := by
  have hi : decodeInteger (0x82 :: rest) 7 = .ok (2, 1) := by
    simp only [decodeInteger]; rfl
  have hg : s.table.get (UInt32.ofNat 2) = some ([58, 109, 101, 116, 104, 111, 100], [71, 69, 84]) := by
    simp only [Table.get]; rfl
  show decodeIndexed { s with buf := 0x82 :: rest } = _
  simp only [decodeIndexed, M.bind_apply, M.get_apply, M.lift_apply, hi, hg, M.modify_apply, M.pure_apply, List.drop_succ_cons, List.drop_zero]

/-- C109. And quadratic it is: `k` octets that name `k` headers of the static table move `k(k-1)/2` octets. -/
theorem C109_hpack_reached (s : DecoderState) (k : Nat) :
    ∃ s', decodeC { s with buf := List.replicate k 0x82 } = (.ok k, s', movedBy 0 (List.replicate k 1)) ∧
      s'.buf = [] ∧ s'.dst.length = s.dst.length + k ∧ 2 * movedBy 0 (List.replicate k 1) = k * (k - 1) := by
  have main : ∀ (k total m : Nat) (s : DecoderState),
      ∃ s', decodeLoopC k total ({ s with buf := List.replicate k 0x82 }, m) = (.ok (total + k), s', m + movedBy 0 (List.replicate k 1)) ∧
        s'.buf = [] ∧ s'.dst.length = s.dst.length + k := by
    intro k
    induction k with
    | zero =>
      intro total m s
      refine ⟨{ s with buf := [] }, ?_, rfl, rfl⟩
      unfold decodeLoopC
      simp [movedBy]
    | succ k ih =>
      intro total m s
      have h1 := decodeOne_0x82 { s with dst := [] } (List.replicate k 0x82)
      have hex : decodeExactC 1 ({ s with dst := [], buf := 0x82 :: List.replicate k 0x82 }, m) =
          (.ok 1, { s with buf := List.replicate k 0x82, dst := [([58, 109, 101, 116, 104, 111, 100], [71, 69, 84], 0)] }, m + k) := by
        have hm : drainMoves (k + 1) k = k := by simp [drainMoves]
        simp only [decodeExactC, decodeExactLoopC, M.bind_apply, M.get_apply, M.ite_apply, counting, List.isEmpty_cons, Bool.false_eq_true, if_false]
        rw [h1]
        simp [hm]
      obtain ⟨s', e1, e2, e3⟩ := ih (total + 1) (m + k)
        { s with dst := s.dst ++ [([58, 109, 101, 116, 104, 111, 100], [71, 69, 84], 0)] }
      refine ⟨s', ?_, e2, ?_⟩
      · rw [List.replicate_succ]
        unfold decodeLoopC
        simp only [List.isEmpty_cons, Bool.false_eq_true, if_false]
        rw [hex]
        simp only [List.replicate_succ, movedBy, List.sum_replicate_nat]
        refine e1.trans ?_
        rw [show total + 1 + k = total + (k + 1) by omega, show m + k + movedBy 0 (List.replicate k 1) = m + (k * 1 + 0 + movedBy 0 (List.replicate k 1)) by omega]
      · rw [e3]; simp; omega
  obtain ⟨s', h1, h2, h3⟩ := main k 0 0 s
  refine ⟨s', ?_, h2, h3, movedBy_ones k⟩
  simp only [decodeC, List.length_replicate]
  rw [h1]; simp

/-! ### protos -/

theorem protos_decodeLoopC_result (chk : Bool) (fuel total : Nat) (s : Protos.DState) (m : Nat) :
    (Protos.decodeLoopC chk fuel total (s, m)).1 = (Protos.decodeLoop chk fuel total s).1 ∧
    (Protos.decodeLoopC chk fuel total (s, m)).2.1 = (Protos.decodeLoop chk fuel total s).2 := by
  induction fuel generalizing total s m with
  | zero => exact ⟨rfl, rfl⟩
  | succ fuel ih =>
    simp only [Protos.decodeLoopC, Protos.decodeLoop]
    rw [M.bind_apply, M.bind_apply]
    simp only [Protos.decodeStepC]
    rcases Protos.decodeStep chk s with ⟨x, s1⟩
    cases x with
    | ok n =>
      simp only [M.ite_apply, M.pure_apply]
      by_cases h : n = 0
      · simp [h]
      · simp only [h, if_false]; exact ih _ _ _
    | err e => exact ⟨rfl, rfl⟩
    | panic => exact ⟨rfl, rfl⟩
    | hang => exact ⟨rfl, rfl⟩

/-- C109. Counting changes nothing, protos. -/
theorem C109_protos_same_result (chk : Bool) (s : Protos.DState) :
    ((Protos.decodeC chk s).1, (Protos.decodeC chk s).2.1) = Protos.decode chk s := by
  have h := protos_decodeLoopC_result chk (s.buf.length + 1) 0 s 0
  exact Prod.ext h.1 h.2

theorem protos_loop_bound {chk : Bool} (fuel total m : Nat) {s : Protos.DState} {hb : Bytes} (hm : Protos.Mid chk s.key s.ldLen hb) :
    2 * (Protos.decodeLoopC chk fuel total (s, m)).2.2 ≤ 2 * m + s.buf.length * (s.buf.length - 1) := by
  induction fuel generalizing total m s hb with
  | zero => simp [Protos.decodeLoopC]
  | succ fuel ih =>
    have hdef : ∀ x s1, Protos.decodeStep chk s = (x, s1) → Protos.decodeLoopC chk (fuel + 1) total (s, m) =
        match x with
        | .ok n => if n = 0 then (.ok total, s1, m + drainMoves s.buf.length s1.buf.length)
            else Protos.decodeLoopC chk fuel (total + n) (s1, m + drainMoves s.buf.length s1.buf.length)
        | .err e => (.err e, s1, m + drainMoves s.buf.length s1.buf.length)
        | .panic => (.panic, s1, m + drainMoves s.buf.length s1.buf.length)
        | .hang => (.hang, s1, m + drainMoves s.buf.length s1.buf.length) := by
      intro x s1 h
      simp only [Protos.decodeLoopC, M.bind_apply, Protos.decodeStepC, h]
      cases x with
      | ok n => simp only [M.ite_apply, M.pure_apply]
      | err e => rfl
      | panic => rfl
      | hang => rfl
    have pay : ∀ (a : Nat), a < s.buf.length → 2 * a + a * (a - 1) ≤ s.buf.length * (s.buf.length - 1) := by
      intro a ha
      have := movedBy_le a [s.buf.length - a] (by simp; omega)
      have h2 : (a + 1) * a ≤ s.buf.length * (s.buf.length - 1) := Nat.mul_le_mul (by omega) (by omega)
      have h3 : (a + 1) * a = a * (a - 1) + 2 * a := by
        cases a with
        | zero => rfl
        | succ j => simp only [Nat.add_sub_cancel, Nat.add_mul, Nat.mul_add]; omega
      omega
    cases Protos.step_cases hm with
    | more used rest key len h1 h2 h3 h4 =>
      rw [hdef _ _ h3]
      have hu : 0 < used.length := List.length_pos_iff.mpr h2
      simp only [show used.length ≠ 0 by omega, if_false]
      have hlt : rest.length < s.buf.length := by rw [h1, List.length_append]; omega
      refine Nat.le_trans (ih _ _ h4) ?_
      simp only [drainMoves, if_pos hlt]
      have := pay _ hlt
      omega
    | record used rest r h1 h2 h3 h4 h5 =>
      rw [hdef _ _ h3]
      by_cases hu : used.length = 0
      · simp only [hu, if_true]
        have : rest.length = s.buf.length := by rw [h1, List.length_append]; omega
        simp only [Protos.DState.fresh, this, drainMoves, Nat.lt_irrefl, if_false]
        omega
      · simp only [hu, if_false]
        have hlt : rest.length < s.buf.length := by rw [h1, List.length_append]; omega
        refine Nat.le_trans (ih (s := Protos.DState.fresh rest (s.dst ++ [r])) _ _ (Protos.HeaderWire.mid (Protos.fresh_header _ _ _))) ?_
        have hd : drainMoves s.buf.length rest.length = rest.length := by unfold drainMoves; exact if_pos hlt
        have := pay _ hlt
        show 2 * (m + drainMoves s.buf.length rest.length) + rest.length * (rest.length - 1) ≤ _
        rw [hd]
        omega
    | stuck h1 h2 h3 =>
      rw [hdef _ _ h1]
      simp [drainMoves]
    | bad cs r v h1 h2 h3 h4 h5 h6 h7 =>
      rw [hdef _ _ h1]
      simp [drainMoves]
    | panic h1 h2 h3 h4 h5 =>
      rw [hdef _ _ h1]
      simp [drainMoves]

/-- C109. The same bound for protos, for every state a caller can bring about. -/
theorem C109_protos_bound (chk : Bool) (s : Protos.DState) (hs : Protos.Reachable chk s) :
    2 * (Protos.decodeC chk s).2.2 ≤ s.buf.length * (s.buf.length - 1) := by
  obtain ⟨hb, hm⟩ := Protos.reachable_header hs
  have := protos_loop_bound (chk := chk) (s.buf.length + 1) 0 0 (Protos.HeaderWire.mid hm)
  simpa [Protos.decodeC] using this

theorem fields_length (vs : List UInt8) : (vs.flatMap fun v => [8, v]).length = 2 * vs.length := by
  induction vs with
  | nil => rfl
  | cons v vs ih => rw [List.flatMap_cons, List.length_append, ih]; simp; omega

/-- C109. And it is reached: `k` fields of two octets (tag 1, a one-octet varint) move `n(n-1)/2` octets, `n = 2k`. -/
theorem C109_protos_reached (chk : Bool) (vs : List UInt8) (hv : ∀ v ∈ vs, v.toNat < 128) (dst : List Protos.Rec) :
    ∃ m, Protos.decodeC chk (Protos.DState.fresh (vs.flatMap fun v => [8, v]) dst) =
        (.ok (2 * vs.length), Protos.DState.fresh [] (dst ++ vs.map fun v => (1, .varint, [v])), m) ∧
      2 * m = (2 * vs.length) * (2 * vs.length - 1) := by
  have main : ∀ (vs : List UInt8), (∀ v ∈ vs, v.toNat < 128) → ∀ (fuel total m : Nat) (dst : List Protos.Rec), 2 * vs.length < fuel →
      ∃ m', Protos.decodeLoopC chk fuel total (Protos.DState.fresh (vs.flatMap fun v => [8, v]) dst, m) =
        (.ok (total + 2 * vs.length), Protos.DState.fresh [] (dst ++ vs.map fun v => (1, .varint, [v])), m') ∧
        2 * m' = 2 * m + (2 * vs.length) * (2 * vs.length - 1) := by
    intro vs
    induction vs with
    | nil =>
      intro _ fuel total m dst hf
      obtain ⟨f, rfl⟩ : ∃ f, fuel = f + 1 := ⟨fuel - 1, by simp at hf; omega⟩
      refine ⟨m, ?_, by simp⟩
      simp only [Protos.decodeLoopC, M.bind_apply, Protos.decodeStepC, List.flatMap_nil, Protos.step_nil, if_true, M.pure_apply]
      simp [drainMoves, Protos.DState.fresh]
    | cons v vs ih =>
      intro hv fuel total m dst hf
      have hv1 := hv v (by simp)
      obtain ⟨f, rfl⟩ : ∃ f, fuel = f + 2 := ⟨fuel - 2, by simp at hf; omega⟩
      let X := vs.flatMap fun v => [8, v]
      have hX : X.length = 2 * vs.length := by
        simp only [X]
        exact fields_length vs
      have s1 : Protos.decodeStep chk (Protos.DState.fresh (8 :: v :: X) dst) =
          (.ok 1, { key := (1, .varint), ldLen := none, buf := v :: X, dst := dst }) := by
        have hk : Protos.decodeKey chk (8 :: v :: X) = .ok ((1, .varint), 1) := by
          cases chk <;> rfl
        simp only [Protos.decodeStep, Protos.DState.fresh, Protos.stepKey, hk, Protos.orUnderflow, Protos.DState.drain, List.drop_succ_cons, List.drop_zero]
      have s2 : Protos.decodeStep chk { key := (1, .varint), ldLen := none, buf := v :: X, dst := dst } =
          (.ok 1, Protos.DState.fresh X (dst ++ [(1, .varint, [v])])) := by
        have hk : Protos.extractVarint (v :: X) = .ok ([v], 1) := by
          have hle : v ≤ 0x7F := by rw [UInt8.le_iff_toNat_le]; show v.toNat ≤ 127; omega
          simp only [Protos.extractVarint, Protos.extractVarintLoop, hle, if_true, List.nil_append, Nat.zero_add]
        simp only [Protos.decodeStep, Protos.stepVarint, hk, Protos.orUnderflow, Protos.DState.drain, Protos.DState.push, Protos.DState.reset, Protos.DState.fresh, List.drop_succ_cons, List.drop_zero]
      obtain ⟨m', e1, e2⟩ := ih (fun v' h' => hv v' (by simp [h'])) f (total + 1 + 1) (m + (X.length + 1) + X.length) (dst ++ [(1, .varint, [v])])
        (by simp at hf; omega)
      refine ⟨m', ?_, ?_⟩
      · have r1 : Protos.decodeLoopC chk (f + 2) total (Protos.DState.fresh (8 :: v :: X) dst, m) =
            Protos.decodeLoopC chk (f + 1) (total + 1) ({ key := (1, .varint), ldLen := none, buf := v :: X, dst := dst }, m + (X.length + 1)) := by
          conv => lhs; unfold Protos.decodeLoopC
          rw [M.bind_apply]
          simp only [Protos.decodeStepC, s1]
          simp [Protos.DState.fresh, drainMoves]
        have r2 : Protos.decodeLoopC chk (f + 1) (total + 1) ({ key := (1, .varint), ldLen := none, buf := v :: X, dst := dst }, m + (X.length + 1)) =
            Protos.decodeLoopC chk f (total + 1 + 1) (Protos.DState.fresh X (dst ++ [(1, .varint, [v])]), m + (X.length + 1) + X.length) := by
          conv => lhs; unfold Protos.decodeLoopC
          rw [M.bind_apply]
          simp only [Protos.decodeStepC, s2]
          simp [Protos.DState.fresh, drainMoves]
        show Protos.decodeLoopC chk (f + 2) total (Protos.DState.fresh (8 :: v :: X) dst, m) = _
        rw [r1, r2]
        refine e1.trans ?_
        simp only [List.length_cons, List.map_cons, List.append_assoc, List.cons_append, List.nil_append]
        rw [show total + 1 + 1 + 2 * vs.length = total + 2 * (vs.length + 1) by omega]
      · rw [e2, hX, List.length_cons]
        generalize vs.length = n
        cases n with
        | zero => simp; omega
        | succ j =>
          simp only [Nat.add_mul, Nat.mul_add, Nat.mul_sub]
          omega
  obtain ⟨m, h1, h2⟩ := main vs hv _ 0 0 dst (Nat.lt_succ_of_le (Nat.le_of_eq (fields_length vs).symm : 2 * vs.length ≤ (Protos.DState.fresh (vs.flatMap fun v => [8, v]) dst).buf.length))
  refine ⟨m, ?_, by omega⟩
  rw [Protos.decodeC]
  refine h1.trans ?_
  simp

/-- C109, concrete cases: 0x82 0x84 0x86 with a default decoder (2 + 1 + 0 octets moved), the last octet cut off a literal; a message. -/
example : (Hpack.decodeC { DecoderState.default with buf := [0x82, 0x84, 0x86] }).2.2 = 3 := by decide +kernel
example : (Hpack.decodeC { DecoderState.default with buf := [0x82, 0x84, 0xff] }).2.2 = 3 := by decide +kernel
example : DecoderState.default.table.WF := Table.withDynamicSize_WF 4096
example : (Protos.decodeC true (Protos.DState.fresh [8, 1, 18, 2, 65, 66])).2.2 = 5 + 4 + 3 + 2 + 0 := by decide +kernel
example : Protos.Reachable true (Protos.DState.fresh [8, 1, 18, 2, 65, 66]) := .fresh _ _

end Verif.Props
