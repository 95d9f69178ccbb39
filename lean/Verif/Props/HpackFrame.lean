import Verif.Hpack.Decoder
/-! Property theorem C98: the HPACK decoder only appends to `dst` and never looks at it. -/
namespace Verif.Props
open Verif Verif.Hpack

/-- The same decoder, with headers `d` at the front of the destination vector. -/
def _root_.Verif.Hpack.DecoderState.before (s : DecoderState) (d : List Field) : DecoderState := { s with dst := d ++ s.dst }

/-- The action does the same whatever is in `dst`, and adds its headers at the end. -/
private def Framed {α : Type} (m : M DecoderState DecoderError α) : Prop :=
  ∀ (s : DecoderState) (sp : List Field), m (s.before sp) = ((m s).1, ((m s).2.before sp))

private theorem frame_bind {α β : Type} {m : M DecoderState DecoderError α} {f : α → M DecoderState DecoderError β}
    (h : Framed m) (hf : ∀ a, Framed (f a)) : Framed (m >>= f) := by
  intro s sp
  rw [M.bind_apply, M.bind_apply, h s sp]
  rcases m s with ⟨a | e | _ | _, s'⟩
  · exact hf a s' sp
  · rfl
  · rfl
  · rfl

private theorem frame_get {β : Type} {f : DecoderState → M DecoderState DecoderError β}
    (h : ∀ s sp, f (s.before sp) = f s) (hf : ∀ s, Framed (f s)) : Framed (M.get >>= f) := by
  intro s sp
  show f (s.before sp) (s.before sp) = _
  rw [h]
  exact hf s s sp

private theorem frame_lift {α : Type} (x : Res DecoderError α) : Framed (M.lift x) := fun _ _ => rfl
private theorem frame_pure {α : Type} (x : α) : Framed (pure x) := fun _ _ => rfl
private theorem frame_throw {α : Type} (e : DecoderError) : Framed (M.throw (α := α) e) := fun _ _ => rfl
private theorem frame_panic {α : Type} : Framed (M.panic (α := α)) := fun _ _ => rfl
private theorem frame_modify (f : DecoderState → DecoderState) (h : ∀ s sp, f (s.before sp) = (f s).before sp) :
    Framed (M.modify f) := fun s sp => by
  show (Res.ok (), f (s.before sp)) = _
  rw [h]; rfl
private theorem frame_ite {α : Type} {c : Prop} [Decidable c] {a b : M DecoderState DecoderError α} (ha : Framed a) (hb : Framed b) :
    Framed (if c then a else b) := by split <;> assumption

private theorem indexed_frame : Framed decodeIndexed := by
  refine frame_get (fun s sp => rfl) fun s => frame_bind (frame_lift _) fun p => ?_
  obtain ⟨i, t⟩ := p
  simp only
  cases s.table.get (UInt32.ofNat i) with
  | none => exact frame_throw _
  | some e =>
    exact frame_bind (frame_modify _ fun _ _ => (by simp [DecoderState.before])) fun _ => frame_bind (frame_modify _ fun _ _ => (by simp [DecoderState.before])) fun _ => frame_pure _

private theorem literal_frame : Framed decodeLiteral := by
  refine frame_get (fun s sp => ?_) fun s => ?_
  · rfl
  · cases s.buf with
    | nil => exact frame_panic
    | cons octet rest =>
      refine frame_bind (frame_lift _) fun p => ?_
      refine frame_bind (frame_lift _) fun p' => ?_
      refine frame_bind (frame_lift _) fun p'' => ?_
      refine frame_bind ?_ fun _ => frame_bind (frame_modify _ fun _ _ => (by simp [DecoderState.before])) fun _ => frame_pure _
      refine frame_ite (frame_bind (frame_lift _) fun _ => frame_modify _ fun _ _ => (by simp [DecoderState.before])) ?_
      exact frame_ite (frame_modify _ fun _ _ => (by simp [DecoderState.before])) (frame_modify _ fun _ _ => (by simp [DecoderState.before]))

private theorem update_frame : Framed decUpdateMaxDynamicSize := by
  refine frame_get (fun s sp => rfl) fun s => frame_bind (frame_lift _) fun p => ?_
  refine frame_ite (frame_throw _) ?_
  exact frame_bind (frame_lift _) fun _ => frame_bind (frame_modify _ fun _ _ => (by simp [DecoderState.before])) fun _ =>
    frame_bind (frame_modify _ fun _ _ => (by simp [DecoderState.before])) fun _ => frame_pure _

private theorem one_frame : Framed decodeOne := by
  refine frame_get (fun s sp => rfl) fun s => ?_
  cases s.buf with
  | nil => exact frame_panic
  | cons octet rest =>
    exact frame_ite indexed_frame (frame_ite literal_frame (frame_ite (frame_bind update_frame fun _ => frame_pure _)
      (frame_ite literal_frame literal_frame)))

private theorem exact_frame (limit : Nat) : ∀ total, Framed (decodeExactLoop limit total) := by
  induction limit with
  | zero => intro total; exact frame_pure _
  | succ limit ih =>
    intro total
    exact frame_get (fun s sp => rfl) fun s => frame_ite (frame_pure _) (frame_bind one_frame fun n => ih _)

/-- C98. `decode_exact` (with the same capacity of the vector) only appends to `dst`: verdict, table, rest of the buffer and the
headers appended do not depend on what `dst` holds. -/
theorem C98_decode_exact (cap : Nat) (s : DecoderState) (d : List Field) :
    decodeExact cap { s with dst := d ++ s.dst } =
      ((decodeExact cap s).1, { (decodeExact cap s).2 with dst := d ++ (decodeExact cap s).2.dst }) :=
  exact_frame cap 0 s d

private theorem loop_frame (fuel : Nat) : ∀ total, Framed (decodeLoop fuel total) := by
  induction fuel with
  | zero =>
    intro total s d
    unfold decodeLoop
    by_cases he : s.buf.isEmpty = true
    · simp only [DecoderState.before, he, if_true]
    · simp only [DecoderState.before, he, if_false, Bool.false_eq_true]
  | succ fuel ih =>
    intro total s d
    unfold decodeLoop
    by_cases he : s.buf.isEmpty = true
    · simp only [DecoderState.before, he, if_true]
    · simp only [DecoderState.before, he, if_false, Bool.false_eq_true]
      rcases decodeExact 1 { s with dst := [] } with ⟨n | e | _ | _, s'⟩
      · have := ih (total + n) { s' with dst := s.dst ++ s'.dst } d
        simp only [DecoderState.before, List.append_assoc] at this ⊢
        exact this
      · rfl
      · rfl
      · rfl

/-- C98. `decode` only appends to `dst`, likewise. -/
theorem C98_decode (s : DecoderState) (d : List Field) :
    decode { s with dst := d ++ s.dst } = ((decode s).1, { (decode s).2 with dst := d ++ (decode s).2.dst }) :=
  loop_frame s.buf.length 0 s d

/-- Also when decoding fails in the middle: what `dst` held stays in front. -/
example : decode { DecoderState.default with dst := [([9], [9], 0)], buf := [0x82, 0x80] } =
    (.err .InvalidIndex, { DecoderState.default with
      dst := [([9], [9], 0), ([0x3a, 0x6d, 0x65, 0x74, 0x68, 0x6f, 0x64], [0x47, 0x45, 0x54], 0)], buf := [0x80] }) := by decide +kernel

end Verif.Props
