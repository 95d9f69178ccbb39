import Verif.Hpack.Decoder
import Verif.Props.Huffman
/-! Property theorem C96: the Huffman reading speed that the HPACK decoder has chosen cannot be observed. -/
namespace Verif.Props
open Verif Verif.Hpack
open Verif.Huffman (Speed)

/-- The action does the same whatever the speed in the state. -/
private def Blind {α : Type} (m : M DecoderState DecoderError α) : Prop :=
  ∀ (s : DecoderState) (sp : Speed), m { s with speed := sp } = ((m s).1, { (m s).2 with speed := sp })

private theorem blind_bind {α β : Type} {m : M DecoderState DecoderError α} {f : α → M DecoderState DecoderError β}
    (h : Blind m) (hf : ∀ a, Blind (f a)) : Blind (m >>= f) := by
  intro s sp
  rw [M.bind_apply, M.bind_apply, h s sp]
  rcases m s with ⟨a | e | _ | _, s'⟩
  · exact hf a s' sp
  · rfl
  · rfl
  · rfl

private theorem blind_get {β : Type} {f : DecoderState → M DecoderState DecoderError β}
    (h : ∀ s sp, f { s with speed := sp } = f s) (hf : ∀ s, Blind (f s)) : Blind (M.get >>= f) := by
  intro s sp
  show f { s with speed := sp } { s with speed := sp } = _
  rw [h]
  exact hf s s sp

private theorem blind_lift {α : Type} (x : Res DecoderError α) : Blind (M.lift x) := fun _ _ => rfl
private theorem blind_pure {α : Type} (x : α) : Blind (pure x) := fun _ _ => rfl
private theorem blind_throw {α : Type} (e : DecoderError) : Blind (M.throw (α := α) e) := fun _ _ => rfl
private theorem blind_panic {α : Type} : Blind (M.panic (α := α)) := fun _ _ => rfl
private theorem blind_modify (f : DecoderState → DecoderState) (h : ∀ s sp, f { s with speed := sp } = { f s with speed := sp }) :
    Blind (M.modify f) := fun s sp => by
  show (Res.ok (), f { s with speed := sp }) = _
  rw [h]; rfl
private theorem blind_ite {α : Type} {c : Prop} [Decidable c] {a b : M DecoderState DecoderError α} (ha : Blind a) (hb : Blind b) :
    Blind (if c then a else b) := by split <;> assumption

private theorem string_blind (buf : Bytes) (sp sp' : Speed) : decodeString buf sp = decodeString buf sp' := by
  unfold decodeString
  simp only [C02_speed_independent _ _ sp sp']

private theorem name_blind (s : DecoderState) (sp : Speed) (i n : Nat) : decodeName { s with speed := sp } i n = decodeName s i n := by
  unfold decodeName
  simp only [string_blind _ sp s.speed]

private theorem indexed_blind : Blind decodeIndexed := by
  refine blind_get (fun s sp => rfl) fun s => blind_bind (blind_lift _) fun p => ?_
  obtain ⟨i, t⟩ := p
  simp only
  cases s.table.get (UInt32.ofNat i) with
  | none => exact blind_throw _
  | some e =>
    exact blind_bind (blind_modify _ fun _ _ => rfl) fun _ => blind_bind (blind_modify _ fun _ _ => rfl) fun _ => blind_pure _

private theorem literal_blind : Blind decodeLiteral := by
  refine blind_get (fun s sp => ?_) fun s => ?_
  · simp only [name_blind, string_blind _ sp s.speed]
  · cases s.buf with
    | nil => exact blind_panic
    | cons octet rest =>
      refine blind_bind (blind_lift _) fun p => ?_
      refine blind_bind (blind_lift _) fun p' => ?_
      refine blind_bind (blind_lift _) fun p'' => ?_
      refine blind_bind ?_ fun _ => blind_bind (blind_modify _ fun _ _ => rfl) fun _ => blind_pure _
      refine blind_ite (blind_bind (blind_lift _) fun _ => blind_modify _ fun _ _ => rfl) ?_
      exact blind_ite (blind_modify _ fun _ _ => rfl) (blind_modify _ fun _ _ => rfl)

private theorem update_blind : Blind decUpdateMaxDynamicSize := by
  refine blind_get (fun s sp => rfl) fun s => blind_bind (blind_lift _) fun p => ?_
  refine blind_ite (blind_throw _) ?_
  exact blind_bind (blind_lift _) fun _ => blind_bind (blind_modify _ fun _ _ => rfl) fun _ =>
    blind_bind (blind_modify _ fun _ _ => rfl) fun _ => blind_pure _

private theorem one_blind : Blind decodeOne := by
  refine blind_get (fun s sp => rfl) fun s => ?_
  cases s.buf with
  | nil => exact blind_panic
  | cons octet rest =>
    exact blind_ite indexed_blind (blind_ite literal_blind (blind_ite (blind_bind update_blind fun _ => blind_pure _)
      (blind_ite literal_blind literal_blind)))

private theorem exact_blind (limit : Nat) : ∀ total, Blind (decodeExactLoop limit total) := by
  induction limit with
  | zero => intro total; exact blind_pure _
  | succ limit ih =>
    intro total
    exact blind_get (fun s sp => rfl) fun s => blind_ite (blind_pure _) (blind_bind one_blind fun n => ih _)

/-- C96. `decode_exact` does not depend on the speed. -/
theorem C96_decode_exact (cap : Nat) (s : DecoderState) (sp : Speed) :
    decodeExact cap { s with speed := sp } = ((decodeExact cap s).1, { (decodeExact cap s).2 with speed := sp }) :=
  exact_blind cap 0 s sp

private theorem loop_blind (fuel : Nat) : ∀ total, Blind (decodeLoop fuel total) := by
  induction fuel with
  | zero =>
    intro total s sp
    unfold decodeLoop
    simp only
    split <;> rfl
  | succ fuel ih =>
    intro total s sp
    unfold decodeLoop
    simp only
    split
    · rfl
    · have h := C96_decode_exact 1 { s with dst := [] } sp
      simp only at h
      rw [h]
      rcases decodeExact 1 { s with dst := [] } with ⟨n | e | _ | _, s'⟩
      · exact ih (total + n) { s' with dst := s.dst ++ s'.dst } sp
      · rfl
      · rfl
      · rfl

/-- C96. `decode` does not depend on the speed: same verdict and count, same headers, same table, same rest. -/
theorem C96_decode (s : DecoderState) (sp : Speed) :
    decode { s with speed := sp } = ((decode s).1, { (decode s).2 with speed := sp }) :=
  loop_blind s.buf.length 0 s sp

example : (decode { DecoderState.default with speed := .OneBit, buf := [0x00, 0x82, 0x1c, 0x3f, 0x01, 0x62] }).2.dst =
    (decode { DecoderState.default with buf := [0x00, 0x82, 0x1c, 0x3f, 0x01, 0x62] }).2.dst := by decide +kernel

end Verif.Props
