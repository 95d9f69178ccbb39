import Verif.Props.HpackErrors
import Verif.Props.Protos
import Verif.Props.ProtosWire
/-! Property theorem C102: which errors can occur at all. -/
namespace Verif.Props
open Verif

/-- C102. Huffman coding never fails: `EncoderError::InvalidInput` does not occur. -/
theorem C102_huffman_encoder (src dst : Bytes) : (Huffman.encode src dst).1 = .ok () := by
  obtain ⟨q, h, _⟩ := C03_encode_bits src dst
  rw [h]

/-- C102. The HPACK encoder: `encode` reports nothing but `InvalidIndex` and (for strings from 2^32 octets on) `IntegerOverflow`,
never `InvalidInput` or `InvalidPrefix`; a size update is always accepted. -/
theorem C102_hpack_encoder (s : Hpack.EncoderState) (hwf : s.table.WF) :
    (∀ input, (Hpack.encode input s).1 = .ok () ∨ (Hpack.encode input s).1 = .err .InvalidIndex ∨
      (Hpack.encode input s).1 = .err .IntegerOverflow) ∧
    (∀ n, (Hpack.encUpdateMaxDynamicSize n s).1 = .ok ()) := by
  refine ⟨fun input => ?_, fun n => ?_⟩
  · rcases C40_encode_failures s hwf input with ⟨s', h, _⟩ | ⟨h, _⟩ | ⟨s', h, _⟩ <;> rw [h] <;> simp
  · obtain ⟨bs, t', _, _, h, _⟩ := Hpack.encUpdate_spec s hwf n
    rw [h]

/-- C102. The protos encoder: a field whose value fits in memory gives `InvalidTag` for a tag outside 1 to 2^29-1, `Interrupted` only
from a writer that failed (so never with a vector), and never `DataOverflow`. -/
theorem C102_protos_encoder (tag : UInt32) (lit : Protos.EncoderLit) (hf : Spec.Proto.Fits lit) :
    (∀ (σ : Type) (w : Protos.Writer σ) (s : σ),
      ((Protos.Encoder.encode w tag lit s).1 = .err .invalidTag ↔ ¬ (1 ≤ tag.toNat ∧ tag.toNat ≤ 2 ^ 29 - 1)) ∧
      ((∃ n, (Protos.Encoder.encode w tag lit s).1 = .ok n) ∨ (Protos.Encoder.encode w tag lit s).1 = .err .invalidTag ∨
        ((Protos.Encoder.encode w tag lit s).1 = .err .interrupted ∧ ∃ s1 b, (w.writeAll s1 b).1 = false))) := by
  intro σ w s
  by_cases ht : 1 ≤ tag.toNat ∧ tag.toNat ≤ 2 ^ 29 - 1
  · obtain ⟨plan, _, h⟩ := C57_failing_writer tag lit ⟨ht.1, ht.2, hf⟩
    have hw : ∀ (plan : List Bytes) (s : σ), (Protos.runPlan w plan s).1 = false → ∃ s1 b, (w.writeAll s1 b).1 = false := by
      intro plan
      induction plan with
      | nil => intro s h; simp [Protos.runPlan] at h
      | cons b bs ih =>
        intro s h
        rcases hb : w.writeAll s b with ⟨ok, s1⟩
        cases ok with
        | false => exact ⟨s, b, by rw [hb]⟩
        | true =>
          simp only [Protos.runPlan, hb] at h
          exact ih s1 h
    have h := h σ w s
    rcases hr : Protos.runPlan w plan s with ⟨ok, s'⟩
    rw [hr] at h
    cases ok with
    | true =>
      simp only at h
      rw [h]
      exact ⟨by simp [ht], Or.inl ⟨_, rfl⟩⟩
    | false =>
      simp only at h
      rw [h]
      exact ⟨by simp [ht], Or.inr (Or.inr ⟨rfl, hw plan s (by rw [hr])⟩)⟩
  · have h := (C49_invalid_tag w s tag (by omega)).2 lit
    rw [h]
    exact ⟨by simp [ht], Or.inr (Or.inl rfl)⟩

/-- C102. `Decoder::decode` of protos: no error but `InvalidInput`; in particular `InvalidTag` is not used for invalid tags, and
incomplete input is not reported as `InputUnderflow`. -/
theorem C102_protos_decoder (chk : Bool) (s : Protos.DState) (hs : Protos.Reachable chk s) (e : Protos.DecoderError)
    (h : (Protos.decode chk s).1 = .err e) : e = .invalidInput := by
  rcases C58_total chk s hs with ⟨n, h'⟩ | h' | ⟨h', _⟩ <;> rw [h] at h'
  · cases h'
  · cases h'; rfl
  · cases h'

/-- C102. The primitives of the protos decoder: `decode_varint` reports only `InputUnderflow`, exactly if the bytes end
before a varint does (with overflow checks: within ten bytes); `decode_key` reports it in the same cases, and otherwise `InvalidInput`. -/
theorem C102_protos_primitives (chk : Bool) (buf : Bytes) (e : Protos.DecoderError) :
    ((Protos.decodeVarint chk buf = .err e → e = .inputUnderflow) ∧
     (Protos.decodeKey chk buf = .err e → e = .inputUnderflow ∨ e = .invalidInput)) ∧
    (Protos.decodeVarint chk buf = .err .inputUnderflow ↔ Protos.decodeKey chk buf = .err .inputUnderflow) ∧
    (Protos.decodeVarint chk buf = .err .inputUnderflow ↔
      (chk = true → buf.length ≤ 10) ∧ ∀ c ∈ buf, 128 ≤ c.toNat) := by
  rcases Protos.decodeVarint_cases chk buf with ⟨cs, r, v, h1, h2, h3⟩ | ⟨h1, h2, h3⟩ | ⟨h1, h2, h3, h4⟩
  · have hu : Protos.decodeVarint chk buf ≠ .err .inputUnderflow := by rw [h3]; simp
    have hno : ¬ ((chk = true → buf.length ≤ 10) ∧ ∀ c ∈ buf, 128 ≤ c.toNat) := by
      rintro ⟨_, hall⟩
      have hl : ∀ cs : Bytes, Spec.IsCont cs → ∃ c ∈ cs, c.toNat < 128 := by
        intro cs
        induction cs with
        | nil => intro h; exact h.elim
        | cons c cs ih =>
          intro h
          cases cs with
          | nil => exact ⟨c, by simp, h⟩
          | cons d ds =>
            obtain ⟨x, hx, hlt⟩ := ih h.2
            exact ⟨x, List.mem_cons_of_mem _ hx, hlt⟩
      obtain ⟨c, hc, hlt⟩ := hl cs h2.1
      have := hall c (by rw [h1]; exact List.mem_append_left _ hc)
      omega
    rcases Protos.decodeKey_of_varint (cs := cs) (Protos.VarintWire.lt h2) h3 with ⟨_, hk⟩ | ⟨_, _, _, _, _, _, hk⟩
    · exact ⟨⟨by rw [h3]; simp, by rw [hk]; intro h; cases h; exact Or.inr rfl⟩, by rw [hk]; simp [hu], by simp only [hu, hno]⟩
    · exact ⟨⟨by rw [h3]; simp, by rw [hk]; simp⟩, by rw [hk]; simp [hu], by simp only [hu, hno]⟩
  · have hk : Protos.decodeKey chk buf = .err .inputUnderflow := by
      simp only [Protos.decodeKey, h3, Res.bind_err]
    refine ⟨⟨by rw [h3]; intro h; cases h; rfl, by rw [hk]; intro h; cases h; exact Or.inl rfl⟩, by rw [h3, hk]; simp, ?_⟩
    exact ⟨fun _ => ⟨h2, h1⟩, fun _ => h3⟩
  · have hk : Protos.decodeKey chk buf = .panic := by
      simp only [Protos.decodeKey, h4, Res.bind_panic]
    refine ⟨⟨by rw [h4]; simp, by rw [hk]; simp⟩, by rw [h4, hk]; simp, ?_⟩
    rw [h4]
    simp only [reduceCtorEq, false_iff, not_and]
    intro h5
    have := h5 h1
    omega

example : (Protos.Encoder.encode Protos.vecWriter 0 (.bool true) []).1 = .err .invalidTag := by decide
example : (Protos.decode true (Protos.DState.fresh [0])).1 = .err .invalidInput := by decide

end Verif.Props
