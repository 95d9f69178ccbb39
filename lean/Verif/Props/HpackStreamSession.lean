import Verif.Props.HpackSession
import Verif.Props.HpackStream
/-! Property theorems C93: an encoder session carried by a byte stream. -/
namespace Verif.Props
open Verif Verif.Spec Verif.Hpack

/-- C93. A whole session over a byte stream: the octets an encoder produced for any history of calls are cut into chunks in any
way (also inside a header or an integer), and the decoder is called after each chunk, whatever the call returns. Then the last
call succeeds, the decoder has delivered exactly the headers the calls mean, in order, nothing is left over, and its table is
the encoder's. -/
theorem C93_stream (e e' : EncoderState) (d : DecoderState) (ops : List SessionOp) (chunks : List Bytes)
    (last : Res DecoderError Nat) (hwf : e.table.WF) (hsync : d.table = e.table) (hbuf : d.buf = [])
    (hfit : ∀ op ∈ ops, OpFits d.maxDynamicSize.toNat op) (h : encSession ops { e with dst := [] } = (.ok (), e'))
    (hc : chunks.flatten = e'.dst) (hne : chunks ≠ []) :
    ∃ hs k, SessionMeans d.maxDynamicSize.toNat e.table.spec ops hs e'.table.spec ∧
      feedAll last chunks d = (.ok k, { d with dst := d.dst ++ hs, table := e'.table }) := by
  obtain ⟨hs, k, h1, h2, _⟩ := C28_session e e' d ops hwf hsync hfit h
  cases chunks with
  | nil => exact absurd rfl hne
  | cons c cs =>
    obtain ⟨h3, h4⟩ := C87_chunks d (by rw [hsync]; exact hwf) last c cs
    have happ : d.app (c :: cs).flatten = { d with buf := e'.dst } := by
      rw [hc, DecoderState.app, hbuf, List.nil_append]
    rw [happ, h2] at h3 h4
    have hst : ({ d with buf := [], dst := d.dst ++ hs, table := e'.table } : DecoderState) =
        { d with dst := d.dst ++ hs, table := e'.table } := by rw [hbuf]
    rw [hst] at h3
    cases hr : (feedAll last (c :: cs) d).1 with
    | ok k' => exact ⟨hs, k', h1, Prod.ext hr h3⟩
    | err _ => rw [hr] at h4; exact h4.elim
    | panic => rw [hr] at h4; exact h4.elim
    | hang => rw [hr] at h4; exact h4.elim

/-- C93. A session cut off anywhere delivers a beginning of its headers, never a wrong one. -/
theorem C93_cut_off (e e' : EncoderState) (d : DecoderState) (ops : List SessionOp) (q x : Bytes)
    (hwf : e.table.WF) (hsync : d.table = e.table)
    (hfit : ∀ op ∈ ops, OpFits d.maxDynamicSize.toNat op) (h : encSession ops { e with dst := [] } = (.ok (), e'))
    (hq : e'.dst = q ++ x) :
    ∃ hs hs', SessionMeans d.maxDynamicSize.toNat e.table.spec ops (hs ++ hs') e'.table.spec ∧
      (decode { d with buf := q }).2.dst = d.dst ++ hs := by
  obtain ⟨hs, k, h1, h2, _⟩ := C28_session e e' d ops hwf hsync hfit h
  obtain ⟨hs1, hs2, h3, h4⟩ := C87_prefix { d with buf := q } (by simp only; rw [hsync]; exact hwf) x
  have happ : ({ d with buf := q } : DecoderState).app x = { d with buf := e'.dst } := by rw [hq]; rfl
  rw [happ, h2] at h4
  simp only [List.append_assoc, List.append_cancel_left_eq] at h4
  exact ⟨hs1, hs2, by rw [← h4]; exact h1, h3⟩

/-- Three calls; the stream is cut inside the second header. -/
example : ∃ e', encSession [.header (.Indexed 2), .header (.Literal [0x61] [0x62, 0x62] 4), .resize 0]
      { EncoderState.default with dst := [] } = (.ok (), e') ∧
    e'.dst = [[0x82, 0x40, 1], [0x61, 2, 0x62], [0x62, 0x20]].flatten ∧
    (feedAll (.ok 0) [[0x82, 0x40, 1], [0x61, 2, 0x62], [0x62, 0x20]] DecoderState.default).2.dst =
      [([0x3a, 0x6d, 0x65, 0x74, 0x68, 0x6f, 0x64], [0x47, 0x45, 0x54], 0), ([0x61], [0x62, 0x62], 4)] := by
  refine ⟨_, by rfl, by decide +kernel, by decide +kernel⟩

end Verif.Props
