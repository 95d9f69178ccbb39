import Verif.Props.HpackTries
import Verif.Props.HpackExtra
import Verif.Spec.HpackDuplex
/-! Property theorems C77 (connections) and C75 (bound for histories). -/
namespace Verif.Props
open Verif Verif.Spec Verif.Hpack

/-- A connection: per block the sender makes all its calls, going on after errors, with an empty vector; the receiver decodes the
octets with `decode`. The verdicts of the encoder calls, the verdicts of the decoder calls and both final states. -/
def conn : List ConnEvent → EncoderState → DecoderState →
    List Bool × List (Res DecoderError Nat) × EncoderState × DecoderState
  | [], e, d => ([], [], e, d)
  | .block ops :: es, e, d =>
    let (oks, e1) := encTry ops { e with dst := [] }
    let (r, d1) := decode { d with buf := e1.dst }
    let (oks', rs, e2, d2) := conn es e1 d1
    (oks ++ oks', r :: rs, e2, d2)
  | .limit n :: es, e, d => conn es e (d.setMaxDynamicSize n)

/-- C77. On a connection with any history of header blocks (also with calls that are refused) and limit changes, every call of the
decoder succeeds, exactly the headers of the accepted calls arrive, in order, and at the end both tables are equal; hence they
are equal after every block. -/
theorem C77_connection (es : List ConnEvent) : ∀ (e : EncoderState) (d : DecoderState), e.table.WF → d.table = e.table →
    EventsFit d.maxDynamicSize.toNat es →
    ∃ oks rs e' d' hs, conn es e d = (oks, rs, e', d') ∧ (∀ r ∈ rs, ∃ k, r = .ok k) ∧
      ConnMeans d.maxDynamicSize.toNat e.table.spec es oks hs e'.table.spec ∧ d'.dst = d.dst ++ hs ∧
      d'.table = e'.table := by
  induction es with
  | nil => intro e d _ hs _; exact ⟨[], [], e, d, [], rfl, by simp, .nil _ _, by simp, hs⟩
  | cons ev es ih =>
    intro e d hwf hsync hfit
    cases ev with
    | block ops =>
      obtain ⟨hf, hf'⟩ := hfit
      obtain ⟨hs, k, h1, h2⟩ := C94_refused_calls e d ops hwf hsync hf
      obtain ⟨_, _, _, _, _, hwf1, _⟩ := encTry_emits ops (e := { e with dst := [] }) hwf hf
      obtain ⟨oks, rs, e', d', hs', h3, h4, h5, h6, h7⟩ := ih (encTry ops { e with dst := [] }).2
        { d with buf := [], dst := d.dst ++ hs, table := (encTry ops { e with dst := [] }).2.table } hwf1 rfl hf'
      refine ⟨_ ++ oks, .ok k :: rs, e', d', hs ++ hs', ?_, ?_, .block h1 h5, by rw [h6, List.append_assoc], h7⟩
      · simp only [conn, h2, h3]
      · intro r hr
        rcases List.mem_cons.mp hr with rfl | hr
        · exact ⟨k, rfl⟩
        · exact h4 r hr
    | limit n =>
      obtain ⟨oks, rs, e', d', hs', h3, h4, h5, h6, h7⟩ := ih e (d.setMaxDynamicSize n) hwf hsync hfit
      exact ⟨oks, rs, e', d', hs', h3, h4, .limit h5, h6, h7⟩

/-- A refused call, a stored header, a limit change, and a size update that the old limit would have allowed only up to 4096. -/
example : (conn [.block [.header (.Indexed 62), .header (.Literal [0x61] [0x62] 4)], .limit 5000,
      .block [.resize 5000, .header (.Indexed 62)]] EncoderState.default DecoderState.default).1 = [false, true, true, true] ∧
    (conn [.block [.header (.Indexed 62), .header (.Literal [0x61] [0x62] 4)], .limit 5000,
      .block [.resize 5000, .header (.Indexed 62)]] EncoderState.default DecoderState.default).2.2.2.dst =
      [([0x61], [0x62], 4), ([0x61], [0x62], 0)] := by decide +kernel

/-- The octets given to one use of a decoder. -/
def DecOp.octets : DecOp → Nat
  | .decode bs => bs.length
  | .decodeExact _ bs => bs.length
  | .setLimit _ => 0

theorem headerSize_append (a b : List Field) : headerSize (a ++ b) = headerSize a + headerSize b := by
  simp [headerSize]

/-- C75. The bound over the whole life of a decoder: after any history of decoding (successful or not) and limit changes, there are
at most as many headers as octets were given in total, and names and values have in total at most `max 28 (B - 32)` octets per
header plus 8/5 octets per octet given, where `B` bounds all limits. -/
theorem C75_history (m : UInt32) (ops : List DecOp) (B : Nat) (hm : m.toNat ≤ B)
    (hops : ∀ n, DecOp.setLimit n ∈ ops → n.toNat ≤ B) :
    let hs := (ops.foldl DecOp.run (DecoderState.withDynamicSize m)).dst
    let octets := (ops.map DecOp.octets).sum
    hs.length ≤ octets ∧ 5 * headerSize hs ≤ 5 * (hs.length * max 28 (B - 32)) + 8 * octets := by
  suffices key : ∀ (ops : List DecOp) (s : DecoderState), s.table.WF → s.table.spec.max ≤ B → s.maxDynamicSize.toNat ≤ B →
      (∀ n, DecOp.setLimit n ∈ ops → n.toNat ≤ B) →
      ∃ hs, (ops.foldl DecOp.run s).dst = s.dst ++ hs ∧ hs.length ≤ (ops.map DecOp.octets).sum ∧
        5 * headerSize hs ≤ 5 * (hs.length * max 28 (B - 32)) + 8 * (ops.map DecOp.octets).sum by
    obtain ⟨hs, h1, h2, h3⟩ := key ops (DecoderState.withDynamicSize m) (Table.withDynamicSize_WF m) hm hm hops
    intro hs' octets
    have : hs' = hs := by show (ops.foldl DecOp.run (DecoderState.withDynamicSize m)).dst = hs; rw [h1]; rfl
    rw [this]
    exact ⟨h2, h3⟩
  intro ops
  induction ops with
  | nil => intro s _ _ _ _; exact ⟨[], by simp, by simp, by simp [headerSize]⟩
  | cons op ops ih =>
    intro s h1 h2 h3 h4
    obtain ⟨a, b, c⟩ := DecOp.inv B s op h1 h2 h3 (fun n hn => h4 n (by simp [hn]))
    obtain ⟨hs, h5, h6, h7⟩ := ih _ a b c (fun n hn => h4 n (by simp [hn]))
    have hop : ∃ hs, (op.run s).dst = s.dst ++ hs ∧ hs.length ≤ op.octets ∧
        5 * headerSize hs ≤ 5 * (hs.length * max 28 (B - 32)) + 8 * op.octets := by
      cases op with
      | decode bs =>
        obtain ⟨s', ws, hs, r, hd, ⟨⟨used, hb, hw, hu, ha⟩, hdst, _⟩, _⟩ := decode_spec { s with buf := bs } h1
        obtain ⟨b1, b2⟩ := block_bound (M := B) h3 ws hw h1.2 h2 ha
        rw [← hu] at b1 b2
        have hl := congrArg List.length hb
        simp only [List.length_append] at hl
        simp only [DecOp.run, hd, DecOp.octets]
        exact ⟨hs, hdst, by omega, by omega⟩
      | decodeExact cap bs =>
        obtain ⟨s', ws, hs, r, hd, ⟨⟨used, hb, hw, hu, ha⟩, hdst, _⟩, _⟩ := decodeExactLoop_spec cap 0 { s with buf := bs } h1
        obtain ⟨b1, b2⟩ := block_bound (M := B) h3 ws hw h1.2 h2 ha
        rw [← hu] at b1 b2
        have hl := congrArg List.length hb
        simp only [List.length_append] at hl
        simp only [DecOp.run, Hpack.decodeExact, hd, DecOp.octets]
        exact ⟨hs, hdst, by omega, by omega⟩
      | setLimit n => exact ⟨[], by simp [DecOp.run, DecoderState.setMaxDynamicSize], by simp, by simp [headerSize]⟩
    obtain ⟨hs0, g1, g2, g3⟩ := hop
    refine ⟨hs0 ++ hs, by rw [List.foldl_cons, h5, g1, List.append_assoc], ?_, ?_⟩
    · simp only [List.length_append, List.map_cons, List.sum_cons]; omega
    · simp only [List.length_append, List.map_cons, List.sum_cons, headerSize_append, Nat.add_mul]; omega

example : headerSize ([DecOp.decode [0x40, 1, 0x61, 2, 0x62, 0x63], .setLimit 100, .decodeExact 2 [0xBE, 0xBE, 0xBE]].foldl DecOp.run
    (DecoderState.withDynamicSize 100)).dst = 9 := by decide +kernel

end Verif.Props
