import Verif.Spec.HpackPeer
import Verif.Props.HpackLoss
/-! Property theorem C131: interoperation with any peer that follows RFC 7541. -/
namespace Verif.Props
open Verif Verif.Spec Verif.Hpack

/-- A receiver: before each block the limit is set (`Decoder::set_max_dynamic_size`), then the block is decoded into a new vector. The
headers of each block; `none` when a call fails. User code around /repo/hpack/src/decoder/mod.rs:76-78 and 100-116. -/
def receive : List (UInt32 × Bytes) → DecoderState → Option (List (List Field) × DecoderState)
  | [], d => some ([], d)
  | (limit, bs) :: rest, d =>
    match decode { d.setMaxDynamicSize limit with buf := bs, dst := [] } with
    | (.ok _, d1) => (receive rest d1).map fun r => (d1.dst :: r.1, r.2)
    | _ => none

/-- What the user sends in one block: the limit the peer has set, the sizes to announce, the headers. -/
structure Batch where
  limit : UInt32
  sizes : List UInt32
  inputs : List EncoderInput

/-- The calls for one block. -/
def Batch.ops (b : Batch) : List SessionOp := b.sizes.map .resize ++ b.inputs.map .header

/-- A sender: for each block first the given size updates, then the headers, all into a new vector. The octets of each block; `none` when a
call fails. User code around /repo/hpack/src/encoder/mod.rs:100-240. -/
def send : List Batch → EncoderState → Option (List Bytes × EncoderState)
  | [], e => some ([], e)
  | b :: rest, e =>
    match encSession b.ops { e with dst := [] } with
    | (.ok (), e1) => (send rest e1).map fun r => (e1.dst :: r.1, r.2)
    | _ => none

/-- What the calls of all blocks mean: the headers of each block. -/
inductive SendMeans : SpecTable → List Batch → List (List (Octets × Octets × UInt8)) → SpecTable → Prop where
  | nil (t : SpecTable) : SendMeans t [] [] t
  | cons {t t1 t2 : SpecTable} {b : Batch} {bs : List Batch} {hs : List (Octets × Octets × UInt8)}
      {hss : List (List (Octets × Octets × UInt8))} (h : SessionMeans b.limit.toNat t b.ops hs t1) (hr : SendMeans t1 bs hss t2) :
      SendMeans t (b :: bs) (hs :: hss) t2

/-- C131. Whatever a peer sends that follows RFC 7541 (in any of the forms the RFC allows, with integers of at most five octets), the
decoder accepts every block and delivers exactly the headers the RFC gives it, and its table stays the one the RFC prescribes. -/
theorem C131_receive (xs : List Exchange) (t' : SpecTable) : ∀ (d : DecoderState), d.table.WF → RfcConnection 5 d.table.spec xs t' →
    ∃ d', receive (xs.map fun x => (x.limit, x.octets)) d = some (xs.map (·.headers), d') ∧ d'.table.spec = t' ∧ d'.table.WF := by
  induction xs with
  | nil =>
    intro d hwf h
    cases h
    exact ⟨d, rfl, rfl, hwf⟩
  | cons x xs ih =>
    intro d hwf h
    cases h with
    | cons hb hr =>
      obtain ⟨us, ws, h1, _, _, h4, h5⟩ := hb
      have hblk : Block lenientPads x.limit.toNat d.table.spec x.octets (us ++ ws) x.headers _ :=
        ⟨fun w hw => C31_rfc_forms _ _ (h1 w hw), h4, h5⟩
      obtain ⟨t1, hw1, rfl, hd⟩ := decode_block (s := { d.setMaxDynamicSize x.limit with buf := x.octets, dst := [] }) hwf hblk
      obtain ⟨d', hd', h6, h7⟩ := ih { d.setMaxDynamicSize x.limit with buf := [], dst := [] ++ x.headers, table := t1 } hw1 hr
      refine ⟨d', ?_, h6, h7⟩
      simp only [List.map_cons, receive, hd]
      rw [show ({ d.setMaxDynamicSize x.limit with buf := [], dst := [] ++ x.headers, table := t1 } : DecoderState) =
        { d.setMaxDynamicSize x.limit with buf := [], dst := [] ++ x.headers, table := t1 } from rfl] at hd'
      erw [hd']
      simp

theorem updates_emit {limit : Nat} (sizes : List UInt32) : ∀ {e e' : EncoderState}, e.table.WF → (∀ n ∈ sizes, n.toNat ≤ limit) →
    encSession (sizes.map .resize) e = (.ok (), e') →
    ∃ us : List (Rep × Octets), (∀ w ∈ us, RepWire rfcPads 6 w.1 w.2) ∧ (∀ w ∈ us, w.1.isHeader = false) ∧ e'.dst = e.dst ++ wireOf us ∧
      applyAll limit e.table.spec (us.map (·.1)) = some ([], e'.table.spec) ∧ e'.table.WF ∧
      SessionMeans limit e.table.spec (sizes.map .resize) [] e'.table.spec := by
  induction sizes with
  | nil =>
    intro e e' hwf _ h
    simp only [List.map_nil, encSession, M.pure_apply, Prod.mk.injEq, true_and] at h
    subst h
    exact ⟨[], by simp, by simp, by simp [wireOf], rfl, hwf, .nil _⟩
  | cons n sizes ih =>
    intro e e' hwf hfit h
    simp only [List.map_cons, encSession, M.bind_apply] at h
    obtain ⟨bs, e1, h1, hd, hw, hsp, hwf1⟩ := C27_size_update e hwf n
    rw [show encOp (.resize n) e = _ from h1] at h
    simp only at h
    obtain ⟨us, i1, i2, i3, i4, i5, i6⟩ := ih hwf1 (fun o ho => hfit o (by simp [ho])) h
    have hn := hfit n (by simp)
    rw [hsp] at i4 i6
    refine ⟨(.sizeUpdate n.toNat, bs) :: us, ?_, ?_, ?_, ?_, i5, .resize hn i6⟩
    · intro w hw'
      simp only [List.mem_cons] at hw'
      rcases hw' with rfl | hw'
      · exact hw
      · exact i1 w hw'
    · intro w hw'
      simp only [List.mem_cons] at hw'
      rcases hw' with rfl | hw'
      · rfl
      · exact i2 w hw'
    · rw [i3, hd, List.append_assoc]; simp [wireOf]
    · simp [applyAll, Rep.apply, hn, i4]

theorem headers_emit (limit : Nat) (inputs : List EncoderInput) : ∀ {e e' : EncoderState}, e.table.WF →
    encSession (inputs.map .header) e = (.ok (), e') →
    ∃ (ws : List (Rep × Octets)) (hs : List Field), (∀ w ∈ ws, RepWire rfcPads 6 w.1 w.2) ∧ (∀ w ∈ ws, w.1.isHeader = true) ∧
      e'.dst = e.dst ++ wireOf ws ∧ applyAll limit e.table.spec (ws.map (·.1)) = some (hs, e'.table.spec) ∧ e'.table.WF ∧
      SessionMeans limit e.table.spec (inputs.map .header) hs e'.table.spec := by
  induction inputs with
  | nil =>
    intro e e' hwf h
    simp only [List.map_nil, encSession, M.pure_apply, Prod.mk.injEq, true_and] at h
    subst h
    exact ⟨[], [], by simp, by simp, by simp [wireOf], rfl, hwf, .nil _⟩
  | cons input inputs ih =>
    intro e e' hwf h
    simp only [List.map_cons, encSession, M.bind_apply] at h
    rcases h1 : encOp (.header input) e with ⟨r, e1⟩
    rw [h1] at h
    cases r with
    | ok u =>
      simp only at h
      obtain ⟨rep, bs, hdr, hc, hd, hw, ha, hwf1⟩ := C27_encoder_refines e e1 input hwf h1
      obtain ⟨ws, hs, i1, i2, i3, i4, i5, i6⟩ := ih hwf1 h
      refine ⟨(rep, bs) :: ws, hdr :: hs, ?_, ?_, ?_, ?_, i5, .header hc (ha limit) i6⟩
      · intro w hw'
        simp only [List.mem_cons] at hw'
        rcases hw' with rfl | hw'
        · exact ⟨_, _, hw⟩
        · exact i1 w hw'
      · intro w hw'
        simp only [List.mem_cons] at hw'
        rcases hw' with rfl | hw'
        · cases hc <;> rfl
        · exact i2 w hw'
      · rw [i3, hd, List.append_assoc]; simp [wireOf]
      · simp [applyAll, ha limit, i4]
    | err e => simp at h
    | panic => simp at h
    | hang => simp at h

/-- C131. Whatever the encoder sends, when the user announces sizes only at the beginning of a block and none above the peer's limit, is
what RFC 7541 allows (strings padded as it demands, integers of at most six octets), so that a peer that follows the RFC reads every block as
exactly the headers the calls mean, and its table is the encoder's. No limit on the inputs. -/
theorem C131_send (batches : List Batch) : ∀ (e e' : EncoderState) (bss : List Bytes), e.table.WF →
    (∀ b ∈ batches, ∀ n ∈ b.sizes, n ≤ b.limit) → send batches e = some (bss, e') →
    ∃ xs : List Exchange, xs.map (·.octets) = bss ∧ xs.map (·.limit) = batches.map (·.limit) ∧
      RfcConnection 6 e.table.spec xs e'.table.spec ∧ SendMeans e.table.spec batches (xs.map (·.headers)) e'.table.spec ∧ e'.table.WF := by
  induction batches with
  | nil =>
    intro e e' bss hwf _ h
    simp only [send, Option.some.injEq, Prod.mk.injEq] at h
    obtain ⟨rfl, rfl⟩ := h
    exact ⟨[], rfl, rfl, .nil _, .nil _, hwf⟩
  | cons b batches ih =>
    intro e e' bss hwf hfit h
    simp only [send] at h
    rcases h1 : encSession b.ops { e with dst := [] } with ⟨r, e1⟩
    rw [h1] at h
    cases r with
    | ok u =>
      simp only at h
      cases h2 : send batches e1 with
      | none => simp [h2] at h
      | some r =>
        obtain ⟨bss', e2⟩ := r
        simp only [h2, Option.map_some, Option.some.injEq, Prod.mk.injEq] at h
        obtain ⟨rfl, rfl⟩ := h
        obtain ⟨em, ha, hb⟩ := (encSession_append _ _ _ _).mp h1
        obtain ⟨us, u1, u2, u3, u4, u5, u6⟩ := updates_emit (limit := b.limit.toNat) b.sizes
          (e := { e with dst := [] }) hwf (fun n hn => hfit b (by simp) n hn) ha
        obtain ⟨ws, hs, w1, w2, w3, w4, w5, w6⟩ := headers_emit b.limit.toNat b.inputs u5 hb
        obtain ⟨xs, x1, x2, x3, x4, x5⟩ := ih e1 e2 bss' w5 (fun b' hb' => hfit b' (by simp [hb'])) h2
        refine ⟨⟨b.limit, e1.dst, hs⟩ :: xs, by simp [x1], by simp [x2], .cons ⟨us, ws, ?_, u2, w2, ?_, ?_⟩ x3, .cons ?_ x4, x5⟩
        · intro w hw
          rcases List.mem_append.mp hw with hw | hw
          · exact u1 w hw
          · exact w1 w hw
        · rw [w3, u3]; simp [wireOf]
        · rw [List.map_append, applyAll_append, show applyAll b.limit.toNat e.table.spec (us.map (·.1)) = _ from u4]
          simp only [w4, List.nil_append]
        · have := SessionMeans.append u6 w6
          simpa [Batch.ops] using this
    | err e => simp at h
    | panic => simp at h
    | hang => simp at h

/-- A peer whose choices the encoder never makes: two size updates, the second not of minimal length, a literal with a plain name and a
coded value, an indexed header; in the second block, with a lower limit, the entry that was added. -/
def foreign : List Exchange :=
  [⟨4096, [0x20, 0x3f, 0xc5, 0x00, 0x40, 0x01, 0x61, 0x81, 0x8f, 0x82],
      [([0x61], [0x62], 4), ([0x3a, 0x6d, 0x65, 0x74, 0x68, 0x6f, 0x64], [0x47, 0x45, 0x54], 0)]⟩,
    ⟨200, [0xbe], [([0x61], [0x62], 0)]⟩]

/-- It meets the hypothesis of `C131_receive`. -/
example : ∃ t', RfcConnection 5 DecoderState.default.table.spec foreign t' := by
  refine ⟨_, .cons ⟨[(.sizeUpdate 0, [0x20]), (.sizeUpdate 100, [0x3f, 0xc5, 0x00])],
    [(.literal .incremental (.new [0x61]) [0x62], [0x40, 0x01, 0x61, 0x81, 0x8f]), (.indexed 2, [0x82])], ?_, by decide, by decide, rfl,
    by rfl⟩ (.cons ⟨[], [(.indexed 62, [0xbe])], ?_, by decide, by decide, rfl, by rfl⟩ (.nil _))⟩
  · intro w hw
    simp only [List.cons_append, List.nil_append, List.mem_cons, List.not_mem_nil, or_false] at hw
    rcases hw with rfl | rfl | rfl | rfl
    · exact ⟨false, false, Or.inl ⟨by decide, rfl⟩, by decide⟩
    · exact ⟨false, false, Or.inr ⟨[0xc5, 0x00], show _ ∧ _ from ⟨by decide, (by decide : (0x00 : UInt8).toNat < 128)⟩, by decide, rfl⟩,
        by decide⟩
    · exact ⟨false, true, [0x40], [0x01, 0x61], [0x81, 0x8f], ⟨Or.inl ⟨by decide, rfl⟩, by decide⟩,
        ⟨[0x01], ⟨Or.inl ⟨by decide, rfl⟩, by decide⟩, rfl⟩,
        ⟨[0x81], [0x8f], ⟨Or.inl ⟨by decide, rfl⟩, by decide⟩, ⟨padOnes 2, by decide, by decide +kernel⟩, rfl⟩, rfl⟩
    · exact ⟨false, false, Or.inl ⟨by decide, rfl⟩, by decide⟩
  · intro w hw
    simp only [List.nil_append, List.mem_cons, List.not_mem_nil, or_false] at hw
    subst hw
    exact ⟨false, false, Or.inl ⟨by decide, rfl⟩, by decide⟩

example : (receive (foreign.map fun x => (x.limit, x.octets)) DecoderState.default).map (·.1) = some (foreign.map (·.headers)) := by
  decide +kernel

/-- Two blocks, the first announcing two sizes: the hypotheses of `C131_send` hold and this is sent. -/
example : (send [⟨4096, [0, 100], [.Literal [97] [98] 0x7, .Indexed 2]⟩, ⟨4096, [], [.Indexed 62]⟩] EncoderState.default).map (·.1) =
    some [[32, 63, 69, 64, 129, 31, 129, 143, 130], [190]] := by decide +kernel

/-- A size above the limit breaks the hypothesis, and what is sent is then no block of the RFC: its decoder refuses the update. -/
example : ∃ bs e', send [⟨50, [100], []⟩] EncoderState.default = some ([bs], e') ∧
    receive [(50, bs)] DecoderState.default = none := ⟨[63, 69], _, rfl, by decide +kernel⟩

end Verif.Props
