import Verif.Props.HpackSession
/-! Property theorem C104: an intermediary that decodes headers and encodes what it got. -/
namespace Verif.Props
open Verif Verif.Spec Verif.Hpack

/-- The flags the decoder reports. -/
def DecodedFlag (f : UInt8) : Prop := f = 0 ∨ f = 4 ∨ f = 8

theorem Rep.apply_flag {limit : Nat} {t t' : SpecTable} {r : Rep} {h : Option Field} (ha : r.apply limit t = some (h, t')) :
    ∀ x ∈ h.toList, DecodedFlag x.2.2 := by
  cases r with
  | indexed i =>
    simp only [Rep.apply] at ha
    split at ha
    · cases ha; intro x hx; simp only [Option.toList_some, List.mem_singleton] at hx; subst hx; exact Or.inl rfl
    · cases ha
  | literal m n v =>
    simp only [Rep.apply] at ha
    split at ha
    · cases ha; intro x hx; simp only [Option.toList_some, List.mem_singleton] at hx; subst hx
      cases m
      · exact Or.inr (Or.inl rfl)
      · exact Or.inl rfl
      · exact Or.inr (Or.inr rfl)
    · cases ha
  | sizeUpdate n =>
    simp only [Rep.apply] at ha
    split at ha <;> cases ha
    intro x hx; simp at hx

theorem applyAll_flags {limit : Nat} (rs : List Rep) : ∀ {t t' : SpecTable} {hs : List Field}, applyAll limit t rs = some (hs, t') →
    ∀ x ∈ hs, DecodedFlag x.2.2 := by
  induction rs with
  | nil => intro t t' hs h; cases h; simp
  | cons r rs ih =>
    intro t t' hs h
    simp only [applyAll] at h
    split at h
    · cases h
    · rename_i h1 t1 he
      split at h
      · cases h
      · rename_i hs' t'' he'
        cases h
        intro x hx
        rcases List.mem_append.mp hx with hx | hx
        · exact Rep.apply_flag he x hx
        · exact ih he' x hx

/-- The flag octet an intermediary gives to `encode` for a decoded header: the reported flag, and possibly the bits that ask for
Huffman coding. -/
def relayFlags (f huff : UInt8) : UInt8 := f ||| (huff &&& 3)

theorem relayFlags_spec (f huff : UInt8) (h : DecodedFlag f) :
    (relayFlags f huff).toNat.testBit 4 = false ∧ (flagMode (relayFlags f huff)).flag = f := by
  have : ∀ huff : UInt8, ∀ f ∈ [(0 : UInt8), 4, 8],
      (relayFlags f huff).toNat.testBit 4 = false ∧ (flagMode (relayFlags f huff)).flag = f := by
    apply forall_u8
    decide +kernel
  exact this huff f (by rcases h with h | h | h <;> simp [h])

/-- The calls of an intermediary: every header it decoded, as a literal, with the reported flag. -/
def relayOps (huff : Field → UInt8) (hs : List Field) : List SessionOp :=
  hs.map fun h => .header (EncoderInput.ofLiteral (h.1, h.2.1, relayFlags h.2.2 (huff h)))

theorem relay_means {limit : Nat} (huff : Field → UInt8) (hs : List Field) : ∀ {t t' : SpecTable} {hs' : List Field},
    (∀ h ∈ hs, DecodedFlag h.2.2) → SessionMeans limit t (relayOps huff hs) hs' t' → hs' = hs := by
  induction hs with
  | nil => intro t t' hs' _ h; cases h; rfl
  | cons x xs ih =>
    intro t t' hs' hf h
    obtain ⟨h4, hm⟩ := relayFlags_spec x.2.2 (huff x) (hf x (by simp))
    cases h with
    | header hc ha hr =>
      have e := Chosen.unique hc (.literal x.1 x.2.1 _ h4)
      subst e
      simp only [Rep.apply, NameRef.resolve, Option.some.injEq, Prod.mk.injEq] at ha
      rw [← ha.1, hm, ih (fun h hh => hf h (by simp [hh])) hr]

theorem relay_encodes {limit : Nat} (huff : Field → UInt8) (hs : List Field) : ∀ {e : EncoderState}, e.table.WF →
    (∀ h ∈ hs, DecodedFlag h.2.2) → (∀ op ∈ relayOps huff hs, OpFits limit op) → ∃ e', encSession (relayOps huff hs) e = (.ok (), e') := by
  induction hs with
  | nil => intro e _ _ _; exact ⟨e, rfl⟩
  | cons x xs ih =>
    intro e hwf hf hfit
    obtain ⟨h4, hm⟩ := relayFlags_spec x.2.2 (huff x) (hf x (by simp))
    have hfx := hfit (.header (EncoderInput.ofLiteral (x.1, x.2.1, relayFlags x.2.2 (huff x)))) (by simp [relayOps])
    obtain ⟨e1, h1⟩ := C27_encoder_succeeds e (.Literal x.1 x.2.1 (relayFlags x.2.2 (huff x))) _ hwf (.literal x.1 x.2.1 _ h4) rfl
      ⟨Nat.lt_trans hfx.1 (by decide), Nat.lt_trans hfx.2 (by decide)⟩
    obtain ⟨_, _, _, _, _, _, _, hwf1⟩ := C27_encoder_refines e e1 _ hwf h1
    obtain ⟨e2, h2⟩ := ih (e := e1) hwf1 (fun h hh => hf h (by simp [hh])) (fun op ho => hfit op (by
      simp only [relayOps, List.map_cons, List.mem_cons]; exact Or.inr ho))
    refine ⟨e2, ?_⟩
    show (encode (.Literal x.1 x.2.1 (relayFlags x.2.2 (huff x))) >>= fun _ => encSession (relayOps huff xs)) e = _
    rw [M.bind_apply, h1]
    exact h2

/-- C104. An intermediary that decodes headers from one connection (completely or up to an error) and gives each of them, with the flag
it got, to the encoder of another connection: all calls succeed, and the next decoder gets the same headers with the same flags, in
the same order; so headers marked as never to be indexed are marked so on every hop, and headers stored by the first
sender are stored on every hop. -/
theorem C104_relay (u : DecoderState) (hu : u.table.WF) (h0 : u.dst = []) (e : EncoderState) (d : DecoderState) (hwf : e.table.WF)
    (hsync : d.table = e.table) (huff : Field → UInt8)
    (hfit : ∀ h ∈ (decode u).2.dst, InputFits (.Literal h.1 h.2.1 (relayFlags h.2.2 (huff h)))) :
    ∃ e' k, encSession (relayOps huff (decode u).2.dst) { e with dst := [] } = (.ok (), e') ∧
      decode { d with buf := e'.dst } = (.ok k, { d with buf := [], dst := d.dst ++ (decode u).2.dst, table := e'.table }) := by
  have hflags : ∀ x ∈ (decode u).2.dst, DecodedFlag x.2.2 := by
    obtain ⟨s', ws, hs, r, h1, ⟨⟨used, hb, hblk⟩, h3, _⟩, h2⟩ := decode_spec u hu
    rw [h1]
    have : s'.dst = hs := by rw [h3, h0]; rfl
    rw [this]
    exact applyAll_flags _ hblk.2.2
  have hops : ∀ op ∈ relayOps huff (decode u).2.dst, OpFits d.maxDynamicSize.toNat op := by
    intro op ho
    obtain ⟨h, hh, rfl⟩ := List.mem_map.mp ho
    exact hfit h hh
  obtain ⟨e', he⟩ := relay_encodes (limit := d.maxDynamicSize.toNat) huff (decode u).2.dst (e := { e with dst := [] }) hwf hflags hops
  obtain ⟨hs, k, hm, hd, _⟩ := C28_session e e' d _ hwf hsync hops he
  have := relay_means huff _ hflags hm
  subst this
  exact ⟨e', k, he, hd⟩

/-- Headers passed along a chain of connections: on each the headers are encoded into one block, and what the decoder delivers is passed
on to the next. `none` if any call fails. -/
def relayChain (huff : Field → UInt8) : List (EncoderState × DecoderState) → List Field → Option (List Field)
  | [], hs => some hs
  | (e, d) :: hops, hs =>
    match encSession (relayOps huff hs) { e with dst := [] } with
    | (.ok (), e') =>
      match decode { d with buf := e'.dst, dst := [] } with
      | (.ok _, d') => relayChain huff hops d'.dst
      | _ => none
    | _ => none

/-- C104. The same along any number of hops, each with its own table contents and sizes. -/
theorem C104_chain (u : DecoderState) (hu : u.table.WF) (h0 : u.dst = []) (huff : Field → UInt8)
    (hfit : ∀ h ∈ (decode u).2.dst, InputFits (.Literal h.1 h.2.1 (relayFlags h.2.2 (huff h))))
    (hops : List (EncoderState × DecoderState)) (hsync : ∀ p ∈ hops, p.1.table.WF ∧ p.2.table = p.1.table) :
    relayChain huff hops (decode u).2.dst = some (decode u).2.dst := by
  induction hops with
  | nil => rfl
  | cons p hops ih =>
    obtain ⟨e, d⟩ := p
    obtain ⟨hwf, hs⟩ := hsync (e, d) (by simp)
    obtain ⟨e', k, h1, h2⟩ := C104_relay u hu h0 e { d with dst := [] } hwf hs huff hfit
    simp only [relayChain, h1]
    simp only at h2
    rw [h2]
    exact ih fun p hp => hsync p (by simp [hp])

/-! A concrete case: an indexed header, a stored one, a sensitive one and an ordinary one are passed on by way of a table of size 0, with
Huffman coding. -/
example :
    let u := { DecoderState.default with buf := [0x82, 0x40, 1, 97, 1, 98, 0x10, 1, 112, 1, 113, 0x00, 1, 120, 1, 121] }
    let e := EncoderState.withDynamicSize 0
    let d := DecoderState.withDynamicSize 0
    (decode u).2.dst = [([58, 109, 101, 116, 104, 111, 100], [71, 69, 84], 0), ([97], [98], 4), ([112], [113], 8), ([120], [121], 0)] ∧
      (encSession (relayOps (fun _ => 3) (decode u).2.dst) e).1 = .ok () ∧
      (decode { d with buf := (encSession (relayOps (fun _ => 3) (decode u).2.dst) e).2.dst }).2.dst = (decode u).2.dst := by
  decide +kernel

example : InputFits (.Literal [97] [98] (relayFlags 4 3)) := by
  constructor <;> decide +kernel

end Verif.Props
