import Verif.Props.ProtosVerdict
/-! Property theorem C140: a field that was begun stays with the protobuf decoder, also when the caller replaces the buffer. -/
namespace Verif.Props
open Verif Verif.Spec Verif.Spec.Proto Verif.Protos

/-- C140. Whatever a decoder has been through, with whatever buffer and destination the caller goes on: it does what a new decoder does on
the header bytes of the unfinished field followed by the new buffer. Clearing the buffer does not clear the header. -/
theorem C140_continues (chk : Bool) (s : DState) (hs : Reachable chk s) :
    ∃ hb, HeaderWire chk s.key s.ldLen hb ∧ ∀ (buf : Bytes) (dst : List Rec),
      drain chk { s with buf := buf, dst := dst } = drain chk (DState.fresh (hb ++ buf) dst) := by
  obtain ⟨hb, h⟩ := reachable_header hs
  refine ⟨hb, h, fun buf dst => ?_⟩
  have a := drain_run (s := { s with buf := buf, dst := dst }) h
  exact (drain_run (fresh_header chk (hb ++ buf) dst)).det ((reach_header h buf dst).run a) |>.symm

/-- C140, in terms of bytes only: let a decoder have read whole fields `m`, then the header `hb` of a field that cannot be read further on
`rest` (or is refused, or panics). If the caller then replaces the buffer, the decoder does what a new one does on `hb` and the new buffer. -/
theorem C140_after (chk : Bool) (m hb rest : Bytes) (recs : List Rec) (key : UInt32 × Typ) (len : Option UInt64) (r : Res DecoderError Unit)
    (h1 : MessageWire chk recs m) (h2 : HeaderWire chk key len hb) (h3 : Ending chk key len rest r) (d : List Rec) :
    (drain chk (DState.fresh (m ++ hb ++ rest) d)).1 = r ∧ ∀ (buf : Bytes) (dst : List Rec),
      drain chk { (drain chk (DState.fresh (m ++ hb ++ rest) d)).2 with buf := buf, dst := dst } = drain chk (DState.fresh (hb ++ buf) dst) := by
  rw [(C115_verdict chk (m ++ hb ++ rest) rest d recs key len r).mpr ⟨m, hb, rfl, h1, h2, h3⟩]
  refine ⟨rfl, fun buf dst => ?_⟩
  have a := drain_run (s := { key := key, ldLen := len, buf := buf, dst := dst }) h2
  exact (drain_run (fresh_header chk (hb ++ buf) dst)).det ((reach_header h2 buf dst).run a) |>.symm

/-- The hypotheses are met by the field 1 = 1, the key of field 2, its length 3 and one byte. -/
example : MessageWire true [(1, .varint, [1])] [8, 1] ∧ HeaderWire true (2, .lengthDelimited) (some 3) [18, 3] ∧
    Ending true (2, .lengthDelimited) (some 3) [97] (.ok ()) :=
  ⟨⟨[8, 1], [], rfl, ⟨[8], [1], rfl, ⟨by decide, by decide, by decide, by simp [IsCont], by decide, by decide⟩, rfl, by simp [IsCont]⟩, rfl⟩,
    Or.inr (Or.inr ⟨[18], [3], 3, rfl, ⟨by decide, by decide, by decide, by simp [IsCont], by decide, by decide⟩, rfl, rfl, by decide,
      by simp [IsCont], by decide, by decide⟩),
    .waits (by show 1 < 3; decide) (by intro _ h; rcases h with h | ⟨_, h⟩ <;> cases h)⟩

/-- C140. So a decoder may go on with another message if and only if no header is pending: this is the case exactly if it behaves like a new
decoder on every buffer. -/
theorem C140_like_new (chk : Bool) (s : DState) (hs : Reachable chk s) :
    (∀ (buf : Bytes) (dst : List Rec), drain chk { s with buf := buf, dst := dst } = drain chk (DState.fresh buf dst)) ↔
      s.key.2 = .unknown := by
  obtain ⟨hb, h⟩ := reachable_header hs
  constructor
  · intro hall
    have e := hall [] []
    have f : drain chk (DState.fresh [] []) = (.ok (), DState.fresh [] []) :=
      (C115_verdict chk [] [] [] [] (0, .unknown) none (.ok ())).mpr
        ⟨[], [], rfl, rfl, Or.inl ⟨rfl, rfl, rfl⟩, .waits (by intro c hc; cases hc) (by intros; simp)⟩
    apply Decidable.byContradiction
    intro hk
    have hi : Incomplete s.key s.ldLen [] := by
      obtain ⟨⟨tag, typ⟩, len, buf, dst⟩ := s
      cases typ with
      | unknown => exact absurd rfl hk
      | varint => intro c hc; cases hc
      | bit32 => show 0 < 4; decide
      | bit64 => show 0 < 8; decide
      | lengthDelimited =>
        cases len with
        | none => intro c hc; cases hc
        | some n =>
          rcases h with ⟨h, _⟩ | ⟨_, h⟩ | ⟨_, _, m, _, _, _, h, hm, _⟩
          · cases h
          · cases h
          · obtain rfl : n = m := Option.some.inj h
            show 0 < n.toNat
            have : n.toNat ≠ 0 := fun h0 => hm (UInt64.toNat_inj.mp (by simpa using h0))
            omega
    have w := step_waits (chk := chk) (s := { s with buf := [], dst := [] }) hi (by intros; simp)
    have e2 := (drain_run (s := { s with buf := [], dst := [] }) h).det (.stuck w)
    rw [e2, f] at e
    have := congrArg (fun p => p.2.key.2) e
    exact hk this
  · intro hk buf dst
    obtain ⟨⟨tag, typ⟩, len, b, d⟩ := s
    obtain rfl : typ = .unknown := hk
    rcases h with ⟨h, rfl, _⟩ | ⟨h, _⟩ | ⟨_, _, _, _, h, _⟩
    · cases h; rfl
    · exact absurd rfl h.2.2.1
    · exact absurd rfl h.2.2.1

/-- C140. With the length of a value read, the next bytes are the value, whatever they are: while the buffer is shorter, `decode` returns 0 and
keeps everything; as soon as it is long enough, the first bytes are delivered under the old tag, and the decoder is like new for the rest. -/
theorem C140_swallows (chk : Bool) (tag : UInt32) (len : UInt64) (b : Bytes) (d0 : List Rec)
    (hs : Reachable chk { key := (tag, .lengthDelimited), ldLen := some len, buf := b, dst := d0 })
    (buf : Bytes) (dst : List Rec) :
    (buf.length < len.toNat →
      decode chk { key := (tag, .lengthDelimited), ldLen := some len, buf := buf, dst := dst } =
        (.ok 0, { key := (tag, .lengthDelimited), ldLen := some len, buf := buf, dst := dst })) ∧
    (len.toNat ≤ buf.length →
      drain chk { key := (tag, .lengthDelimited), ldLen := some len, buf := buf, dst := dst } =
        drain chk (DState.fresh (buf.drop len.toNat) (dst ++ [(tag, .lengthDelimited, buf.take len.toNat)]))) := by
  obtain ⟨hb, h⟩ := reachable_header hs
  have hpos : 0 < len.toNat := by
    rcases h with ⟨h, _⟩ | ⟨_, h⟩ | ⟨_, _, m, _, _, _, h, hm, _⟩
    · cases h
    · cases h
    · obtain rfl : len = m := Option.some.inj h
      have : len.toNat ≠ 0 := fun h0 => hm (UInt64.toNat_inj.mp (by simpa using h0))
      omega
  constructor
  · intro hlt
    exact loop_end (step_waits (s := { key := (tag, .lengthDelimited), ldLen := some len, buf := buf, dst := dst }) hlt
      (fun _ hn => by rcases hn with hn | ⟨_, hn⟩ <;> cases hn))
  · intro hle
    have st : decodeStep chk { key := (tag, .lengthDelimited), ldLen := some len, buf := buf, dst := dst } =
        (.ok len.toNat, DState.fresh (buf.drop len.toNat) (dst ++ [(tag, .lengthDelimited, buf.take len.toNat)])) := by
      simp only [decodeStep, stepLd, stepLdBytes, extractLd, if_neg (show ¬ buf.length < len.toNat by omega), orUnderflow]
      rfl
    refine (drain_run (s := { key := (tag, .lengthDelimited), ldLen := some len, buf := buf, dst := dst }) h).det ?_
    refine .step st (fun h2 => ?_) (drain_run (fresh_header chk _ _))
    rw [st] at h2
    simp only [Prod.mk.injEq, Res.ok.injEq] at h2
    omega

/-- The state after a message that was cut off inside a string of three bytes. -/
theorem C140_cut_off : Reachable true { key := (1, .lengthDelimited), ldLen := some 3, buf := [97], dst := [] } := by
  have : (decode true (DState.fresh [10, 3, 97])).2 = { key := (1, .lengthDelimited), ldLen := some 3, buf := [97], dst := [] } := by decide
  rw [← this]
  exact .decode (.fresh _ _)

/-- C140. An example: after that, the caller clears the buffer and gives the fields 1 = 1 and 2 = 2 to the same decoder. They come out as a
string of tag 1, and the last byte is refused as a key. -/
theorem C140_example :
    (drain true { key := (1, .lengthDelimited), ldLen := some 3, buf := [8, 1, 16, 2], dst := [] }).2.dst = [(1, .lengthDelimited, [8, 1, 16])] ∧
    (drain true { key := (1, .lengthDelimited), ldLen := some 3, buf := [8, 1, 16, 2], dst := [] }).1 = .err .invalidInput ∧
    (drain true (DState.fresh [8, 1, 16, 2])).2.dst = [(1, .varint, [1]), (2, .varint, [2])] := by
  decide

end Verif.Props
