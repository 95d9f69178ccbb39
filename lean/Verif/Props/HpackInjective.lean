import Verif.Props.HpackLoss
import Verif.Props.HpackFrame
/-! Property theorem C119: octets of the encoder are not ambiguous. -/
namespace Verif.Props
open Verif Verif.Spec Verif.Hpack

/-- C119. The octets of one history are a beginning of those of another, both from the same table: then the headers of the first are a
beginning of the headers of the second. -/
theorem C119_prefix (limit : UInt32) (e e1 e2 : EncoderState) (hwf : e.table.WF) (ops1 ops2 : List SessionOp)
    (f1 : ∀ op ∈ ops1, OpFits limit.toNat op) (f2 : ∀ op ∈ ops2, OpFits limit.toNat op)
    (h1 : encSession ops1 { e with dst := [] } = (.ok (), e1)) (h2 : encSession ops2 { e with dst := [] } = (.ok (), e2))
    (x : Bytes) (hx : e2.dst = e1.dst ++ x) :
    ∃ hs more, SessionMeans limit.toNat e.table.spec ops1 hs e1.table.spec ∧
      SessionMeans limit.toNat e.table.spec ops2 (hs ++ more) e2.table.spec := by
  let d : DecoderState := { DecoderState.default with maxDynamicSize := limit, table := e.table, buf := [], dst := [] }
  obtain ⟨hs1, k1, m1, d1, w1⟩ := C28_session e e1 d ops1 hwf rfl f1 h1
  obtain ⟨hs2, k2, m2, d2, _⟩ := C28_session e e2 d ops2 hwf rfl f2 h2
  have hp := (C34_pieces d _ hwf e1.dst x k1 d1).1
  rw [hx] at d2
  rw [d2] at hp
  have hq : decode { d with buf := x, table := e1.table, dst := hs1 ++ [] } = _ := C98_decode { d with buf := x, table := e1.table } hs1
  have hdst := congrArg DecoderState.dst hp
  simp only [d, List.nil_append] at hdst
  simp only [d, List.append_nil] at hq
  rw [hq] at hdst
  exact ⟨hs1, _, m1, hdst ▸ m2⟩

/-- C119. Two histories from the same table with the same octets mean the same headers, with the same sensitivity, and leave the same
table. -/
theorem C119_unambiguous (limit : UInt32) (e e1 e2 : EncoderState) (hwf : e.table.WF) (ops1 ops2 : List SessionOp)
    (f1 : ∀ op ∈ ops1, OpFits limit.toNat op) (f2 : ∀ op ∈ ops2, OpFits limit.toNat op)
    (h1 : encSession ops1 { e with dst := [] } = (.ok (), e1)) (h2 : encSession ops2 { e with dst := [] } = (.ok (), e2))
    (hx : e1.dst = e2.dst) :
    ∃ hs, SessionMeans limit.toNat e.table.spec ops1 hs e1.table.spec ∧ SessionMeans limit.toNat e.table.spec ops2 hs e2.table.spec ∧
      e1.table = e2.table := by
  let d : DecoderState := { DecoderState.default with maxDynamicSize := limit, table := e.table, buf := [], dst := [] }
  obtain ⟨hs1, k1, m1, d1, w1⟩ := C28_session e e1 d ops1 hwf rfl f1 h1
  obtain ⟨hs2, k2, m2, d2, _⟩ := C28_session e e2 d ops2 hwf rfl f2 h2
  rw [hx, d2] at d1
  simp only [d, List.nil_append, Prod.mk.injEq, DecoderState.mk.injEq, true_and] at d1
  obtain ⟨_, ht, hh⟩ := d1
  subst hh
  exact ⟨_, m1, m2, ht.symm⟩

/-- Different calls can have the same octets (the whole header in the form chosen by BEST_FORMAT, and its index) ... -/
example : (encSession [.header (.Literal [0x3a, 0x6d, 0x65, 0x74, 0x68, 0x6f, 0x64] [0x47, 0x45, 0x54] 0x10)] EncoderState.default) =
    (encSession [.header (.Indexed 2)] EncoderState.default) := by decide +kernel

/-- ... and the hypotheses of `C119_prefix` are met by a history and a longer one with other calls. -/
example : (encSession [.header (.Indexed 2)] EncoderState.default).1 = .ok () ∧
    (encSession [.header (.Literal [0x3a, 0x6d, 0x65, 0x74, 0x68, 0x6f, 0x64] [0x47, 0x45, 0x54] 0x10), .header (.Literal [1] [2] 0x4)]
      EncoderState.default).1 = .ok () ∧
    (encSession [.header (.Literal [0x3a, 0x6d, 0x65, 0x74, 0x68, 0x6f, 0x64] [0x47, 0x45, 0x54] 0x10), .header (.Literal [1] [2] 0x4)]
      EncoderState.default).2.dst = (encSession [.header (.Indexed 2)] EncoderState.default).2.dst ++ [0x40, 1, 1, 1, 2] := by decide +kernel

end Verif.Props
