import Verif.Props.ProtosVerdict
import Verif.Props.HpackFinal
/-! Property theorem C130: input that stops early can be finished. -/
namespace Verif.Props
open Verif Verif.Spec Verif.Spec.Proto Verif.Protos

theorem varint_finish {chk : Bool} {rest : Octets} (h : ∀ c ∈ rest, 128 ≤ c.toNat) (hl : chk = true → rest.length < 10) :
    ∃ v, VarintWire chk (rest ++ [0]) v := by
  by_cases h10 : (rest ++ [0]).length ≤ 10
  · exact ⟨_, isCont_zero h, fun _ => rfl, fun h => by omega⟩
  · refine ⟨_, isCont_zero h, fun h => absurd h h10, fun _ => ⟨?_, rfl⟩⟩
    cases chk with
    | false => rfl
    | true =>
      have := hl rfl
      simp at h10
      omega

/-- The body of an unfinished field whose key was read can be completed. -/
theorem body_finish {chk : Bool} {key : UInt32 × Typ} {len : Option UInt64} {hb rest : Octets} (hh : HeaderWire chk key len hb)
    (hk : key.2 ≠ .unknown) (hi : Incomplete key len rest)
    (hl : chk = true → key.2 = .lengthDelimited → len = none → rest.length < 10) :
    ∃ q p, RecordWire chk (key.1, key.2, p) (hb ++ rest ++ q) := by
  obtain ⟨tag, typ⟩ := key
  rcases hh with ⟨h, _⟩ | ⟨h, rfl⟩ | ⟨k, l, n, rfl, h, h2, rfl, hn, hv⟩
  · simp only [Prod.mk.injEq] at h
    exact absurd h.2 hk
  · cases typ with
    | unknown => exact absurd rfl hk
    | varint => exact ⟨[0], rest ++ [0], hb, rest ++ [0], by simp, h, rfl, isCont_zero hi⟩
    | bit32 =>
      have hi : rest.length < 4 := hi
      exact ⟨List.replicate (4 - rest.length) 0, _, hb, _, by rw [List.append_assoc], h, rfl, by simp; omega⟩
    | bit64 =>
      have hi : rest.length < 8 := hi
      exact ⟨List.replicate (8 - rest.length) 0, _, hb, _, by rw [List.append_assoc], h, rfl, by simp; omega⟩
    | lengthDelimited =>
      obtain ⟨v, hv⟩ := varint_finish (chk := chk) (rest := rest) hi fun hc => hl hc rfl rfl
      refine ⟨[0] ++ List.replicate v 0, List.replicate v 0, hb, rest ++ [0] ++ List.replicate v 0, by simp, h, rest ++ [0], rfl, ?_⟩
      simpa using hv
  · obtain rfl : typ = .lengthDelimited := h2
    have hi : rest.length < n.toNat := hi
    refine ⟨List.replicate (n.toNat - rest.length) 0, rest ++ List.replicate (n.toNat - rest.length) 0, k,
      l ++ (rest ++ List.replicate (n.toNat - rest.length) 0), by simp, h, l, rfl, ?_⟩
    have : (rest ++ List.replicate (n.toNat - rest.length) (0 : UInt8)).length = n.toNat := by simp; omega
    rw [this]
    exact hv

theorem key_of_good {chk : Bool} {bs : Octets} {v : Nat} (h : VarintWire chk bs v) (hb : ¬ BadKey v) :
    ∃ key : UInt32 × Typ, KeyWire chk bs key.1.toNat key.2 := by
  unfold BadKey at hb
  have hv : v < 2 ^ 32 := by omega
  have ht : (UInt32.ofNat (v / 8)).toNat = v / 8 := by
    rw [UInt32.toNat_ofNat_of_lt']
    show v / 8 < 2 ^ 32
    omega
  have h8 : v = 8 * (v / 8) + v % 8 := by omega
  have hc : v % 8 = 0 ∨ v % 8 = 1 ∨ v % 8 = 2 ∨ v % 8 = 5 := by omega
  have mk : ∀ typ, typ ≠ .unknown → v % 8 = typNum typ → ∃ key : UInt32 × Typ, KeyWire chk bs key.1.toNat key.2 := by
    intro typ hne htyp
    refine ⟨(UInt32.ofNat (v / 8), typ), ?_⟩
    show KeyWire chk bs (UInt32.ofNat (v / 8)).toNat typ
    rw [ht]
    refine ⟨by omega, by omega, hne, ?_⟩
    rw [← htyp, ← h8]
    exact h
  rcases hc with hc | hc | hc | hc
  · exact mk .varint (by decide) hc
  · exact mk .bit64 (by decide) hc
  · exact mk .lengthDelimited (by decide) hc
  · exact mk .bit32 (by decide) hc

theorem incomplete_nil {chk : Bool} {bs : Octets} {key : UInt32 × Typ} (h : KeyWire chk bs key.1.toNat key.2) : Incomplete key none [] := by
  obtain ⟨tag, typ⟩ := key
  have hne := h.2.2.1
  cases typ with
  | unknown => exact absurd rfl hne
  | varint => intro c hc; cases hc
  | lengthDelimited => intro c hc; cases hc
  | bit32 => show 0 < 4; decide
  | bit64 => show 0 < 8; decide

theorem drain_all {chk : Bool} {buf : Bytes} {dst recs : List Rec} (h : MessageWire chk recs buf) :
    drain chk (DState.fresh buf dst) = (.ok (), DState.fresh [] (dst ++ recs)) := by
  refine (C115_verdict chk buf [] dst recs (0, .unknown) none (.ok ())).mpr ⟨buf, [], by simp, h, Or.inl ⟨rfl, rfl, rfl⟩, ?_⟩
  exact .waits (by intro c hc; cases hc) (by simp)

/-- C130. If the bytes end inside a field whose key was read, there are bytes that finish it: with them the field is delivered, with the
key read, after the fields before it, and nothing is left over. (With overflow checks a length that already has ten unfinished bytes
is excepted: the eleventh byte panics.) -/
theorem C130_finish (chk : Bool) (buf : Bytes) (dst : List Rec) (s' : DState)
    (h : drain chk (DState.fresh buf dst) = (.ok (), s')) (hk : s'.key.2 ≠ .unknown)
    (hl : chk = true → s'.key.2 = .lengthDelimited → s'.ldLen = none → s'.buf.length < 10) :
    ∃ q p, drain chk (DState.fresh (buf ++ q) dst) = (.ok (), DState.fresh [] (s'.dst ++ [(s'.key.1, s'.key.2, p)])) := by
  obtain ⟨m, recs, hb, key, len, rest, r, h1, h2, h3, h4⟩ := C115_every_input chk buf
  have hd := (C115_verdict chk buf rest dst recs key len r).mpr ⟨m, hb, h1, h2, h3, h4⟩
  rw [h] at hd
  simp only [Prod.mk.injEq] at hd
  obtain ⟨rfl, rfl⟩ := hd
  cases h4 with
  | waits hi h10 =>
    obtain ⟨q, p, hr⟩ := body_finish h3 hk hi hl
    refine ⟨q, p, ?_⟩
    have hm := messageWire_append h2 (messageWire_single hr)
    have e : m ++ (hb ++ rest ++ q) = buf ++ q := by rw [h1]; simp
    rw [e] at hm
    rw [drain_all hm, List.append_assoc]

/-- C130. Any input can be settled: there are bytes after which the fields are complete and nothing is left over, or the input is
refused, or (with overflow checks) decoding panics. -/
theorem C130_settled (chk : Bool) (buf : Bytes) (dst : List Rec) :
    ∃ q, (∃ recs, drain chk (DState.fresh (buf ++ q) dst) = (.ok (), DState.fresh [] (dst ++ recs))) ∨
      (drain chk (DState.fresh (buf ++ q) dst)).1 = .err .invalidInput ∨
      (chk = true ∧ (drain chk (DState.fresh (buf ++ q) dst)).1 = .panic) := by
  obtain ⟨m, recs, hb, key, len, rest, r, h1, h2, h3, h4⟩ := C115_every_input chk buf
  have hd := (C115_verdict chk buf rest dst recs key len r).mpr ⟨m, hb, h1, h2, h3, h4⟩
  have now : (drain chk (DState.fresh (buf ++ []) dst)).1 = r := by rw [List.append_nil, hd]
  cases h4 with
  | refuses cs x v h5 h6 h7 h8 => exact ⟨[], Or.inr (Or.inl now)⟩
  | panics h5 h6 h7 => exact ⟨[], Or.inr (Or.inr ⟨h5, now⟩)⟩
  | waits hi h10 =>
    by_cases hlong : chk = true ∧ AtNumber key len ∧ rest.length = 10
    · obtain ⟨rfl, hat, hlen⟩ := hlong
      refine ⟨[0], Or.inr (Or.inr ⟨rfl, ?_⟩)⟩
      have hall : ∀ c ∈ rest, 128 ≤ c.toNat := by
        obtain ⟨tag, typ⟩ := key
        rcases hat with h | ⟨h, rfl⟩ <;> (simp only at h; subst h; exact hi)
      rw [(C115_verdict true (buf ++ [0]) (rest ++ [0]) dst recs key len .panic).mpr
        ⟨m, hb, by rw [h1]; simp, h2, h3, .panics rfl hat ⟨by simp; omega, ?_⟩⟩]
      rw [List.take_append_of_le_length (by omega), List.take_of_length_le (by omega)]
      exact hall
    · by_cases hk : key.2 = .unknown
      · have hkey : key = (0, .unknown) ∧ len = none ∧ hb = [] := by
          rcases h3 with h3 | ⟨h3, _⟩ | ⟨k, l, n, _, h3, _⟩
          · exact h3
          · exact absurd hk h3.2.2.1
          · exact absurd hk h3.2.2.1
        obtain ⟨rfl, rfl, rfl⟩ := hkey
        by_cases hrest : rest = []
        · subst hrest
          refine ⟨[], Or.inl ⟨recs, ?_⟩⟩
          rw [List.append_nil, hd]
          rfl
        · have hall : ∀ c ∈ rest, 128 ≤ c.toNat := hi
          obtain ⟨v, hv⟩ := varint_finish (chk := chk) hall fun hc => by
            have := h10 hc (Or.inl rfl)
            have : rest.length ≠ 10 := fun e => hlong ⟨hc, Or.inl rfl, e⟩
            omega
          by_cases hbad : BadKey v
          · refine ⟨[0], Or.inr (Or.inl ?_)⟩
            rw [(C115_verdict chk (buf ++ [0]) (rest ++ [0]) dst recs (0, .unknown) none (.err .invalidInput)).mpr
              ⟨m, [], by rw [h1]; simp, h2, Or.inl ⟨rfl, rfl, rfl⟩, .refuses (rest ++ [0]) [] v rfl (by simp) hv hbad⟩]
          · obtain ⟨key, hkw⟩ : ∃ key : UInt32 × Typ, KeyWire chk (rest ++ [0]) key.1.toNat key.2 := by
              exact key_of_good hv hbad
            obtain ⟨q, p, hr⟩ := body_finish (chk := chk) (key := key) (len := none) (rest := []) (Or.inr (Or.inl ⟨hkw, rfl⟩)) hkw.2.2.1
              (incomplete_nil hkw) (by simp)
            refine ⟨[0] ++ q, Or.inl ⟨recs ++ [(key.1, key.2, p)], ?_⟩⟩
            have hm := messageWire_append h2 (messageWire_single hr)
            have e : m ++ (rest ++ [0] ++ [] ++ q) = buf ++ ([0] ++ q) := by rw [h1]; simp
            rw [e] at hm
            exact drain_all hm
      · obtain ⟨q, p, hr⟩ := body_finish h3 hk hi fun hc ht hn => by
          have := h10 hc (Or.inr ⟨ht, hn⟩)
          have : rest.length ≠ 10 := fun e => hlong ⟨hc, Or.inr ⟨ht, hn⟩, e⟩
          omega
        refine ⟨q, Or.inl ⟨recs ++ [(key.1, key.2, p)], ?_⟩⟩
        have hm := messageWire_append h2 (messageWire_single hr)
        have e : m ++ (hb ++ rest ++ q) = buf ++ q := by rw [h1]; simp
        rw [e] at hm
        exact drain_all hm

/-! The first byte of field 1, length-delimited, and its length 3 with one byte: two more bytes finish it. A key of wire type 3 that
goes on can only be refused. -/
example : drain true (DState.fresh [0x0a, 3, 0x61]) = (.ok (), { key := (1, .lengthDelimited), ldLen := some 3, buf := [0x61], dst := [] }) := by
  decide +kernel
example : drain true (DState.fresh [0x0a, 3, 0x61, 0, 0]) = (.ok (), DState.fresh [] [(1, .lengthDelimited, [0x61, 0, 0])]) := by decide +kernel
example : (drain true (DState.fresh [0x83])).1 = .ok () ∧ (drain true (DState.fresh [0x83, 1])).1 = .err .invalidInput := by decide +kernel

end Verif.Props
