import Verif.Props.HpackSession
import Verif.Spec.HpackTries
/-! Property theorem C94: sessions in which the caller ignores refused calls. -/
namespace Verif.Props
open Verif Verif.Spec Verif.Hpack

/-- A user that calls the encoder for every operation and goes on after an error: which calls succeeded, and the final state. -/
def encTry : List SessionOp → EncoderState → List Bool × EncoderState
  | [], e => ([], e)
  | op :: ops, e => ((encOp op e).1.isOk :: (encTry ops (encOp op e).2).1, (encTry ops (encOp op e).2).2)

theorem encTry_emits {limit : Nat} (ops : List SessionOp) : ∀ {e : EncoderState}, e.table.WF →
    (∀ op ∈ ops, OpFits limit op) →
    ∃ bs ws hs, (encTry ops e).2.dst = e.dst ++ bs ∧
      Block lenientPads limit e.table.spec bs ws hs (encTry ops e).2.table.spec ∧ (encTry ops e).2.table.WF ∧
      SessionTries limit e.table.spec ops (encTry ops e).1 hs (encTry ops e).2.table.spec := by
  induction ops with
  | nil =>
    intro e hwf _
    exact ⟨[], [], [], by simp [encTry], block_nil _ _, hwf, .nil _⟩
  | cons op ops ih =>
    intro e hwf hfit
    simp only [encTry]
    cases op with
    | header input =>
      have hf : InputFits input := hfit (.header input) (by simp)
      have hop : encOp (.header input) e = encode input e := rfl
      rcases C40_encode_failures e hwf input with ⟨e1, h1, hwf1⟩ | ⟨h1, i, hg, hi⟩ | ⟨e1, h1, hwf1, hbig⟩
      · obtain ⟨rep, bs, hdr, hc, hd, hw, ha, _⟩ := encode_emits limit hwf hf h1
        obtain ⟨bs', ws, hs, hd', hb, hwf', hm⟩ := ih hwf1 (fun o ho => hfit o (by simp [ho]))
        rw [hop, h1]
        exact ⟨bs ++ bs', _, _, by simp only; rw [hd', hd, List.append_assoc], block_cons hw ha hb, hwf', .header hc ha hm⟩
      · obtain ⟨bs', ws, hs, hd', hb, hwf', hm⟩ := ih hwf (fun o ho => hfit o (by simp [ho]))
        rw [hop, h1]
        exact ⟨bs', ws, hs, hd', hb, hwf', .refused ⟨i, by rw [← Table.get_spec]; exact hg, hi⟩ hm⟩
      · exfalso
        rcases hbig with ⟨i, v, f, rfl, hv⟩ | ⟨n, v, f, rfl, hv⟩
        · have : strLen (f.toNat.testBit 1) v < 2 ^ 28 + 127 := hf
          have hv' : 2 ^ 32 ≤ strLen (f.toNat.testBit 1) v := hv
          omega
        · have h0 : strLen (f.toNat.testBit 0) n < 2 ^ 28 + 127 ∧ strLen (f.toNat.testBit 1) v < 2 ^ 28 + 127 := hf
          have hv' : 2 ^ 32 ≤ strLen (f.toNat.testBit 0) n ∨ 2 ^ 32 ≤ strLen (f.toNat.testBit 1) v := hv
          omega
    | resize n =>
      have hn : n.toNat ≤ limit ∧ n.toNat < 2 ^ 28 + 31 := hfit (.resize n) (by simp)
      obtain ⟨bs, t', hwf1, hsp, he, _, hw, _⟩ := encUpdate_spec e hwf n
      have hop : encOp (.resize n) e = (.ok (), { e with dst := e.dst ++ bs, table := t' }) := he
      rw [hop]
      obtain ⟨bs', ws, hs, hd', hb, hwf', hm⟩ :=
        ih (e := { e with dst := e.dst ++ bs, table := t' }) hwf1 (fun o ho => hfit o (by simp [ho]))
      simp only at hb hm hd'
      rw [hsp] at hb hm
      refine ⟨bs ++ bs', (.sizeUpdate n.toNat, bs) :: ws, hs, by simp only; rw [hd', List.append_assoc], ?_, hwf', .resize hn.1 hm⟩
      have := block_cons (rep := .sizeUpdate n.toNat) (hdr := none) (t := e.table.spec) (limit := limit)
        ⟨false, false, hw hn.2⟩ (by simp [Rep.apply, hn.1]) hb
      simpa using this

/-- C94. Refused calls leave no trace: whatever the calls (also with indices that have no header), a user may go on after an error.
The calls that were refused are exactly those whose index had no header at that moment, and the decoder yields exactly the
headers of the other calls and stays synchronised. -/
theorem C94_refused_calls (e : EncoderState) (d : DecoderState) (ops : List SessionOp) (hwf : e.table.WF)
    (hsync : d.table = e.table) (hfit : ∀ op ∈ ops, OpFits d.maxDynamicSize.toNat op) :
    ∃ hs k, SessionTries d.maxDynamicSize.toNat e.table.spec ops (encTry ops { e with dst := [] }).1 hs
        (encTry ops { e with dst := [] }).2.table.spec ∧
      decode { d with buf := (encTry ops { e with dst := [] }).2.dst } =
        (.ok k, { d with buf := [], dst := d.dst ++ hs, table := (encTry ops { e with dst := [] }).2.table }) := by
  obtain ⟨bs, ws, hs, hd, hb, hwf', hm⟩ := encTry_emits ops (e := { e with dst := [] }) hwf hfit
  simp only [List.nil_append] at hd
  subst hd
  obtain ⟨t', h1, h2, h3⟩ := decode_block (s := { d with buf := (encTry ops { e with dst := [] }).2.dst })
    (by simp only; rw [hsync]; exact hwf) (by simpa only [hsync] using hb)
  exact ⟨hs, _, hm, by rw [h3, Table.WF.ext h1 hwf' h2]⟩

/-- C94. The verdicts, the headers and the final table are determined by the calls. -/
theorem C94_meaning_unique (limit : Nat) (t t1 t2 : SpecTable) (ops : List SessionOp) (oks1 oks2 : List Bool)
    (hs1 hs2 : List Field) (h1 : SessionTries limit t ops oks1 hs1 t1) (h2 : SessionTries limit t ops oks2 hs2 t2) :
    oks1 = oks2 ∧ hs1 = hs2 ∧ t1 = t2 := by
  have bad : ∀ {t : SpecTable} {input : EncoderInput} {rep : Rep} {x}, BadIndex t input → Chosen t input rep →
      rep.apply limit t = some x → False := by
    rintro t input rep x ⟨i, hi, rfl | ⟨v, f, rfl⟩⟩ hc ha <;> cases hc <;> simp [Rep.apply, NameRef.resolve, hi] at ha
  induction h1 generalizing oks2 hs2 t2 with
  | nil t => cases h2; exact ⟨rfl, rfl, rfl⟩
  | header hc ha hr ih =>
    cases h2 with
    | header hc' ha' hr' =>
      obtain rfl := Chosen.unique hc hc'
      rw [ha] at ha'
      simp only [Option.some.injEq, Prod.mk.injEq] at ha'
      obtain ⟨rfl, rfl⟩ := ha'
      obtain ⟨rfl, rfl, rfl⟩ := ih _ _ _ hr'
      exact ⟨rfl, rfl, rfl⟩
    | refused hb hr' => exact (bad hb hc ha).elim
  | refused hb hr ih =>
    cases h2 with
    | header hc' ha' hr' => exact (bad hb hc' ha').elim
    | refused hb' hr' =>
      obtain ⟨rfl, rfl, rfl⟩ := ih _ _ _ hr'
      exact ⟨rfl, rfl, rfl⟩
  | resize hn hr ih =>
    cases h2 with
    | resize hn' hr' =>
      obtain ⟨rfl, rfl, rfl⟩ := ih _ _ _ hr'
      exact ⟨rfl, rfl, rfl⟩

/-- Index 62 is refused at first and accepted after a header was stored. -/
example : (encTry [.header (.Indexed 62), .header (.Literal [0x61] [0x62] 4), .header (.Indexed 62), .header (.IndexedName 63 [] 0)]
      EncoderState.default).1 = [false, true, true, false] ∧
    (encTry [.header (.Indexed 62), .header (.Literal [0x61] [0x62] 4), .header (.Indexed 62), .header (.IndexedName 63 [] 0)]
      EncoderState.default).2.dst = [0x40, 1, 0x61, 1, 0x62, 0xBE] := by decide +kernel

end Verif.Props
