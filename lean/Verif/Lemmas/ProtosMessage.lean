import Verif.Lemmas.ProtosMachine
/-! Reading a whole field, a whole message, and the client loops. -/
namespace Verif.Protos
open Verif.Spec Verif.Spec.Proto

theorem step_key {chk k tag typ} (h : KeyWire chk k (UInt32.toNat tag) typ) (x : Bytes) (dst : List Rec) :
    decodeStep chk (DState.fresh (k ++ x) dst) = (.ok k.length, { key := (tag, typ), ldLen := none, buf := x, dst := dst }) := by
  simp only [decodeStep, stepKey, DState.fresh, decodeKey_ok h, orUnderflow, DState.drain, List.drop_left' rfl]

theorem loop_next {chk fuel total s n s'} (h : decodeStep chk s = (.ok n, s')) (hn : n ≠ 0) :
    decodeLoop chk (fuel + 1) total s = decodeLoop chk fuel (total + n) s' := by
  show (decodeStep chk >>= fun size => if size = 0 then pure total else decodeLoop chk fuel (total + size)) s = _
  rw [M.bind_of_ok h, if_neg hn]

theorem loop_end {chk fuel total s s'} (h : decodeStep chk s = (.ok 0, s')) :
    decodeLoop chk (fuel + 1) total s = (.ok total, s') := by
  show (decodeStep chk >>= fun size => if size = 0 then pure total else decodeLoop chk fuel (total + size)) s = _
  rw [M.bind_of_ok h]; rfl

theorem step_done {chk : Bool} {tag : UInt32} {typ : Typ} {p x : Bytes} {dst : List Rec} (h : BodyWire chk typ p p)
    (ht : typ ≠ .lengthDelimited) :
    decodeStep chk { key := (tag, typ), ldLen := none, buf := p ++ x, dst := dst } =
      (.ok p.length, DState.fresh x (dst ++ [(tag, typ, p)])) ∧ p ≠ [] := by
  cases typ with
  | unknown => exact h.elim
  | lengthDelimited => exact absurd rfl ht
  | varint =>
    refine ⟨?_, h.2.ne_nil⟩
    simp only [decodeStep, stepVarint, extractVarint_ok h.2, orUnderflow, DState.drain, DState.push, DState.reset, DState.fresh, List.drop_left' rfl]
  | bit32 =>
    have hl : p.length = 4 := h.2
    refine ⟨?_, by rintro rfl; simp at hl⟩
    have hx : extractBit32 (p ++ x) = .ok (p, 4) := by
      rw [extractBit32, if_neg (by simp; omega), List.take_left' hl]
    simp only [decodeStep, stepBit32, hx, orUnderflow, DState.drain, DState.push, DState.reset, DState.fresh, List.drop_left' hl, hl]
  | bit64 =>
    have hl : p.length = 8 := h.2
    refine ⟨?_, by rintro rfl; simp at hl⟩
    have hx : extractBit64 (p ++ x) = .ok (p, 8) := by
      rw [extractBit64, if_neg (by simp; omega), List.take_left' hl]
    simp only [decodeStep, stepBit64, hx, orUnderflow, DState.drain, DState.push, DState.reset, DState.fresh, List.drop_left' hl, hl]

theorem step_len {chk : Bool} {tag : UInt32} {l x : Bytes} {n : Nat} {dst : List Rec} (h : VarintWire chk l n) :
    decodeStep chk { key := (tag, .lengthDelimited), ldLen := none, buf := l ++ x, dst := dst } =
      (.ok l.length, { key := (tag, .lengthDelimited), ldLen := some (UInt64.ofNat n), buf := x, dst := dst }) := by
  simp only [decodeStep, stepLd, stepLdLen, decodeVarint_ok h, orUnderflow, DState.drain, List.drop_left' rfl]

theorem step_data {chk : Bool} {tag : UInt32} {p x : Bytes} {dst : List Rec} (h : p.length < 2 ^ 64) :
    decodeStep chk { key := (tag, .lengthDelimited), ldLen := some (UInt64.ofNat p.length), buf := p ++ x, dst := dst } =
      (.ok p.length, DState.fresh x (dst ++ [(tag, .lengthDelimited, p)])) := by
  have hl : (UInt64.ofNat p.length).toNat = p.length := UInt64.toNat_ofNat_of_lt' h
  have hx : extractLd (p ++ x) (UInt64.ofNat p.length) = .ok (p, p.length) := by
    rw [extractLd, hl, if_neg (by simp), List.take_left' rfl]
  simp only [decodeStep, stepLd, stepLdBytes, hx, orUnderflow, DState.drain, DState.push, DState.reset, DState.fresh, List.drop_left' rfl]

theorem pos_of_ne {b : Bytes} (h : b ≠ []) : 0 < b.length := List.length_pos_iff.mpr h

/-- A field with a payload is read, and the loop goes on after it. -/
theorem loop_record {chk : Bool} {r : Rec} {b : Bytes} (h : RecordWire chk r b) (hp : r.2.2 ≠ []) (x : Bytes) (dst : List Rec)
    (fuel total : Nat) (hf : (b ++ x).length < fuel) :
    ∃ fuel', x.length < fuel' ∧
      decodeLoop chk fuel total (DState.fresh (b ++ x) dst) = decodeLoop chk fuel' (total + b.length) (DState.fresh x (dst ++ [r])) := by
  obtain ⟨tag, typ, p⟩ := r
  obtain ⟨k, c, rfl, hk, hb⟩ := h
  have hk0 : 0 < k.length := pos_of_ne hk.2.2.2.1.ne_nil
  have hp0 : 0 < p.length := pos_of_ne hp
  obtain ⟨f, rfl⟩ : ∃ f, fuel = f + 1 := ⟨fuel - 1, by omega⟩
  simp only [List.length_append] at hf
  rw [List.append_assoc, loop_next (step_key hk _ _) (by omega)]
  by_cases ht : typ = .lengthDelimited
  · subst ht
    obtain ⟨l, rfl, hl⟩ := hb
    simp only [] at hl
    have hl0 : 0 < l.length := pos_of_ne hl.1.ne_nil
    simp only [List.length_append] at hf
    obtain ⟨f', rfl⟩ : ∃ f', f = f' + 2 := ⟨f - 2, by omega⟩
    rw [List.append_assoc, loop_next (step_len hl) (by omega), loop_next (step_data (VarintWire.lt hl)) (by omega)]
    refine ⟨f', by omega, ?_⟩
    congr 1
    simp only [List.length_append]; omega
  · have hb' : BodyWire chk typ p p ∧ c = p := by
      cases typ with
      | unknown => exact hb.elim
      | lengthDelimited => exact absurd rfl ht
      | varint => exact ⟨⟨rfl, hb.2⟩, hb.1⟩
      | bit32 => exact ⟨⟨rfl, hb.2⟩, hb.1⟩
      | bit64 => exact ⟨⟨rfl, hb.2⟩, hb.1⟩
    obtain ⟨hb1, rfl⟩ := hb'
    obtain ⟨f', rfl⟩ : ∃ f', f = f' + 1 := ⟨f - 1, by omega⟩
    rw [loop_next (step_done hb1 ht).1 (by omega)]
    refine ⟨f', by omega, ?_⟩
    congr 1
    simp only [List.length_append]; omega

/-- An empty field is read, and the loop ends. -/
theorem loop_record_empty {chk : Bool} {r : Rec} {b : Bytes} (h : RecordWire chk r b) (hp : r.2.2 = []) (x : Bytes) (dst : List Rec)
    (fuel total : Nat) (hf : (b ++ x).length < fuel) :
    decodeLoop chk fuel total (DState.fresh (b ++ x) dst) = (.ok (total + b.length), DState.fresh x (dst ++ [r])) := by
  obtain ⟨tag, typ, p⟩ := r
  simp only [] at hp
  subst hp
  obtain ⟨k, c, rfl, hk, hb⟩ := h
  have hk0 : 0 < k.length := pos_of_ne hk.2.2.2.1.ne_nil
  obtain ⟨f, rfl⟩ : ∃ f, fuel = f + 1 := ⟨fuel - 1, by omega⟩
  simp only [List.length_append] at hf
  rw [List.append_assoc, loop_next (step_key hk _ _) (by omega)]
  cases typ with
  | unknown => exact hb.elim
  | varint => exact hb.2.elim
  | bit32 => cases hb.2
  | bit64 => cases hb.2
  | lengthDelimited =>
    obtain ⟨l, rfl, hl⟩ := hb
    have hl : VarintWire chk l 0 := hl
    have hl0 : 0 < l.length := pos_of_ne hl.1.ne_nil
    simp only [List.length_append, List.append_nil] at hf ⊢
    obtain ⟨f', rfl⟩ : ∃ f', f = f' + 2 := ⟨f - 2, by omega⟩
    rw [loop_next (step_len hl) (by omega)]
    have := step_data (chk := chk) (tag := tag) (p := []) (x := x) (dst := dst) (by decide)
    exact (loop_end this).trans (by rw [Nat.add_assoc])

/-- A message all of whose fields have payloads is read in one call, up to whatever follows it. -/
theorem loop_message {chk : Bool} {rs : List Rec} {m : Bytes} (h : MessageWire chk rs m) (hp : ∀ r ∈ rs, r.2.2 ≠ []) (x : Bytes)
    (dst : List Rec) (fuel total : Nat) (hf : (m ++ x).length < fuel) :
    ∃ fuel', x.length < fuel' ∧
      decodeLoop chk fuel total (DState.fresh (m ++ x) dst) = decodeLoop chk fuel' (total + m.length) (DState.fresh x (dst ++ rs)) := by
  induction rs generalizing m dst fuel total with
  | nil =>
    obtain rfl : m = [] := h
    exact ⟨fuel, by simpa using hf, by simp⟩
  | cons r rs ih =>
    obtain ⟨b, c, rfl, h1, h2⟩ := h
    rw [List.append_assoc] at hf ⊢
    obtain ⟨f1, hf1, e1⟩ := loop_record h1 (hp r (by simp)) (c ++ x) dst fuel total hf
    obtain ⟨f2, hf2, e2⟩ := ih h2 (fun r' hr' => hp r' (by simp [hr'])) (dst ++ [r]) f1 (total + b.length) hf1
    refine ⟨f2, hf2, ?_⟩
    rw [e1, e2]
    simp only [List.length_append, List.append_assoc, List.singleton_append, Nat.add_assoc]

theorem step_nil (chk : Bool) (dst : List Rec) : decodeStep chk (DState.fresh [] dst) = (.ok 0, DState.fresh [] dst) := rfl

theorem decode_message {chk : Bool} {rs : List Rec} {m : Bytes} (h : MessageWire chk rs m) (hp : ∀ r ∈ rs, r.2.2 ≠ [])
    (dst : List Rec) : decode chk (DState.fresh m dst) = (.ok m.length, DState.fresh [] (dst ++ rs)) := by
  obtain ⟨f, hf, e⟩ := loop_message h hp [] dst (m.length + 1) 0 (by simp)
  rw [List.append_nil] at e
  show decodeLoop chk (m.length + 1) 0 (DState.fresh m dst) = _
  rw [e]
  obtain ⟨f', rfl⟩ : ∃ f', f = f' + 1 := ⟨f - 1, by simp at hf; omega⟩
  rw [loop_end (step_nil chk _), Nat.zero_add]

theorem decode_message_empty {chk : Bool} {rs : List Rec} {m b : Bytes} {r : Rec} (h : MessageWire chk rs m) (hp : ∀ r ∈ rs, r.2.2 ≠ [])
    (hr : RecordWire chk r b) (he : r.2.2 = []) (x : Bytes) (dst : List Rec) :
    decode chk (DState.fresh (m ++ b ++ x) dst) = (.ok (m ++ b).length, DState.fresh x (dst ++ rs ++ [r])) := by
  rw [List.append_assoc]
  obtain ⟨f, hf, e⟩ := loop_message h hp (b ++ x) dst ((m ++ (b ++ x)).length + 1) 0 (by simp)
  show decodeLoop chk ((m ++ (b ++ x)).length + 1) 0 (DState.fresh (m ++ (b ++ x)) dst) = _
  rw [e, loop_record_empty hr he x _ f _ hf]
  simp

/-! ### Calling `decode` until it returns 0 -/

theorem drainLoop_run {chk : Bool} (fuel : Nat) {s : DState} {hb : Bytes} (hm : HeaderWire chk s.key s.ldLen hb)
    (hf : s.buf.length < fuel) : Run chk s (drainLoop chk fuel s) := by
  induction fuel generalizing s hb with
  | zero => omega
  | succ fuel ih =>
    have hdef : drainLoop chk (fuel + 1) s = (decode chk >>= fun n => if n = 0 then pure () else drainLoop chk fuel) s := rfl
    have hr := decode_reach hm
    obtain ⟨used, m, recs, hb', h1, h2, h3, h4, h5, h6, h7⟩ := decode_spec hm
    rcases hd : decode chk s with ⟨n | e | _ | _, s'⟩
    · rw [hd] at hr h7 h5 h1
      simp only at hr h7 h5 h1
      rw [hdef, M.bind_of_ok hd]
      have hn : n = used.length := by cases h7 <;> rfl
      by_cases h0 : n = 0
      · rw [if_pos h0]
        subst h0
        obtain ⟨e1, e2, _⟩ := decode_zero hm hd
        subst e1
        exact .stuck e2
      · rw [if_neg h0]
        refine hr.run (ih h5 ?_)
        rw [h1, List.length_append] at hf
        omega
    · rw [hd] at hr
      rw [hdef, M.bind_of_err hd]; exact hr
    · rw [hd] at hr
      rw [hdef, M.bind_apply, hd]; exact hr
    · rw [hd] at hr; exact hr.elim

theorem drain_run {chk : Bool} {s : DState} {hb : Bytes} (hm : HeaderWire chk s.key s.ldLen hb) : Run chk s (drain chk s) :=
  drainLoop_run _ hm (Nat.lt_succ_self _)

theorem Run.not_hang {chk s o} (h : Run chk s o) : o.1 ≠ .hang := by
  induction h with
  | stuck h => simp
  | step _ _ _ ih => exact ih
  | err h => simp
  | panic h => simp

theorem Reach.mid {chk s t hb} (h : Reach chk s t) (hm : Mid chk s.key s.ldLen hb) : ∃ hb', Mid chk t.key t.ldLen hb' := by
  induction h generalizing hb with
  | refl => exact ⟨_, hm⟩
  | step h _ _ ih =>
    obtain ⟨hb', h'⟩ := Mid.step hm h
    exact ih h'

theorem Reach.trans {chk s t u} (h : Reach chk s t) (h2 : Reach chk t u) : Reach chk s u := by
  induction h with
  | refl => exact h2
  | step h hne _ ih => exact .step h hne (ih h2)

theorem Run.header {chk s t hb} (h : Run chk s (.ok (), t)) (hm : Mid chk s.key s.ldLen hb) : ∃ hb', HeaderWire chk t.key t.ldLen hb' := by
  obtain ⟨u, h1, h2 | ⟨e, _, h2⟩ | ⟨_, h2⟩⟩ := h.of
  · obtain ⟨h3, h4⟩ := h2
    cases h3
    obtain ⟨hb', h5⟩ := h1.mid hm
    refine ⟨hb', Mid.header h5 ?_⟩
    intro h6
    cases step_cases h5 with
    | more used rest key len a b c d => rw [h4] at c; cases used <;> simp at *
    | record used rest r a b c d e =>
      rw [h4] at c
      have := congrArg (fun p => p.2.ldLen) c
      simp only at this
      rw [h6] at this
      cases this
    | stuck a b c => exact b h6
    | bad cs r v a => rw [h4] at a; cases a
    | panic a => rw [h4] at a; cases a
  · cases h2
  · cases h2

theorem pump_single (chk : Bool) (c : Bytes) (s : DState) : pump chk [c] s = drain chk (s.app c) := by
  show (drain chk >>= fun _ => pure ()) (s.app c) = _
  rw [M.bind_apply]
  rcases drain chk (s.app c) with ⟨_ | _ | _ | _, t⟩ <;> rfl

/-- Decoding chunk by chunk and decoding everything at once. -/
theorem pump_run {chk : Bool} (cs : List Bytes) {s : DState} {hb : Bytes} (hm : HeaderWire chk s.key s.ldLen hb) (hne : cs ≠ []) :
    ∃ pre post, cs = pre ++ post ∧ pump chk pre s = pump chk cs s ∧ ((pump chk cs s).1 = .ok () → post = []) ∧
      Run chk (s.app cs.flatten) ((pump chk cs s).1, (pump chk cs s).2.app post.flatten) := by
  induction cs generalizing s hb with
  | nil => exact absurd rfl hne
  | cons c cs ih =>
    have hdef : pump chk (c :: cs) s = (drain chk >>= fun _ => pump chk cs) (s.app c) := rfl
    have hr : Run chk (s.app c) (drain chk (s.app c)) := drain_run (s := s.app c) (hb := hb) hm
    rcases hd : drain chk (s.app c) with ⟨⟨⟨⟩⟩ | e | _ | _, t⟩
    · have e1 : pump chk (c :: cs) s = pump chk cs t := by rw [hdef, M.bind_of_ok hd]
      rw [hd] at hr
      obtain ⟨hb', ht⟩ := hr.header (HeaderWire.mid hm)
      rcases hc : cs with _ | ⟨c', cs'⟩
      · subst hc
        refine ⟨[c], [], rfl, rfl, fun _ => rfl, ?_⟩
        rw [e1]
        simpa [pump] using hr
      · rw [← hc]
        obtain ⟨pre, post, h1, h2, h3, h4⟩ := ih ht (by rw [hc]; simp)
        refine ⟨c :: pre, post, by rw [h1]; rfl, ?_, ?_, ?_⟩
        · rw [e1, ← h2]
          show (drain chk >>= fun _ => pump chk pre) (s.app c) = _
          rw [M.bind_of_ok hd]
        · rw [e1]; exact h3
        · rw [e1]
          have := hr.app_ok cs.flatten
          rw [app_app] at this
          exact this.run h4
    all_goals
      rw [hd] at hr
    · have e1 : pump chk (c :: cs) s = (.err e, t) := by rw [hdef, M.bind_of_err hd]
      refine ⟨[c], cs, rfl, ?_, ?_, ?_⟩
      · rw [pump_single, hd, e1]
      · rw [e1]; simp
      · rw [e1]
        have := hr.app_fail (by simp) cs.flatten
        rw [app_app] at this
        exact this
    · have e1 : pump chk (c :: cs) s = (.panic, t) := by rw [hdef, M.bind_apply, hd]
      refine ⟨[c], cs, rfl, ?_, ?_, ?_⟩
      · rw [pump_single, hd, e1]
      · rw [e1]; simp
      · rw [e1]
        have := hr.app_fail (by simp) cs.flatten
        rw [app_app] at this
        exact this
    · exact absurd rfl hr.not_hang

/-! ### Any order of appending and decoding -/

theorem schedule_run {chk : Bool} (acts : List Action) {s : DState} {hb : Bytes} (hm : HeaderWire chk s.key s.ldLen hb) :
    ∃ pre post, acts = pre ++ post ∧ schedule chk pre s = schedule chk acts s ∧
      (((schedule chk acts s).1 = .ok () ∧ post = [] ∧ Reach chk (s.app (arrivals acts)) (schedule chk acts s).2 ∧
        ∃ hb', HeaderWire chk (schedule chk acts s).2.key (schedule chk acts s).2.ldLen hb') ∨
       ((schedule chk acts s).1 ≠ .ok () ∧
        Run chk (s.app (arrivals acts)) ((schedule chk acts s).1, (schedule chk acts s).2.app (arrivals post)))) := by
  induction acts generalizing s hb with
  | nil =>
    refine ⟨[], [], rfl, rfl, Or.inl ⟨rfl, rfl, ?_, hb, hm⟩⟩
    rw [arrivals, app_nil]
    exact .refl
  | cons a acts ih =>
    cases a with
    | append x =>
      have e1 : ∀ l, schedule chk (.append x :: l) s = schedule chk l (s.app x) := fun _ => rfl
      obtain ⟨pre, post, h1, h2, h3⟩ := ih (s := s.app x) (hb := hb) hm
      refine ⟨.append x :: pre, post, by rw [h1]; rfl, by rw [e1, e1, h2], ?_⟩
      rw [e1]
      simp only [app_app] at h3
      exact h3
    | decode =>
      have hdef : ∀ l, schedule chk (.decode :: l) s = (decode chk >>= fun _ => schedule chk l) s := fun _ => rfl
      have hr := decode_reach hm
      obtain ⟨used, m, recs, hb', g1, g2, g3, g4, g5, g6, g7⟩ := decode_spec hm
      rcases hd : decode chk s with ⟨n | e | _ | _, t⟩ <;> rw [hd] at hr
      · have e1 : ∀ l, schedule chk (.decode :: l) s = schedule chk l t := fun l => by rw [hdef, M.bind_of_ok hd]
        rw [hd] at g5
        obtain ⟨pre, post, h1, h2, h3⟩ := ih g5
        refine ⟨.decode :: pre, post, by rw [h1]; rfl, by rw [e1, e1, h2], ?_⟩
        rw [e1]
        have hr' : Reach chk (s.app (arrivals (.decode :: acts))) (t.app (arrivals acts)) := Reach.app hr _
        rcases h3 with ⟨a1, a2, a3, a4⟩ | ⟨a1, a2⟩
        · exact Or.inl ⟨a1, a2, hr'.trans a3, a4⟩
        · exact Or.inr ⟨a1, hr'.run a2⟩
      · have e1 : ∀ l, schedule chk (.decode :: l) s = (.err e, t) := fun l => by rw [hdef, M.bind_of_err hd]
        refine ⟨[.decode], acts, rfl, by rw [e1, e1], Or.inr ⟨by rw [e1]; simp, ?_⟩⟩
        rw [e1]
        exact Run.app_fail hr (by simp) _
      · have e1 : ∀ l, schedule chk (.decode :: l) s = (.panic, t) := fun l => by rw [hdef, M.bind_apply, hd]
        refine ⟨[.decode], acts, rfl, by rw [e1, e1], Or.inr ⟨by rw [e1]; simp, ?_⟩⟩
        rw [e1]
        exact Run.app_fail hr (by simp) _
      · exact hr.elim

/-! ### Reading until nothing is left to read -/

theorem reach_record {chk : Bool} {r : Rec} {b : Bytes} (h : RecordWire chk r b) (x : Bytes) (dst : List Rec) :
    Reach chk (DState.fresh (b ++ x) dst) (DState.fresh x (dst ++ [r])) := by
  obtain ⟨tag, typ, p⟩ := r
  obtain ⟨k, c, rfl, hk, hb⟩ := h
  have hk0 : 0 < k.length := pos_of_ne hk.2.2.2.1.ne_nil
  have go : ∀ {s t : DState} {n : Nat}, decodeStep chk s = (.ok n, t) → n ≠ 0 → decodeStep chk s ≠ (.ok 0, s) := by
    intro s t n h hn h2
    rw [h] at h2
    simp only [Prod.mk.injEq, Res.ok.injEq] at h2
    exact hn h2.1
  rw [List.append_assoc]
  refine .step (step_key hk _ _) (go (step_key hk _ _) (by omega)) ?_
  by_cases ht : typ = .lengthDelimited
  · subst ht
    obtain ⟨l, rfl, hl⟩ := hb
    have hl0 : 0 < l.length := pos_of_ne hl.1.ne_nil
    rw [List.append_assoc]
    refine .step (step_len hl) (go (step_len hl) (by omega)) ?_
    have hd := step_data (chk := chk) (tag := tag) (x := x) (dst := dst) (VarintWire.lt hl)
    refine .step hd ?_ .refl
    intro h2
    rw [hd] at h2
    have := congrArg (fun p => p.2.ldLen) h2
    cases this
  · have hb' : BodyWire chk typ p p ∧ c = p := by
      cases typ with
      | unknown => exact hb.elim
      | lengthDelimited => exact absurd rfl ht
      | varint => exact ⟨⟨rfl, hb.2⟩, hb.1⟩
      | bit32 => exact ⟨⟨rfl, hb.2⟩, hb.1⟩
      | bit64 => exact ⟨⟨rfl, hb.2⟩, hb.1⟩
    obtain ⟨hb1, rfl⟩ := hb'
    have hs := step_done (chk := chk) (tag := tag) (x := x) (dst := dst) hb1 ht
    exact .step hs.1 (go hs.1 (by have := pos_of_ne hs.2; omega)) .refl

theorem reach_message {chk : Bool} {rs : List Rec} {m : Bytes} (h : MessageWire chk rs m) (x : Bytes) (dst : List Rec) :
    Reach chk (DState.fresh (m ++ x) dst) (DState.fresh x (dst ++ rs)) := by
  induction rs generalizing m dst with
  | nil =>
    obtain rfl : m = [] := h
    rw [List.append_nil]; exact .refl
  | cons r rs ih =>
    obtain ⟨b, c, rfl, h1, h2⟩ := h
    rw [List.append_assoc]
    have := ih h2 (dst ++ [r])
    rw [List.append_assoc] at this
    exact (reach_record h1 (c ++ x) dst).trans this

theorem drain_message {chk : Bool} {rs : List Rec} {m : Bytes} (h : MessageWire chk rs m) (dst : List Rec) :
    drain chk (DState.fresh m dst) = (.ok (), DState.fresh [] (dst ++ rs)) := by
  have h1 := reach_message h [] dst
  rw [List.append_nil] at h1
  exact (drain_run (fresh_header chk m dst)).det (h1.run (.stuck (step_nil chk _)))

/-- Everything calling `decode` until it returns 0 can do. -/
def DrainSpec (chk : Bool) (s : DState) (hb : Bytes) (o : Res DecoderError Unit × DState) : Prop :=
  ∃ used m recs hb', s.buf = used ++ o.2.buf ∧ o.2.dst = s.dst ++ recs ∧ hb ++ used = m ++ hb' ∧ MessageWire chk recs m ∧
    HeaderWire chk o.2.key o.2.ldLen hb' ∧ (recs.map (·.2.2)).flatten.Sublist used ∧
    (o.1 = .ok () → Incomplete o.2.key o.2.ldLen o.2.buf)

theorem drainLoop_spec {chk : Bool} (fuel : Nat) {s : DState} {hb : Bytes} (hm : HeaderWire chk s.key s.ldLen hb)
    (hf : s.buf.length < fuel) : DrainSpec chk s hb (drainLoop chk fuel s) := by
  induction fuel generalizing s hb with
  | zero => omega
  | succ fuel ih =>
    have hdef : drainLoop chk (fuel + 1) s = (decode chk >>= fun n => if n = 0 then pure () else drainLoop chk fuel) s := rfl
    obtain ⟨used, m, recs, hb', h1, h2, h3, h4, h5, h6, h7⟩ := decode_spec hm
    have fin : ∀ r : Res DecoderError Unit, drainLoop chk (fuel + 1) s = (r, (decode chk s).2) →
        (r = .ok () → Incomplete (decode chk s).2.key (decode chk s).2.ldLen (decode chk s).2.buf) →
        DrainSpec chk s hb (drainLoop chk (fuel + 1) s) := by
      intro r e hi
      rw [e]
      exact ⟨used, m, recs, hb', h1, h2, h3, h4, h5, h6, hi⟩
    rcases hd : decode chk s with ⟨n | e | _ | _, s'⟩
    · by_cases h0 : n = 0
      · subst h0
        obtain ⟨e1, e2, e3⟩ := decode_zero hm hd
        refine fin (.ok ()) ?_ ?_
        · rw [hdef, M.bind_of_ok hd, hd]; rfl
        · intro _; rw [hd]; subst e1; exact e3
      · have e1 : drainLoop chk (fuel + 1) s = drainLoop chk fuel s' := by rw [hdef, M.bind_of_ok hd, if_neg h0]
        rw [hd] at h1 h2 h5 h7
        simp only at h1 h2 h5 h7
        have hn : n = used.length := by cases h7 <;> rfl
        have hlt : s'.buf.length < fuel := by rw [h1, List.length_append] at hf; omega
        obtain ⟨u, m2, recs2, hb2, g1, g2, g3, g4, g5, g6, g7⟩ := ih h5 hlt
        rw [e1]
        refine ⟨used ++ u, m ++ m2, recs ++ recs2, hb2, ?_, ?_, ?_, messageWire_append h4 g4, g5, ?_, g7⟩
        · rw [h1, List.append_assoc, ← g1]
        · rw [g2, h2, List.append_assoc]
        · rw [← List.append_assoc, h3, List.append_assoc, g3, List.append_assoc]
        · rw [List.map_append, List.flatten_append]; exact h6.append g6
    · exact fin (.err e) (by rw [hdef, M.bind_of_err hd, hd]) (by simp)
    · exact fin .panic (by rw [hdef, M.bind_apply, hd]) (by simp)
    · exact fin .hang (by rw [hdef, M.bind_apply, hd]) (by simp)

theorem drain_spec {chk : Bool} {s : DState} {hb : Bytes} (hm : HeaderWire chk s.key s.ldLen hb) :
    DrainSpec chk s hb (drain chk s) := drainLoop_spec _ hm (Nat.lt_succ_self _)

/-! ### What the encoder writes -/

theorem payload_body (chk : Bool) (lit : EncoderLit) (hl : (payload lit).length < 2 ^ 64) :
    ∃ c, BodyWire chk (wireType lit) c (payload lit) ∧
      c = (if wireType lit = .lengthDelimited then varint (payload lit).length else []) ++ payload lit := by
  refine ⟨_, ?_, rfl⟩
  cases lit
  all_goals first
    | exact ⟨rfl, varint_isCont _⟩
    | exact ⟨rfl, le_length _ _⟩
    | exact ⟨_, rfl, varint_wire chk hl⟩

theorem wireType_known (lit : EncoderLit) : wireType lit ≠ .unknown := by cases lit <;> simp [wireType]

theorem fieldBytes_wire (chk : Bool) {tag : UInt32} (ht : ValidTag tag) (lit : EncoderLit) (hl : (payload lit).length < 2 ^ 64) :
    RecordWire chk (tag, wireType lit, payload lit) (fieldBytes tag.toNat lit) := by
  obtain ⟨c, h1, h2⟩ := payload_body chk lit hl
  have hk := wireType_known lit
  have := typNum_lt hk
  have := ht.2
  refine ⟨varint (8 * tag.toNat + typNum (wireType lit)), c, ?_, ⟨ht.1, ht.2, hk, varint_wire chk (by omega)⟩, h1⟩
  rw [h2, fieldBytes, record, List.append_assoc]

/-- A field as the decoder reports it. -/
abbrev reported (f : UInt32 × EncoderLit) : Rec := (f.1, wireType f.2, payload f.2)

theorem encodeAll_runs {fs : List (UInt32 × EncoderLit)} (h : ∀ f ∈ fs, ValidTag f.1 ∧ (payload f.2).length < 2 ^ 64) :
    ∃ plan, plan.flatten = fs.flatMap (fun f => fieldBytes f.1.toNat f.2) ∧
      Runs (fun _ w => encodeAll w fs) plan (fs.flatMap fun f => fieldBytes f.1.toNat f.2).length := by
  induction fs with
  | nil => exact ⟨[], rfl, fun σ w s => rfl⟩
  | cons f fs ih =>
    obtain ⟨tag, lit⟩ := f
    obtain ⟨h1, h2⟩ := h (tag, lit) (by simp)
    obtain ⟨p1, e1, r1⟩ := encode_runs h1 lit h2
    obtain ⟨p2, e2, r2⟩ := ih fun f hf => h f (by simp [hf])
    refine ⟨p1 ++ p2, by rw [List.flatten_append, e1, e2]; rfl, ?_⟩
    have := r1.bind r2
    rw [List.flatMap_cons, List.length_append]
    exact this

theorem fields_wire (chk : Bool) {fs : List (UInt32 × EncoderLit)} (h : ∀ f ∈ fs, ValidTag f.1 ∧ (payload f.2).length < 2 ^ 64) :
    MessageWire chk (fs.map reported) (fs.flatMap fun f => fieldBytes f.1.toNat f.2) := by
  induction fs with
  | nil => rfl
  | cons f fs ih =>
    obtain ⟨h1, h2⟩ := h f (by simp)
    exact ⟨_, _, rfl, fieldBytes_wire chk h1 f.2 h2, ih fun f hf => h f (by simp [hf])⟩

theorem reachable_header {chk : Bool} {s : DState} (h : Reachable chk s) : ∃ hb, HeaderWire chk s.key s.ldLen hb := by
  induction h with
  | fresh buf dst => exact ⟨[], fresh_header _ _ _⟩
  | caller _ _ _ ih => exact ih
  | decode _ ih =>
    obtain ⟨hb, hm⟩ := ih
    obtain ⟨used, m, recs, hb', g1, g2, g3, g4, g5, g6, g7⟩ := decode_spec hm
    exact ⟨hb', g5⟩

end Verif.Protos
