import Verif.Huffman.Cost
import Verif.Spec.HuffWork
import Verif.Lemmas.HuffDecoder
/-! The counted decoder computes the same result, and its counters are as `Spec.roundsFor` says. -/
namespace Verif.Huffman
open Verif.Spec

/-- Forgetting the counters. -/
def Proj {α : Type} (c : MC α) (m : M Reader DecErr α) : Prop :=
  ∀ r w, (c (r, w)).1 = (m r).1 ∧ (c (r, w)).2.1 = (m r).2

theorem proj_uncounted {α : Type} (m : M Reader DecErr α) : Proj (uncounted m) m := fun _ _ => ⟨rfl, rfl⟩

theorem proj_bind {α β : Type} {c : MC α} {m : M Reader DecErr α} {f : α → MC β} {g : α → M Reader DecErr β}
    (h : Proj c m) (hf : ∀ a, Proj (f a) (g a)) : Proj (c >>= f) (m >>= g) := by
  intro r w
  have h1 := h r w
  rw [M.bind_apply, M.bind_apply]
  rcases hc : c (r, w) with ⟨x, r1, w1⟩
  rcases hm : m r with ⟨y, r2⟩
  rw [hc, hm] at h1
  obtain ⟨rfl, rfl⟩ := h1
  cases x
  · exact hf _ _ _
  all_goals exact ⟨rfl, rfl⟩

theorem proj_decodeNext : Proj decodeNextC decodeNext := fun _ _ => ⟨rfl, rfl⟩

theorem proj_decodeLoop (fuel : Nat) : Proj (decodeLoopC fuel) (decodeLoop fuel) := by
  induction fuel with
  | zero =>
    intro r w
    simp only [decodeLoopC, decodeLoop, M.bind_apply, M.get_apply, M.ite_apply, M.pure_apply, M.hang_apply]
    by_cases h : r.bufSize < r.speed <;> simp [h]
  | succ fuel ih =>
    intro r w
    simp only [decodeLoopC, decodeLoop]
    rw [M.bind_apply, M.bind_apply]
    simp only [M.get_apply, M.ite_apply, M.pure_apply]
    by_cases h : r.bufSize < r.speed
    · simp [h]
    · simp only [h, if_false]
      exact proj_bind proj_decodeNext (fun _ => ih) r w

theorem proj_readByte (b : UInt8) : Proj (readByteC b) (readByte b) := by
  intro r w
  have : readByte b r = ((do
      let b' ← shl64 r.buf 8
      M.modify fun r => { r with buf := b' ||| b.toNat, bufSize := r.bufSize + 8 } : M Reader DecErr Unit) >>= fun _ => decodeLoop (r.bufSize + 8)) r := by
    simp [readByte, M.bind_apply, shl64]
  rw [this]
  have h := proj_bind (proj_uncounted (do
      let b' ← shl64 r.buf 8
      M.modify fun r => { r with buf := b' ||| b.toNat, bufSize := r.bufSize + 8 } : M Reader DecErr Unit))
    (fun _ => proj_decodeLoop (r.bufSize + 8)) r w
  exact h

theorem proj_finalizeChar (k : Nat) : Proj (finalizeCharC k) (finalizeChar k) := by
  intro r w
  simp only [finalizeCharC, finalizeChar]
  rw [M.bind_apply, M.bind_apply]
  simp only [M.get_apply, M.ite_apply, M.pure_apply]
  by_cases h : r.bufSize ≥ r.speed
  · simp only [h, if_true]
    rw [M.bind_apply]
    simp only [countLookup, M.modify_apply]
    rcases hf : findTarget r.speed r.id r.buf with ⟨ni, as, l⟩ | e | _ | _
    · by_cases hk : k ≤ l
      · simp only [hk, if_true]; exact proj_decodeNext _ _
      · simp [hk]
    all_goals exact ⟨rfl, rfl⟩
  · simp [h]

theorem proj_finalize : Proj finalizeC finalize := by
  intro r w
  have : finalize r = ((do
      let shiftLen ← subU ((r.bufSize + r.speed - 1) / r.speed * r.speed) r.bufSize
      let b ← shl64 r.buf shiftLen
      M.modify fun r => { r with buf := b, bufSize := r.bufSize + shiftLen }
      pure shiftLen : M Reader DecErr Nat) >>= fun k => (finalizeChar k >>= fun _ => finalizeTail k)) r := by
    simp only [finalize, M.bind_apply, M.get_apply, subU, shl64, M.ite_apply, M.pure_apply]
    by_cases h1 : r.bufSize ≤ (r.bufSize + r.speed - 1) / r.speed * r.speed
    · simp only [h1, if_true]
      by_cases h2 : (r.bufSize + r.speed - 1) / r.speed * r.speed - r.bufSize < 64
      · simp only [h2, if_true]; rfl
      · simp only [h2, if_false]; rfl
    · simp only [h1, if_false]; rfl
  rw [this]
  exact proj_bind (proj_uncounted _) (fun k => proj_bind (proj_finalizeChar k) (fun _ => proj_uncounted _)) r w

theorem proj_readLoop (src : Bytes) : Proj (readLoopC src) (readLoop src) := by
  induction src with
  | nil => exact fun _ _ => ⟨rfl, rfl⟩
  | cons b bs ih => exact proj_bind (proj_readByte b) (fun _ => ih)

/-- Counting does not change the result. -/
theorem decodeC_result (src dst : Bytes) (sp : Speed) :
    ((decodeC src dst sp).1, (decodeC src dst sp).2.1) = decode src dst sp := by
  have h := proj_bind (proj_readLoop src) (fun _ => proj_finalize) (Reader.new sp.toNat dst) ⟨0, 0⟩
  show (_, _) = ((_, _) : Res DecErr Unit × Bytes)
  rw [Prod.mk.injEq]
  exact ⟨h.1, congrArg Reader.dst h.2⟩

/-- A code that ends in the group after the walked bits `p` (whole groups) needs one more group. -/
theorem groupsOf_step {s m c : Nat} (hs : 0 < s) (hm : m % s = 0) (h1 : 1 ≤ c) (h2 : c ≤ s) :
    groupsOf s (m + c) = m / s + 1 := by
  obtain ⟨k, rfl⟩ := Nat.dvd_of_mod_eq_zero hm
  unfold groupsOf
  rw [Nat.mul_div_cancel_left _ hs]
  have : s * k + c + s - 1 = s * k + (c + s - 1) := by omega
  rw [this, Nat.mul_add_div hs]
  congr 1
  rw [Nat.div_eq_iff hs]; omega

theorem roundsFor_append (s : Nat) (a b : Bytes) : roundsFor s (a ++ b) = roundsFor s a + roundsFor s b := by
  simp [roundsFor]

theorem roundsFor_one (s : Nat) (a : UInt8) : roundsFor s [a] = groupsOf s (code a.toNat).length := by
  simp [roundsFor]

/-- What one round does, in full. -/
theorem decodeNext_fine {s : Nat} {tbl : List (List Cell)} {path : Nat → List Bool} (ht : TableOk s tbl path)
    (htbl : tableOf s = tbl) (hs1 : 1 ≤ s) (hs : s ≤ 5) {d0 : Bytes} {r : Reader} {o : Bytes} {p q : List Bool}
    (h : RInv s tbl path d0 r o p q) (hsq : s ≤ q.length) (hq : q.length ≤ 20) :
    (∃ r', decodeNext r = (.ok (), r') ∧ RInv s tbl path d0 r' o (p ++ q.take s) (q.drop s)) ∨
    (∃ (a : UInt8) (l : Nat) (r' : Reader), l < s ∧ p ++ q.take (s - l) = code a.toNat ∧
        decodeNext r = (.ok (), r') ∧ RInv s tbl path d0 r' (o ++ [a]) [] (q.drop (s - l))) ∨
    (∃ (l : Nat) (r' : Reader), l < s ∧ p ++ q.take (s - l) = code 256 ∧
        decodeNext r = (.err .InvalidInput, r') ∧ r'.dst = d0 ++ o) := by
  obtain ⟨h1, h2, h3, h4, h5, h6, h7⟩ := h
  have hpn : NoCode p := by rw [← h3]; exact ht.internal _ h2
  have hp : p.length ≤ 30 := Nat.le_of_lt hpn.length_lt
  have hkl : (q.take s).length = s := by simp; omega
  rcases ht.cell r.id h2 (q.take s) hkl with ⟨n, hlook, hn, hpath⟩ | ⟨a, l, hlook, ha, hl, hpath⟩
  · left
    have := decodeNext_arith r p q (some n) none 0 h4 h5 h6 (by omega) (by omega) (by omega) hq hp
      (by rw [h1, htbl]; exact hlook)
    refine ⟨_, by rw [this]; rfl, ?_⟩
    refine ⟨h1, hn, by rw [hpath, h3], ?_, ?_, ?_, h7⟩
    · simp [h1]
    · simp [h1]
    · simp [h1]
  · right
    have hl' : l < r.speed := by omega
    have := decodeNext_arith r p q none (some a) l h4 h5 h6 (by omega) hl' (by omega) hq hp
        (by rw [h1, htbl]; exact hlook)
    have htt : (q.take s).take (s - l) = q.take (s - l) := by rw [List.take_take]; congr 1; omega
    rw [htt, h3] at hpath
    by_cases ha' : a < 256
    · left
      have hau : (UInt8.ofNat a).toNat = a := UInt8.toNat_ofNat_of_lt' ha'
      let r' : Reader := { r with buf := bitsVal (q.drop (r.speed - l)), bufSize := (q.drop (r.speed - l)).length, tail := 0, tailSize := 0, id := 0, dst := r.dst ++ [UInt8.ofNat a] }
      refine ⟨UInt8.ofNat a, l, r', hl, by rw [hau]; exact hpath, ?_, h1, ht.rows, ht.path0, ?_, ?_, rfl, ?_⟩
      · rw [this]; simp [dispatch, M.bind_apply, ha', r']
      · simp [h1, r']
      · simp [h1, r']
      · simp [h7, r']
    · right
      have ha256 : a = 256 := by omega
      subst ha256
      let r' : Reader := { r with buf := bitsVal (q.drop (r.speed - l)), bufSize := (q.drop (r.speed - l)).length, tail := 0, tailSize := 0, id := 0 }
      exact ⟨l, r', hl, hpath, by rw [this]; rfl, h7⟩

/-- The counters agree with what has been written and walked. -/
structure CInv (s : Nat) (w : Work) (o : Bytes) (p : List Bool) : Prop where
  whole : p.length % s = 0
  rounds : w.rounds = roundsFor s o + p.length / s
  lookups : w.lookups = w.rounds

/-- Outcome of the counted reader when it goes on, or has met EOS, after the bits `bits`. -/
def StepsOk (s : Nat) (tbl : List (List Cell)) (path : Nat → List Bool) (d0 : Bytes) (bits : List Bool) (extra : Nat)
    (x : Res DecErr Unit × Reader × Work) : Prop :=
  (∃ r' w' o' p' q', x = (.ok (), r', w') ∧ RInv s tbl path d0 r' o' p' q' ∧ CInv s w' o' p' ∧ q'.length < s ∧
      bits = codesOf o' ++ p' ++ q') ∨
  (∃ r' w' o' q', x = (.err .InvalidInput, r', w') ∧ r'.dst = d0 ++ o' ∧ bits = codesOf o' ++ code 256 ++ q' ∧
      w'.rounds = roundsFor s o' + groupsOf s (code 256).length ∧ w'.rounds ≤ w'.lookups ∧ w'.lookups ≤ w'.rounds + extra)

theorem decodeLoopC_spec {s : Nat} {tbl : List (List Cell)} {path : Nat → List Bool} (ht : TableOk s tbl path)
    (htbl : tableOf s = tbl) (hs1 : 1 ≤ s) (hs : s ≤ 5) (fuel : Nat) {d0 : Bytes} {r : Reader} {w : Work} {o : Bytes}
    {p q : List Bool} (h : RInv s tbl path d0 r o p q) (hc : CInv s w o p) (hf : q.length ≤ fuel) (hq : q.length ≤ 20) :
    StepsOk s tbl path d0 (codesOf o ++ p ++ q) 0 (decodeLoopC fuel (r, w)) := by
  induction fuel generalizing r w o p q with
  | zero =>
    left
    have h5 := h.bufSize
    have h1 := h.speed
    refine ⟨r, w, o, p, q, ?_, h, hc, by omega, rfl⟩
    simp [decodeLoopC, M.bind_apply]; omega
  | succ fuel ih =>
    have h5 := h.bufSize
    have h1 := h.speed
    by_cases hlt : r.bufSize < r.speed
    · left
      exact ⟨r, w, o, p, q, by simp [decodeLoopC, M.bind_apply, hlt], h, hc, by omega, rfl⟩
    · have hstep : ∀ x r', decodeNext r = (x, r') → decodeNextC (r, w) = (x, r', ⟨w.rounds + 1, w.lookups + 1⟩) := by
        intro x r' he
        show ((decodeNext r).1, (decodeNext r).2, _) = _
        rw [he]
      have hgo : ∀ r', decodeNextC (r, w) = (.ok (), r', ⟨w.rounds + 1, w.lookups + 1⟩) →
          decodeLoopC (fuel + 1) (r, w) = decodeLoopC fuel (r', ⟨w.rounds + 1, w.lookups + 1⟩) := by
        intro r' he
        simp only [decodeLoopC, M.bind_apply, M.get_apply, M.ite_apply, if_neg hlt, he]
      have hsq : s ≤ q.length := by omega
      rcases decodeNext_fine ht htbl hs1 hs h hsq hq with ⟨r', he, hinv⟩ | ⟨a, l, r', hl, hcode, he, hinv⟩ |
          ⟨l, r', hl, hcode, he, hd⟩
      · have hc' : CInv s ⟨w.rounds + 1, w.lookups + 1⟩ o (p ++ q.take s) := by
          have hlen : (p ++ q.take s).length = p.length + s := by simp; omega
          refine ⟨?_, ?_, ?_⟩
          · rw [hlen, Nat.add_mod_right]; exact hc.whole
          · rw [hlen, Nat.add_div_right _ (by omega)]
            have := hc.rounds; simp only; omega
          · have := hc.lookups; simp only; omega
        have := ih hinv hc' (by simp; omega) (by simp; omega)
        rw [hgo r' (hstep _ _ he)]
        rwa [List.append_assoc, List.append_assoc, List.take_append_drop, ← List.append_assoc] at this
      · have hlen : (code a.toNat).length = p.length + (s - l) := by rw [← hcode]; simp; omega
        have hc' : CInv s ⟨w.rounds + 1, w.lookups + 1⟩ (o ++ [a]) [] := by
          refine ⟨by simp, ?_, ?_⟩
          · rw [roundsFor_append, roundsFor_one, hlen, groupsOf_step (by omega) hc.whole (by omega) (by omega)]
            have := hc.rounds; simp; omega
          · have := hc.lookups; simp only; omega
        have := ih hinv hc' (by simp; omega) (by simp; omega)
        rw [hgo r' (hstep _ _ he)]
        have hb : codesOf (o ++ [a]) ++ [] ++ q.drop (s - l) = codesOf o ++ p ++ q := by
          rw [codesOf_append, List.append_nil]
          have : codesOf [a] = p ++ q.take (s - l) := by rw [hcode]; simp [codesOf]
          rw [this]
          simp only [List.append_assoc, List.take_append_drop]
        rwa [hb] at this
      · right
        have hlen : (code 256).length = p.length + (s - l) := by rw [← hcode]; simp; omega
        refine ⟨r', ⟨w.rounds + 1, w.lookups + 1⟩, o, q.drop (s - l), ?_, hd, ?_, ?_, ?_, ?_⟩
        · simp only [decodeLoopC, M.bind_apply, M.get_apply, M.ite_apply, if_neg hlt, hstep _ _ he]
        · rw [← hcode]; simp only [List.append_assoc, List.take_append_drop]
        · rw [hlen, groupsOf_step (by omega) hc.whole (by omega) (by omega)]
          have := hc.rounds; simp only; omega
        · have := hc.lookups; simp only; omega
        · have := hc.lookups; simp only; omega

theorem readByteC_spec {s : Nat} {tbl : List (List Cell)} {path : Nat → List Bool} (ht : TableOk s tbl path)
    (htbl : tableOf s = tbl) (hs1 : 1 ≤ s) (hs : s ≤ 5) (b : UInt8) {d0 : Bytes} {r : Reader} {w : Work} {o : Bytes}
    {p q : List Bool} (h : RInv s tbl path d0 r o p q) (hc : CInv s w o p) (hq : q.length < s) :
    StepsOk s tbl path d0 (codesOf o ++ p ++ q ++ byteBits b) 0 (readByteC b (r, w)) := by
  have hlt : bitsVal q * 2 ^ 8 < 2 ^ 64 := by
    have h1 : bitsVal q * 2 ^ 8 < 2 ^ q.length * 2 ^ 8 :=
      Nat.mul_lt_mul_of_pos_right (bitsVal_lt q) (Nat.two_pow_pos _)
    rw [← Nat.pow_add] at h1
    exact Nat.lt_of_lt_of_le h1 (pow64 (by omega))
  have hor : r.buf * 2 ^ 8 % 2 ^ 64 ||| b.toNat = bitsVal (q ++ byteBits b) := by
    rw [h.buf, Nat.mod_eq_of_lt hlt, ← bitsVal_byteBits b]
    have := bitsVal_append_or q (byteBits b)
    rwa [byteBits_length] at this
  have hinv : RInv s tbl path d0 { r with buf := r.buf * 2 ^ 8 % 2 ^ 64 ||| b.toNat, bufSize := r.bufSize + 8 } o p
      (q ++ byteBits b) :=
    ⟨h.speed, h.id, h.path, hor, by simp [h.bufSize], h.tail, h.dst⟩
  have hrb : readByteC b (r, w) = decodeLoopC (r.bufSize + 8)
      ({ r with buf := r.buf * 2 ^ 8 % 2 ^ 64 ||| b.toNat, bufSize := r.bufSize + 8 }, w) := by
    simp [readByteC, uncounted, M.bind_apply, shl64]
  have hbs := h.bufSize
  rw [hrb, List.append_assoc (codesOf o ++ p)]
  exact decodeLoopC_spec ht htbl hs1 hs _ hinv hc (by simp; omega) (by simp; omega)

theorem readLoopC_spec {s : Nat} {tbl : List (List Cell)} {path : Nat → List Bool} (ht : TableOk s tbl path)
    (htbl : tableOf s = tbl) (hs1 : 1 ≤ s) (hs : s ≤ 5) (src : Bytes) {d0 : Bytes} {r : Reader} {w : Work} {o : Bytes}
    {p q : List Bool} (h : RInv s tbl path d0 r o p q) (hc : CInv s w o p) (hq : q.length < s) :
    StepsOk s tbl path d0 (codesOf o ++ p ++ q ++ bytesBits src) 0 (readLoopC src (r, w)) := by
  induction src generalizing r w o p q with
  | nil => left; exact ⟨r, w, o, p, q, rfl, h, hc, hq, by simp⟩
  | cons b src ih =>
    rcases readByteC_spec ht htbl hs1 hs b h hc hq with
      ⟨r', w', o', p', q', he, hinv, hc', hlen, hbits⟩ | ⟨r', w', o', q', he, hd, hbits, hw⟩
    · have := ih hinv hc' hlen
      have hrun : readLoopC (b :: src) (r, w) = readLoopC src (r', w') := by
        simp only [readLoopC, M.bind_apply, he]
      rw [hrun, bytesBits_cons, ← List.append_assoc, hbits]
      exact this
    · right
      refine ⟨r', w', o', q' ++ bytesBits src, ?_, hd, ?_, hw⟩
      · simp only [readLoopC, M.bind_apply, he]
      · rw [bytesBits_cons, ← List.append_assoc, hbits, List.append_assoc]

theorem finalizeC_spec {s : Nat} {tbl : List (List Cell)} {path : Nat → List Bool} (ht : TableOk s tbl path)
    (htbl : tableOf s = tbl) (hs1 : 1 ≤ s) (hs : s ≤ 5) {d0 : Bytes} {r : Reader} {w : Work} {o : Bytes}
    {p q : List Bool} (h : RInv s tbl path d0 r o p q) (hc : CInv s w o p) (hq : q.length < s) :
    ∃ x r' w' o', finalizeC (r, w) = (x, r', w') ∧ r'.dst = d0 ++ o' ∧ w'.rounds ≤ w'.lookups ∧ w'.lookups ≤ w'.rounds + 1 ∧
     ((∃ t, codesOf o ++ p ++ q = codesOf o' ++ t ∧ NoCode t ∧ w'.rounds = roundsFor s o' + t.length / s) ∨
      (∃ t, codesOf o ++ p ++ q = codesOf o' ++ code 256 ++ t ∧ w'.rounds = roundsFor s o' + groupsOf s (code 256).length)) := by
  have hr := hc.rounds
  have hlk := hc.lookups
  obtain ⟨h1, h2, h3, h4, h5, h6, h7⟩ := h
  have hpn : NoCode p := by rw [← h3]; exact ht.internal _ h2
  have hp : p.length ≤ 30 := Nat.le_of_lt hpn.length_lt
  by_cases hq0 : q = []
  · subst hq0
    simp only [bitsVal_nil, List.length_nil] at h4 h5
    obtain ⟨r', hr', hd⟩ := finalizeTail_spec 0 r p [] (by simpa using h4) (by simpa using h5) h6 (by omega) (by simp) hp
    have c1 : (0 + s - 1) / s * s = 0 := by
      rw [Nat.div_eq_of_lt (by omega), Nat.zero_mul]
    have c2 : ¬ (0 ≥ s) := by omega
    have hr0 : ({ r with buf := 0, bufSize := 0 } : Reader) = r := by
      cases r; simp only at h4 h5; subst h4; subst h5; rfl
    have hX : finalizeCharC 0 (r, w) = (.ok (), r, w) := by
      simp only [finalizeCharC, M.bind_apply, M.get_apply, h1, h5, c2, if_false, M.pure_apply]
    have hm : finalizeC (r, w) = (finalizeCharC 0 >>= fun _ => uncounted (finalizeTail 0)) (r, w) := by
      conv => rhs; rw [← hr0]
      simp only [finalizeC, M.bind_apply, M.get_apply, subU, h5, h1, c1, Nat.le_refl, if_true, M.pure_apply, shl64,
        h4, Nat.sub_zero, Nat.zero_lt_succ, M.modify_apply, Nat.zero_mul, Nat.zero_mod, Nat.add_zero, uncounted]
    refine ⟨(finalizeTail 0 r).1, r', w, o, ?_, by rw [hd, h7], by omega, by omega, .inl ⟨p, by simp, hpn, hr⟩⟩
    rw [hm, M.bind_apply, hX]
    show ((finalizeTail 0 r).1, (finalizeTail 0 r).2, w) = _
    rw [hr']
  · have hqpos : 0 < q.length := List.length_pos_iff.mpr hq0
    let k := s - q.length
    have c1 : (q.length + s - 1) / s * s = s := by
      have : (q.length + s - 1) / s = 1 := by
        rw [Nat.div_eq_iff (by omega)]; omega
      rw [this, Nat.one_mul]
    have c2 : q.length ≤ s := by omega
    have c3 : s - q.length < 64 := by omega
    let K := q ++ List.replicate k false
    have hKlen : K.length = s := by simp [K, k]; omega
    have hz := zeros_val k
    have hKv : bitsVal q * 2 ^ k % 2 ^ 64 = bitsVal K := by
      have : bitsVal K = bitsVal q * 2 ^ k := by simp [K, bitsVal_append, hz]
      rw [← this, Nat.mod_eq_of_lt]
      exact Nat.lt_of_lt_of_le (bitsVal_lt K) (pow64 (by omega))
    let r1 : Reader := { r with buf := bitsVal K, bufSize := K.length }
    have hsz1 : q.length + k = K.length := by simp [K]
    have c4 : K.length ≥ s := by omega
    let w1 : Work := ⟨w.rounds, w.lookups + 1⟩
    have hmain : finalizeC (r, w) = (finalizeCharC k >>= fun _ => uncounted (finalizeTail k)) (r1, w) := by
      have c3' : k < 64 := c3
      simp only [finalizeC, M.bind_apply, M.get_apply, subU, h5, h1, c1, if_pos c2, M.pure_apply, shl64, uncounted]
      rw [show s - q.length = k from rfl]
      simp only [if_pos c3', h4, hKv, M.modify_apply, h1, h5, hsz1, M.pure_apply, r1]
    have hchar : ∀ ni as l, lookup tbl r.id (bitsVal K) = some (ni, as, l) →
        finalizeCharC k (r1, w) = if k ≤ l then decodeNextC (r1, w1) else (.ok (), r1, w1) := by
      intro ni as l hlook
      have c4' : r1.bufSize ≥ r1.speed := by simp only [r1, h1]; exact c4
      have hft : findTarget r1.speed r1.id r1.buf = .ok (ni, as, l) := by
        simp only [findTarget, r1, h1, htbl, hlook]
      simp only [finalizeCharC, M.bind_apply, M.get_apply, if_pos c4', hft, M.ite_apply, M.pure_apply, countLookup,
        M.modify_apply, w1]
    have hqs : ((p ++ q).length) / s = p.length / s := by
      obtain ⟨m, hm⟩ := Nat.dvd_of_mod_eq_zero hc.whole
      rw [List.length_append, hm, Nat.mul_add_div (by omega), Nat.div_eq_of_lt hq, Nat.mul_div_cancel_left _ (by omega),
        Nat.add_zero]
    -- the rest is not a complete code
    have hstop : finalizeCharC k (r1, w) = (.ok (), r1, w1) → NoCode (p ++ q) →
        ∃ x r' w' o', finalizeC (r, w) = (x, r', w') ∧ r'.dst = d0 ++ o' ∧ w'.rounds ≤ w'.lookups ∧ w'.lookups ≤ w'.rounds + 1 ∧
         ((∃ t, codesOf o ++ p ++ q = codesOf o' ++ t ∧ NoCode t ∧ w'.rounds = roundsFor s o' + t.length / s) ∨
          (∃ t, codesOf o ++ p ++ q = codesOf o' ++ code 256 ++ t ∧ w'.rounds = roundsFor s o' + groupsOf s (code 256).length)) := by
      intro hX hn
      obtain ⟨r', hr', hd⟩ := finalizeTail_spec k r1 p q rfl (by simp [r1, hsz1]) h6 (by omega) (by omega) hp
      refine ⟨(finalizeTail k r1).1, r', w1, o, ?_, by rw [hd]; exact h7, by simp only [w1]; omega, by simp only [w1]; omega,
        .inl ⟨p ++ q, by simp, hn, by rw [hqs]; exact hr⟩⟩
      rw [hmain, M.bind_apply, hX]
      show ((finalizeTail k r1).1, (finalizeTail k r1).2, w1) = _
      rw [hr']
    rcases ht.cell r.id h2 K hKlen with ⟨n, hlook, hn, hpath⟩ | ⟨a, l, hlook, ha, hl, hpath⟩
    · have hX := hchar _ _ _ hlook
      rw [if_neg (by simp [k]; omega)] at hX
      refine hstop hX ?_
      intro a ha hpre
      refine ht.internal n hn a ha ?_
      rw [hpath, h3]
      exact hpre.trans ⟨List.replicate k false, by simp [K]⟩
    · rw [h3] at hpath
      by_cases hkl : k ≤ l
      · have hX := hchar _ _ _ hlook
        rw [if_pos hkl] at hX
        have hKt : K.take s = K := List.take_of_length_le (by omega)
        have hr1s : r1.speed = s := h1
        have harith := decodeNext_arith r1 p K none (some a) l rfl rfl h6 (by omega) (by omega) (by omega)
          (by omega) hp (by rw [hr1s, htbl, hKt]; exact hlook)
        rw [hr1s] at harith
        have hsl : s - l ≤ q.length := by omega
        have hKtake : K.take (s - l) = q.take (s - l) := List.take_append_of_le_length hsl
        have hKdrop : K.drop (s - l) = q.drop (s - l) ++ List.replicate k false := List.drop_append_of_le_length hsl
        have hsplit : p ++ q = code a ++ q.drop (s - l) := by
          rw [← hpath, hKtake, List.append_assoc, List.take_append_drop]
        have hlen : (code a).length = p.length + (s - l) := by rw [← hpath, hKtake]; simp; omega
        have hgr : groupsOf s (code a).length = p.length / s + 1 := by
          rw [hlen, groupsOf_step (by omega) hc.whole (by omega) (by omega)]
        let w2 : Work := ⟨w.rounds + 1, w.lookups + 2⟩
        have hstep : ∀ x r', decodeNext r1 = (x, r') → decodeNextC (r1, w1) = (x, r', w2) := by
          intro x r' he
          show ((decodeNext r1).1, (decodeNext r1).2, _) = _
          rw [he]
        by_cases ha' : a < 256
        · have hau : (UInt8.ofNat a).toNat = a := UInt8.toNat_ofNat_of_lt' ha'
          let r2 : Reader := { r1 with speed := s, buf := bitsVal (K.drop (s - l)), bufSize := (K.drop (s - l)).length, tail := 0,
                                       tailSize := 0, id := 0, dst := r.dst ++ [UInt8.ofNat a] }
          have hdn : decodeNext r1 = (.ok (), r2) := by
            rw [harith]; simp [dispatch, M.bind_apply, ha', r2, r1]
          obtain ⟨r', hr', hd⟩ := finalizeTail_spec k r2 [] (q.drop (s - l)) (by simp [r2, hKdrop])
            (by simp [r2, hKdrop]) (by simp [r2]) (by omega) (by simp; omega) (by simp)
          refine ⟨(finalizeTail k r2).1, r', w2, o ++ [UInt8.ofNat a], ?_, ?_, by simp only [w2]; omega, by simp only [w2]; omega,
            .inl ⟨q.drop (s - l), ?_, ?_, ?_⟩⟩
          · rw [hmain, M.bind_apply, hX, hstep _ _ hdn]
            show ((finalizeTail k r2).1, (finalizeTail k r2).2, w2) = _
            rw [hr']
          · rw [hd]; simp [r2, h7]
          · rw [List.append_assoc, hsplit, codesOf_append]; simp [hau]
          · apply noCode_of_short; simp; omega
          · rw [roundsFor_append, roundsFor_one, hau, hgr]
            have : (q.drop (s - l)).length / s = 0 := Nat.div_eq_of_lt (by simp; omega)
            rw [this]; simp only [w2]; omega
        · have ha256 : a = 256 := by omega
          subst ha256
          refine ⟨.err .InvalidInput, { r1 with speed := s, buf := bitsVal (K.drop (s - l)), bufSize := (K.drop (s - l)).length, tail := 0, tailSize := 0, id := 0 },
            w2, o, ?_, h7, by simp only [w2]; omega, by simp only [w2]; omega, .inr ⟨q.drop (s - l), ?_, ?_⟩⟩
          · rw [hmain, M.bind_apply, hX, hstep _ _ (harith.trans rfl)]
          · rw [List.append_assoc, hsplit, List.append_assoc]
          · rw [hgr]; simp only [w2]; omega
      · have hX := hchar _ _ _ hlook
        rw [if_neg hkl] at hX
        refine hstop hX ?_
        intro b hb hpre
        have hqlt : q.length < s - l := by omega
        have hKtake : K.take (s - l) = q ++ (List.replicate k false).take (s - l - q.length) := by
          simp only [K, List.take_append]
          rw [List.take_of_length_le (by omega)]
        have hpc : IsPrefix (p ++ q) (code a) := ⟨_, by rw [← hpath, hKtake, ← List.append_assoc]⟩
        have hba := code_prefix_free hb ha (hpre.trans hpc)
        subst hba
        have hl1 := hpre.length_le
        have hl2 := congrArg List.length hpath
        simp only [List.length_append, List.length_take, hKlen] at hl1 hl2
        omega

/-- The counters of a whole call. -/
theorem decodeC_spec (src dst : Bytes) (sp : Speed) :
    ∃ o w, (decodeC src dst sp).2 = (dst ++ o, w) ∧ w.rounds ≤ w.lookups ∧ w.lookups ≤ w.rounds + 1 ∧
     ((∃ t, bytesBits src = codesOf o ++ t ∧ NoCode t ∧ w.rounds = roundsFor sp.toNat o + t.length / sp.toNat) ∨
      (∃ t, bytesBits src = codesOf o ++ code 256 ++ t ∧ w.rounds = roundsFor sp.toNat o + groupsOf sp.toNat (code 256).length)) := by
  obtain ⟨path, ht⟩ := speed_tableOk sp
  have hs1 : 1 ≤ sp.toNat := by cases sp <;> simp [Speed.toNat]
  have hs : sp.toNat ≤ 5 := by cases sp <;> simp [Speed.toNat]
  have h0 : RInv sp.toNat (tableOf sp.toNat) path dst (Reader.new sp.toNat dst) [] [] [] :=
    ⟨rfl, ht.rows, ht.path0, rfl, rfl, rfl, by simp [Reader.new]⟩
  have hc0 : CInv sp.toNat ⟨0, 0⟩ [] [] := ⟨by simp, by simp [roundsFor], rfl⟩
  rcases readLoopC_spec ht rfl hs1 hs src h0 hc0 (by simp only [List.length_nil]; omega) with
    ⟨r1, w1, o1, p1, q1, he1, hinv1, hc1, hl1, hb1⟩ | ⟨r1, w1, o1, q1, he1, hd1, hb1, hw1, hw2, hw3⟩
  · simp only [codesOf_nil, List.nil_append] at hb1
    obtain ⟨x, r2, w2, o2, he2, hd2, hl2, hl3, hcase⟩ := finalizeC_spec ht rfl hs1 hs hinv1 hc1 hl1
    refine ⟨o2, w2, ?_, hl2, hl3, ?_⟩
    · simp only [decodeC, M.bind_apply, he1, he2, hd2]
    · rw [hb1]; exact hcase
  · refine ⟨o1, w1, ?_, hw2, by omega, .inr ⟨q1, by simpa using hb1, hw1⟩⟩
    simp only [decodeC, M.bind_apply, he1, hd1]

end Verif.Huffman
