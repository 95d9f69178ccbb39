import Verif.Huffman.Native
import Verif.Lemmas.HuffDecoder
import Verif.Lemmas.HuffEncoder
/-! The Huffman coder computes the same on every target of at least 32 bits, with overflow checks and without. -/
namespace Verif.Huffman
open Verif.Spec

variable {σ ε : Type}

theorem addOn_ok (chk : Bool) {w a b : Nat} (h : a + b < 2 ^ w) (s : σ) : (addOn chk w a b : M σ ε Nat) s = (.ok (a + b), s) := by
  simp only [addOn, if_pos h, M.pure_apply]
theorem mulOn_ok (chk : Bool) {w a b : Nat} (h : a * b < 2 ^ w) (s : σ) : (mulOn chk w a b : M σ ε Nat) s = (.ok (a * b), s) := by
  simp only [mulOn, if_pos h, M.pure_apply]
theorem subOn_ok (chk : Bool) (w : Nat) {a b : Nat} (h : b ≤ a) (s : σ) : (subOn chk w a b : M σ ε Nat) s = (.ok (a - b), s) := by
  simp only [subOn, if_pos h, M.pure_apply]
theorem shrOn_ok (chk : Bool) {w k : Nat} (a : Nat) (h : k < w) (s : σ) : (shrOn chk w a k : M σ ε Nat) s = (.ok (a / 2 ^ k), s) := by
  simp only [shrOn, if_pos h, M.pure_apply]
theorem shlOn_ok (chk : Bool) {w a k : Nat} (h : k < w) (hb : a * 2 ^ k < 2 ^ w) (s : σ) :
    (shlOn chk w a k : M σ ε Nat) s = (.ok (a * 2 ^ k), s) := by
  simp only [shlOn, if_pos h, M.pure_apply, Nat.mod_eq_of_lt hb]

theorem pow_w {w k : Nat} (hw : 32 ≤ w) (hk : k ≤ 32) : 2 ^ k ≤ 2 ^ w := Nat.pow_le_pow_right (by omega) (by omega)

theorem small_lt {w n : Nat} (hw : 32 ≤ w) (hn : n < 4294967296) : n < 2 ^ w :=
  Nat.lt_of_lt_of_le hn (pow_w (k := 32) hw (Nat.le_refl _))

theorem shifted_lt {w : Nat} (hw : 32 ≤ w) (p : List Bool) {k : Nat} (h : p.length + k ≤ 32) : bitsVal p * 2 ^ k < 2 ^ w := by
  have h1 : bitsVal p * 2 ^ k < 2 ^ p.length * 2 ^ k := Nat.mul_lt_mul_of_pos_right (bitsVal_lt p) (Nat.two_pow_pos _)
  rw [← Nat.pow_add] at h1
  exact Nat.lt_of_lt_of_le h1 (pow_w hw h)

theorem decodeNextOn_arith (chk : Bool) {w : Nat} (hw : 32 ≤ w) (r : Reader) (p q : List Bool) (ni as : Option Nat) (l : Nat)
    (hbuf : r.buf = bitsVal q) (hsz : r.bufSize = q.length) (htail : r.tail = bitsVal p) (hts : r.tailSize = p.length)
    (hsq : r.speed ≤ q.length) (hl : l < r.speed) (hs : r.speed ≤ 5) (hq : q.length ≤ 20) (hp : p.length + (r.speed - l) ≤ 32)
    (hlook : lookup (tableOf r.speed) r.id (bitsVal (q.take r.speed)) = some (ni, as, l)) :
    decodeNextOn chk w r = dispatch ni as
      { r with buf := bitsVal (q.drop (r.speed - l)), bufSize := (q.drop (r.speed - l)).length,
               tail := bitsVal (p ++ q.take (r.speed - l)), tailSize := r.tailSize + (r.speed - l) } := by
  have hkey : r.buf / 2 ^ (r.bufSize - r.speed) = bitsVal (q.take r.speed) := by
    rw [hbuf, hsz, bitsVal_take]
  have hhi : bitsVal (q.take r.speed) / 2 ^ l = bitsVal (q.take (r.speed - l)) := by
    rw [bitsVal_take, bitsVal_take, Nat.div_div_eq_div_mul, ← Nat.pow_add]
    congr 2; omega
  have hd := bitsVal_drop q (r.speed - l)
  have hsh : r.bufSize - r.speed + l = q.length - (r.speed - l) := by omega
  have htake : (q.take (r.speed - l)).length = r.speed - l := by simp; omega
  have htor : bitsVal p * 2 ^ (r.speed - l) ||| bitsVal (q.take (r.speed - l))
      = bitsVal (p ++ q.take (r.speed - l)) := by
    have := bitsVal_append_or p (q.take (r.speed - l))
    rwa [htake] at this
  have c1 : r.speed ≤ r.bufSize := by omega
  have c2 : r.bufSize - r.speed < w := by omega
  have c3 : l < w := by omega
  have c4 : r.bufSize - r.speed + l < w := by omega
  have c4' : r.bufSize - r.speed + l < 2 ^ w := small_lt hw (by omega)
  have hrm : bitsVal (q.take (r.speed - l)) * 2 ^ (r.bufSize - r.speed + l) < 2 ^ w := shifted_lt hw _ (by rw [htake]; omega)
  have c5 : bitsVal (q.take (r.speed - l)) * 2 ^ (r.bufSize - r.speed + l) ≤ r.buf := by rw [hbuf, hsh]; exact hd.2
  have c6 : l ≤ r.speed := by omega
  have c7 : r.speed - l ≤ r.bufSize := by omega
  have c8 : r.speed - l < w := by omega
  have c9 : bitsVal p * 2 ^ (r.speed - l) < 2 ^ w := shifted_lt hw p hp
  have c10 : r.tailSize + (r.speed - l) < 2 ^ w := small_lt hw (by omega)
  have hft : findTarget r.speed r.id (bitsVal (q.take r.speed)) = .ok (ni, as, l) := by
    simp [findTarget, hlook]
  have hbuf' : r.buf - bitsVal (q.take (r.speed - l)) * 2 ^ (r.bufSize - r.speed + l)
      = bitsVal (q.drop (r.speed - l)) := by rw [hbuf, hsh]; exact hd.1.symm
  have hsz' : r.bufSize - (r.speed - l) = (q.drop (r.speed - l)).length := by rw [hsz]; simp
  simp only [decodeNextOn, M.bind_apply, M.get_apply, subOn_ok chk w c1, shrOn_ok chk _ c2, shrOn_ok chk _ c3, addOn_ok chk c4', M.lift_apply, hkey, hft, hhi,
    shlOn_ok chk c4 hrm, subOn_ok chk w c5, subOn_ok chk w c6, subOn_ok chk w c7, shlOn_ok chk c8 c9, addOn_ok chk c10,
    M.modify_apply, hbuf', hsz', htail, htor]
  rfl

theorem decodeNextOn_spec (chk : Bool) {w : Nat} (hw : 32 ≤ w) {s : Nat} {tbl : List (List Cell)} {path : Nat → List Bool} (ht : TableOk s tbl path)
    (htbl : tableOf s = tbl) (hs1 : 1 ≤ s) (hs : s ≤ 5) {d0 : Bytes} {r : Reader} {o : Bytes} {p q : List Bool}
    (h : RInv s tbl path d0 r o p q) (hts : r.tailSize = p.length) (hsq : s ≤ q.length) (hq : q.length ≤ 20) :
    decodeNextOn chk w r = decodeNext r ∧
    ((∃ r' o' p' q', decodeNext r = (.ok (), r') ∧ RInv s tbl path d0 r' o' p' q' ∧ r'.tailSize = p'.length ∧ q'.length < q.length) ∨
    (∃ r', decodeNext r = (.err .InvalidInput, r'))) := by
  obtain ⟨h1, h2, h3, h4, h5, h6, h7⟩ := h
  have hpn : NoCode p := by rw [← h3]; exact ht.internal _ h2
  have hp : p.length ≤ 30 := Nat.le_of_lt hpn.length_lt
  have hkl : (q.take s).length = s := by simp; omega
  rcases ht.cell r.id h2 (q.take s) hkl with ⟨n, hlook, hn, hpath⟩ | ⟨a, l, hlook, ha, hl, hpath⟩
  · have hlen := (ht.internal n hn).length_lt
    rw [hpath, h3, List.length_append, hkl] at hlen
    have e1 := decodeNext_arith r p q (some n) none 0 h4 h5 h6 (by omega) (by omega) (by omega) hq hp
      (by rw [h1, htbl]; exact hlook)
    have e2 := decodeNextOn_arith chk hw r p q (some n) none 0 h4 h5 h6 hts (by omega) (by omega) (by omega) hq (by omega)
      (by rw [h1, htbl]; exact hlook)
    refine ⟨e2.trans e1.symm, .inl ?_⟩
    refine ⟨_, o, p ++ q.take s, q.drop s, e1, ?_, ?_, ?_⟩
    · refine ⟨h1, hn, by rw [hpath, h3], ?_, ?_, ?_, h7⟩
      · simp [h1]
      · simp [h1]
      · simp [h1]
    · simp [h1, hts]; omega
    · simp; omega
  · have hl' : l < r.speed := by omega
    have htt : (q.take s).take (s - l) = q.take (s - l) := by rw [List.take_take]; congr 1; omega
    have hlen := congrArg List.length hpath
    have hc30 := code_length_le ha
    rw [htt, h3, List.length_append, List.length_take] at hlen
    have e1 := decodeNext_arith r p q none (some a) l h4 h5 h6 (by omega) hl' (by omega) hq hp
        (by rw [h1, htbl]; exact hlook)
    have e2 := decodeNextOn_arith chk hw r p q none (some a) l h4 h5 h6 hts (by omega) hl' (by omega) hq (by omega)
        (by rw [h1, htbl]; exact hlook)
    refine ⟨e2.trans e1.symm, ?_⟩
    by_cases ha' : a < 256
    · left
      refine ⟨{ r with buf := bitsVal (q.drop (r.speed - l)), bufSize := (q.drop (r.speed - l)).length,
                       tail := 0, tailSize := 0, id := 0, dst := r.dst ++ [UInt8.ofNat a] },
        o ++ [UInt8.ofNat a], [], q.drop (s - l), ?_, ?_, rfl, ?_⟩
      · rw [e1]; simp [dispatch, M.bind_apply, ha']
      · refine ⟨h1, ht.rows, ht.path0, ?_, ?_, rfl, ?_⟩
        · simp [h1]
        · simp [h1]
        · simp [h7]
      · simp; omega
    · right
      refine ⟨{ r with buf := bitsVal (q.drop (r.speed - l)), bufSize := (q.drop (r.speed - l)).length,
                       tail := 0, tailSize := 0, id := 0 }, e1.trans ?_⟩
      simp only [dispatch, M.bind_apply, M.modify_apply, if_neg ha', M.throw_apply]

theorem decodeLoopOn_spec (chk : Bool) {w : Nat} (hw : 32 ≤ w) {s : Nat} {tbl : List (List Cell)} {path : Nat → List Bool} (ht : TableOk s tbl path)
    (htbl : tableOf s = tbl) (hs1 : 1 ≤ s) (hs : s ≤ 5) (fuel : Nat) {d0 : Bytes} {r : Reader} {o : Bytes}
    {p q : List Bool} (h : RInv s tbl path d0 r o p q) (hts : r.tailSize = p.length) (hf : q.length ≤ fuel) (hq : q.length ≤ 20) :
    decodeLoopOn chk w fuel r = decodeLoop fuel r ∧
    ((∃ r' o' p' q', decodeLoop fuel r = (.ok (), r') ∧ RInv s tbl path d0 r' o' p' q' ∧ r'.tailSize = p'.length ∧ q'.length < s) ∨
    (∃ r', decodeLoop fuel r = (.err .InvalidInput, r'))) := by
  induction fuel generalizing r o p q with
  | zero =>
    have h5 := h.bufSize
    have h1 := h.speed
    refine ⟨rfl, .inl ⟨r, o, p, q, ?_, h, hts, by omega⟩⟩
    simp [decodeLoop, M.bind_apply]; omega
  | succ fuel ih =>
    have h5 := h.bufSize
    have h1 := h.speed
    by_cases hlt : r.bufSize < r.speed
    · refine ⟨?_, .inl ⟨r, o, p, q, by simp [decodeLoop, M.bind_apply, hlt], h, hts, by omega⟩⟩
      simp only [decodeLoopOn, decodeLoop, M.bind_apply, M.get_apply, M.ite_apply, if_pos hlt]
    · obtain ⟨e0, hc⟩ := decodeNextOn_spec chk hw ht htbl hs1 hs h hts (by omega) hq
      rcases hc with ⟨r', o', p', q', he, hinv, hts', hlen⟩ | ⟨r', he⟩
      · obtain ⟨e1, hc⟩ := ih hinv hts' (by omega) (by omega)
        have e2 : decodeLoop (fuel + 1) r = decodeLoop fuel r' := by
          simp only [decodeLoop, M.bind_apply, M.get_apply, M.ite_apply, if_neg hlt, he]
        have e3 : decodeLoopOn chk w (fuel + 1) r = decodeLoopOn chk w fuel r' := by
          simp only [decodeLoopOn, M.bind_apply, M.get_apply, M.ite_apply, if_neg hlt, e0, he]
        rw [e2, e3]
        exact ⟨e1, hc⟩
      · have e2 : decodeLoop (fuel + 1) r = (.err .InvalidInput, r') := by
          simp only [decodeLoop, M.bind_apply, M.get_apply, M.ite_apply, if_neg hlt, he]
        have e3 : decodeLoopOn chk w (fuel + 1) r = (.err .InvalidInput, r') := by
          simp only [decodeLoopOn, M.bind_apply, M.get_apply, M.ite_apply, if_neg hlt, e0, he]
        exact ⟨e3.trans e2.symm, .inr ⟨r', e2⟩⟩

theorem readByteOn_spec (chk : Bool) {w : Nat} (hw : 32 ≤ w) {s : Nat} {tbl : List (List Cell)} {path : Nat → List Bool} (ht : TableOk s tbl path)
    (htbl : tableOf s = tbl) (hs1 : 1 ≤ s) (hs : s ≤ 5) (b : UInt8) {d0 : Bytes} {r : Reader} {o : Bytes}
    {p q : List Bool} (h : RInv s tbl path d0 r o p q) (hts : r.tailSize = p.length) (hq : q.length < s) :
    readByteOn chk w b r = readByte b r ∧
    ((∃ r' o' p' q', readByte b r = (.ok (), r') ∧ RInv s tbl path d0 r' o' p' q' ∧ r'.tailSize = p'.length ∧ q'.length < s) ∨
    (∃ r', readByte b r = (.err .InvalidInput, r'))) := by
  have hlt : r.buf * 2 ^ 8 < 2 ^ 64 := by rw [h.buf]; exact shifted_lt (w := 64) (by decide) q (by omega)
  have hltw : r.buf * 2 ^ 8 < 2 ^ w := by rw [h.buf]; exact shifted_lt hw q (by omega)
  have hor : r.buf * 2 ^ 8 ||| b.toNat = bitsVal (q ++ byteBits b) := by
    rw [h.buf, ← bitsVal_byteBits b]
    have := bitsVal_append_or q (byteBits b)
    rwa [byteBits_length] at this
  have hinv : RInv s tbl path d0 { r with buf := r.buf * 2 ^ 8 ||| b.toNat, bufSize := r.bufSize + 8 } o p
      (q ++ byteBits b) :=
    ⟨h.speed, h.id, h.path, hor, by simp [h.bufSize], h.tail, h.dst⟩
  have hbs := h.bufSize
  have e1 : readByte b r = decodeLoop (r.bufSize + 8)
      { r with buf := r.buf * 2 ^ 8 ||| b.toNat, bufSize := r.bufSize + 8 } := by
    simp only [readByte, M.bind_apply, M.get_apply, shl64, Nat.mod_eq_of_lt hlt, show (8 : Nat) < 64 by decide, if_true, M.pure_apply, M.modify_apply]
  have e2 : readByteOn chk w b r = decodeLoopOn chk w (r.bufSize + 8)
      { r with buf := r.buf * 2 ^ 8 ||| b.toNat, bufSize := r.bufSize + 8 } := by
    have c1 : 8 < w := by omega
    have c2 : r.bufSize + 8 < 2 ^ w := small_lt hw (by omega)
    simp only [readByteOn, M.bind_apply, M.get_apply, shlOn_ok chk c1 hltw, addOn_ok chk c2, M.modify_apply]
  rw [e1, e2]
  exact decodeLoopOn_spec chk hw ht htbl hs1 hs _ hinv hts (by simp; omega) (by simp; omega)

theorem readLoopOn_spec (chk : Bool) {w : Nat} (hw : 32 ≤ w) {s : Nat} {tbl : List (List Cell)} {path : Nat → List Bool} (ht : TableOk s tbl path)
    (htbl : tableOf s = tbl) (hs1 : 1 ≤ s) (hs : s ≤ 5) (src : Bytes) {d0 : Bytes} {r : Reader} {o : Bytes}
    {p q : List Bool} (h : RInv s tbl path d0 r o p q) (hts : r.tailSize = p.length) (hq : q.length < s) :
    readLoopOn chk w src r = readLoop src r ∧
    ((∃ r' o' p' q', readLoop src r = (.ok (), r') ∧ RInv s tbl path d0 r' o' p' q' ∧ r'.tailSize = p'.length ∧ q'.length < s) ∨
    (∃ r', readLoop src r = (.err .InvalidInput, r'))) := by
  induction src generalizing r o p q with
  | nil => exact ⟨rfl, .inl ⟨r, o, p, q, rfl, h, hts, hq⟩⟩
  | cons b src ih =>
    obtain ⟨e0, hc⟩ := readByteOn_spec chk hw ht htbl hs1 hs b h hts hq
    rcases hc with ⟨r', o', p', q', he, hinv, hts', hlen⟩ | ⟨r', he⟩
    · obtain ⟨e1, hc⟩ := ih hinv hts' hlen
      have e2 : readLoop (b :: src) r = readLoop src r' := by simp only [readLoop, M.bind_apply, he]
      have e3 : readLoopOn chk w (b :: src) r = readLoopOn chk w src r' := by simp only [readLoopOn, M.bind_apply, e0, he]
      rw [e2, e3]
      exact ⟨e1, hc⟩
    · have e2 : readLoop (b :: src) r = (.err .InvalidInput, r') := by simp only [readLoop, M.bind_apply, he]
      have e3 : readLoopOn chk w (b :: src) r = (.err .InvalidInput, r') := by simp only [readLoopOn, M.bind_apply, e0, he]
      exact ⟨e3.trans e2.symm, .inr ⟨r', e2⟩⟩

theorem finalizeTailOn_eq (chk : Bool) {w : Nat} (hw : 32 ≤ w) (k : Nat) (r : Reader) (p q : List Bool) (hsz : r.bufSize = q.length + k)
    (htail : r.tail = bitsVal p) (hts : r.tailSize = p.length) (hk : k ≤ 5) (hpq : p.length + q.length ≤ 31) :
    finalizeTailOn chk w k r = finalizeTail k r := by
  have c1 : k < 64 := by omega
  have c1' : k < w := by omega
  have c2 : k ≤ r.bufSize := by omega
  have c3 : r.bufSize - k = q.length := by omega
  have c4 : q.length < 64 := by omega
  have c4' : q.length < w := by omega
  have c5 : r.tail * 2 ^ q.length < 2 ^ 64 := by rw [htail]; exact shifted_lt (w := 64) (by decide) p (by omega)
  have c5' : r.tail * 2 ^ q.length < 2 ^ w := by rw [htail]; exact shifted_lt hw p (by omega)
  have c6 : r.tailSize + q.length < 2 ^ w := small_lt hw (by omega)
  simp only [finalizeTailOn, finalizeTail, M.bind_apply, M.get_apply, shr64, subU, shl64, shrOn_ok chk _ c1', subOn_ok chk w c2,
    c3, shlOn_ok chk c4' c5', addOn_ok chk c6, if_pos c1, if_pos c2, if_pos c4, Nat.mod_eq_of_lt c5, M.pure_apply, M.modify_apply]

theorem finalizeOn_eq (chk : Bool) {w : Nat} (hw : 32 ≤ w) {s : Nat} {tbl : List (List Cell)} {path : Nat → List Bool} (ht : TableOk s tbl path)
    (htbl : tableOf s = tbl) (hs1 : 1 ≤ s) (hs : s ≤ 5) {d0 : Bytes} {r : Reader} {o : Bytes}
    {p q : List Bool} (h : RInv s tbl path d0 r o p q) (hts : r.tailSize = p.length) (hq : q.length < s) :
    finalizeOn chk w r = finalize r := by
  have hall := h
  obtain ⟨h1, h2, h3, h4, h5, h6, h7⟩ := h
  have hpn : NoCode p := by rw [← h3]; exact ht.internal _ h2
  have hp : p.length < 30 := hpn.length_lt
  by_cases hq0 : q = []
  · subst hq0
    simp only [bitsVal_nil, List.length_nil] at h4 h5
    have c1 : (0 + s - 1) / s = 0 := Nat.div_eq_of_lt (by omega)
    have c2 : ¬ (0 ≥ s) := by omega
    have hr0 : ({ r with buf := 0, bufSize := 0 } : Reader) = r := by
      cases r; simp only at h4 h5; subst h4; subst h5; rfl
    have hX : finalizeChar 0 r = (.ok (), r) := by
      simp only [finalizeChar, M.bind_apply, M.get_apply, h1, h5, c2, if_false, M.pure_apply]
    have hX' : finalizeCharOn chk w 0 r = (.ok (), r) := by
      simp only [finalizeCharOn, M.bind_apply, M.get_apply, h1, h5, c2, if_false, M.pure_apply]
    have hm : finalize r = (finalizeChar 0 >>= fun _ => finalizeTail 0) r := by
      conv => rhs; rw [← hr0]
      simp only [finalize, M.bind_apply, M.get_apply, subU, h5, h1, c1, Nat.le_refl, if_true, M.pure_apply, shl64,
        h4, Nat.sub_zero, Nat.zero_lt_succ, M.modify_apply, Nat.zero_mul, Nat.zero_mod, Nat.add_zero]
    have hm' : finalizeOn chk w r = (finalizeCharOn chk w 0 >>= fun _ => finalizeTailOn chk w 0) r := by
      have d1 : 0 * s < 2 ^ w := by rw [Nat.zero_mul]; exact Nat.two_pow_pos w
      have d2 : 0 * 2 ^ 0 < 2 ^ w := by rw [Nat.zero_mul]; exact Nat.two_pow_pos w
      have d3 : 0 < w := by omega
      have d4 : 0 + 0 < 2 ^ w := Nat.two_pow_pos w
      conv => rhs; rw [← hr0]
      simp only [finalizeOn, M.bind_apply, M.get_apply, h5, h1, c1, h4, mulOn_ok chk d1, Nat.zero_mul, subOn_ok chk w (Nat.le_refl 0),
        Nat.sub_zero, shlOn_ok chk d3 d2, addOn_ok chk d4, M.modify_apply, Nat.add_zero]
    rw [hm, hm', M.bind_apply, M.bind_apply, hX, hX']
    exact finalizeTailOn_eq chk hw 0 r p [] (by simpa using h5) h6 hts (by omega) (by simp; omega)
  · have hqpos : 0 < q.length := List.length_pos_iff.mpr hq0
    let k := s - q.length
    have c1 : (q.length + s - 1) / s = 1 := by rw [Nat.div_eq_iff (by omega)]; omega
    have c2 : q.length ≤ s := by omega
    let K := q ++ List.replicate k false
    have hKlen : K.length = s := by simp [K, k]; omega
    have hz := zeros_val k
    have hKv : bitsVal q * 2 ^ k = bitsVal K := by simp [K, bitsVal_append, hz]
    have hK64 : bitsVal q * 2 ^ k < 2 ^ 64 := shifted_lt (w := 64) (by decide) q (by omega)
    have hKw : bitsVal q * 2 ^ k < 2 ^ w := shifted_lt hw q (by omega)
    let r1 : Reader := { r with buf := bitsVal K, bufSize := K.length }
    have hsz1 : q.length + k = K.length := by simp [K]
    have c4 : K.length ≥ s := by omega
    have hmain : finalize r = (finalizeChar k >>= fun _ => finalizeTail k) r1 := by
      have c3' : k < 64 := by omega
      simp only [finalize, M.bind_apply, M.get_apply, subU, h5, h1, c1, Nat.one_mul, if_pos c2, M.pure_apply, shl64]
      rw [show s - q.length = k from rfl]
      simp only [if_pos c3', h4, hKv, Nat.mod_eq_of_lt (hKv ▸ hK64), M.modify_apply, h1, h5, hsz1, M.pure_apply, r1]
    have hmain' : finalizeOn chk w r = (finalizeCharOn chk w k >>= fun _ => finalizeTailOn chk w k) r1 := by
      have c3' : k < w := by omega
      have d1 : 1 * s < 2 ^ w := small_lt hw (by omega)
      have d2 : q.length + k < 2 ^ w := small_lt hw (by omega)
      simp only [finalizeOn, M.bind_apply, M.get_apply, h5, h1, c1, mulOn_ok chk d1, Nat.one_mul, subOn_ok chk w c2]
      rw [show s - q.length = k from rfl]
      simp only [h4, shlOn_ok chk c3' hKw, addOn_ok chk d2, hKv, M.modify_apply, h1, hsz1, r1]
    have hinv1 : RInv s tbl path d0 r1 o p K := ⟨h1, h2, h3, rfl, rfl, h6, h7⟩
    have hchar' : finalizeCharOn chk w k r1 = finalizeChar k r1 := by
      have e0 := (decodeNextOn_spec chk hw ht htbl hs1 hs hinv1 hts (by omega) (by omega)).1
      simp only [finalizeCharOn, finalizeChar, M.bind_apply, M.get_apply, M.ite_apply]
      split
      · cases findTarget r1.speed r1.id r1.buf with
        | ok c => simp only [M.ite_apply, e0]
        | _ => rfl
      · rfl
    have hchar : ∀ ni as l, lookup tbl r.id (bitsVal K) = some (ni, as, l) →
        finalizeChar k r1 = if k ≤ l then decodeNext r1 else (.ok (), r1) := by
      intro ni as l hlook
      have c4' : r1.bufSize ≥ r1.speed := by simp only [r1, h1]; exact c4
      have hft : findTarget r1.speed r1.id r1.buf = .ok (ni, as, l) := by
        simp only [findTarget, r1, h1, htbl, hlook]
      simp only [finalizeChar, M.bind_apply, M.get_apply, if_pos c4', hft, M.ite_apply, M.pure_apply]
    rw [hmain, hmain', M.bind_apply, M.bind_apply, hchar']
    rcases ht.cell r.id h2 K hKlen with ⟨n, hlook, hn, hpath⟩ | ⟨a, l, hlook, ha, hl, hpath⟩
    · have hX := hchar _ _ _ hlook
      rw [if_neg (by simp [k]; omega)] at hX
      rw [hX]
      have hlen := (ht.internal n hn).length_lt
      rw [hpath, h3, List.length_append, hKlen] at hlen
      exact finalizeTailOn_eq chk hw k r1 p q (by simp [r1, hsz1]) h6 hts (by omega) (by omega)
    · have hlen := congrArg List.length hpath
      have hc30 := code_length_le ha
      rw [h3, List.length_append, List.length_take, hKlen] at hlen
      by_cases hkl : k ≤ l
      · have hX := hchar _ _ _ hlook
        rw [if_pos hkl] at hX
        rw [hX]
        have hKt : K.take s = K := List.take_of_length_le (by omega)
        have hr1s : r1.speed = s := h1
        have harith := decodeNext_arith r1 p K none (some a) l rfl rfl h6 (by omega) (by omega) (by omega)
          (by omega) (by omega) (by rw [hr1s, htbl, hKt]; exact hlook)
        rw [harith, hr1s]
        by_cases ha' : a < 256
        · simp only [dispatch, M.bind_apply, M.modify_apply, if_pos ha']
          refine finalizeTailOn_eq chk hw k _ [] (q.drop (s - l)) ?_ rfl rfl (by omega) (by simp; omega)
          have hKdrop : K.drop (s - l) = q.drop (s - l) ++ List.replicate k false := List.drop_append_of_le_length (by omega)
          simp [hKdrop]
        · simp only [dispatch, M.bind_apply, M.modify_apply, if_neg ha', M.throw_apply]
      · have hX := hchar _ _ _ hlook
        rw [if_neg hkl] at hX
        rw [hX]
        exact finalizeTailOn_eq chk hw k r1 p q (by simp [r1, hsz1]) h6 hts (by omega) (by omega)

theorem decodeOn_eq (chk : Bool) {w : Nat} (hw : 32 ≤ w) (src dst : Bytes) (sp : Speed) : decodeOn chk w src dst sp = decode src dst sp := by
  obtain ⟨path, ht⟩ := speed_tableOk sp
  have hs1 : 1 ≤ sp.toNat := by cases sp <;> simp [Speed.toNat]
  have hs : sp.toNat ≤ 5 := by cases sp <;> simp [Speed.toNat]
  have h0 : RInv sp.toNat (tableOf sp.toNat) path dst (Reader.new sp.toNat dst) [] [] [] :=
    ⟨rfl, ht.rows, ht.path0, rfl, rfl, rfl, by simp [Reader.new]⟩
  obtain ⟨e1, hc⟩ := readLoopOn_spec chk hw ht rfl hs1 hs src h0 rfl (by simp only [List.length_nil]; omega)
  rcases hc with ⟨r1, o1, p1, q1, he, hinv, hts, hl⟩ | ⟨r1, he⟩
  · have e2 := finalizeOn_eq chk hw ht rfl hs1 hs hinv hts hl
    simp only [decodeOn, decode, M.bind_apply, e1, he, e2]
  · simp only [decodeOn, decode, M.bind_apply, e1, he]

theorem flushOn_eq (chk : Bool) (fuel : Nat) : ∀ s : EncState, flushOn chk fuel s = flush fuel s := by
  induction fuel with
  | zero => intro s; rfl
  | succ fuel ih =>
    intro s
    by_cases hb : s.bitsLeft ≤ 32
    · have c : s.bitsLeft + 8 < 2 ^ 8 := by omega
      simp only [flushOn, flush, M.bind_apply, M.get_apply, M.ite_apply, if_pos hb, addOn_ok chk c, M.modify_apply, ih]
    · simp only [flushOn, flush, M.bind_apply, M.get_apply, M.ite_apply, if_neg hb]

theorem encodeByteOn_eq (chk : Bool) (b : UInt8) {s : EncState} {p : List Bool} (hp : Pending s p) (hl : p.length < 8) :
    encodeByteOn chk b s = encodeByte b s := by
  obtain ⟨l, c, htab, hcode, hc, h5, h30⟩ := encTable_entry (UInt8.toNat_le_256 b)
  have h1 := hp.1
  have hle : l ≤ s.bitsLeft := by omega
  have h64 : ¬ 64 ≤ s.bitsLeft - l := by omega
  have h64' : ¬ (chk = true ∧ 64 ≤ s.bitsLeft - l) := fun h => h64 h.2
  simp only [encodeByteOn, encodeByte, htab, M.bind_apply, M.get_apply, subU, subOn_ok chk 8 hle, if_pos hle, M.ite_apply, if_neg h64,
    if_neg h64', M.pure_apply, M.modify_apply, flushOn_eq]

theorem encodeLoopOn_eq (chk : Bool) (src : Bytes) : ∀ {s : EncState} {p : List Bool}, Pending s p → p.length < 8 →
    encodeLoopOn chk src s = encodeLoop src s := by
  induction src with
  | nil => intro s p _ _; rfl
  | cons b src ih =>
    intro s p hp hl
    obtain ⟨s1, q1, p1, he, hd1, hb1, hl1, hp1⟩ := encodeByte_spec b s p hp hl
    simp only [encodeLoopOn, encodeLoop, M.bind_apply, encodeByteOn_eq chk b hp hl, he, ih hp1 hl1]

theorem encodeFinishOn_eq (chk : Bool) {s : EncState} {p : List Bool} (hp : Pending s p) : encodeFinishOn chk s = encodeFinish s := by
  have h1 := hp.1
  have h64 : ¬ 64 ≤ s.bitsLeft := by omega
  have h64' : ¬ (chk = true ∧ 64 ≤ s.bitsLeft) := fun h => h64 h.2
  simp only [encodeFinishOn, encodeFinish, M.bind_apply, M.get_apply, M.ite_apply, if_neg h64, if_neg h64']

theorem encodeOn_eq (chk : Bool) (src dst : Bytes) : encodeOn chk src dst = encode src dst := by
  have hp : Pending { bits := 0, bitsLeft := 40, dst := dst } [] := ⟨by simp, by simp⟩
  obtain ⟨s1, q1, p1, he, hd1, hb1, hl1, hp1⟩ := encodeLoop_spec src _ [] hp (by simp)
  simp only [encodeOn, encode, M.bind_apply, encodeLoopOn_eq chk src hp (by simp), he, encodeFinishOn_eq chk hp1]

end Verif.Huffman
