import Verif.Lemmas.HuffTables
/-! The Huffman reader performs the greedy bit-level parse, at every speed. -/
namespace Verif.Huffman
open Verif.Spec

/-- State of the reader after the bits `codesOf o ++ p ++ q`: `o` written, `p` walked in the table, `q` buffered. -/
structure RInv (s : Nat) (tbl : List (List Cell)) (path : Nat → List Bool) (d0 : Bytes) (r : Reader)
    (o : Bytes) (p q : List Bool) : Prop where
  speed : r.speed = s
  id : r.id < tbl.length
  path : path r.id = p
  buf : r.buf = bitsVal q
  bufSize : r.bufSize = q.length
  tail : r.tail = bitsVal p
  dst : r.dst = d0 ++ o

theorem pow64 {k : Nat} (h : k ≤ 64) : 2 ^ k ≤ 2 ^ 64 := Nat.pow_le_pow_right (by omega) h

theorem bitsVal_take (q : List Bool) (n : Nat) : bitsVal (q.take n) = bitsVal q / 2 ^ (q.length - n) := by
  have h := bitsVal_append (q.take n) (q.drop n)
  rw [List.take_append_drop, List.length_drop] at h
  have hlt := bitsVal_lt (q.drop n)
  rw [List.length_drop] at hlt
  rw [h, Nat.mul_comm, Nat.mul_add_div (Nat.two_pow_pos _), Nat.div_eq_of_lt hlt, Nat.add_zero]

theorem bitsVal_drop (q : List Bool) (n : Nat) :
    bitsVal (q.drop n) = bitsVal q - bitsVal (q.take n) * 2 ^ (q.length - n) ∧
    bitsVal (q.take n) * 2 ^ (q.length - n) ≤ bitsVal q := by
  have h := bitsVal_append (q.take n) (q.drop n)
  rw [List.take_append_drop, List.length_drop] at h
  omega

theorem bitsVal_append_or (p q : List Bool) : bitsVal p * 2 ^ q.length ||| bitsVal q = bitsVal (p ++ q) := by
  rw [bitsVal_append, Nat.mul_comm]
  exact (Nat.two_pow_add_eq_or_of_lt (bitsVal_lt q) _).symm

/-- The part of `decode_next` after the arithmetic: dispatch on the cell. -/
def dispatch (nextId ascii : Option Nat) : M Reader DecErr Unit :=
  match ascii with
  | some a => do
    M.modify fun r => { r with id := 0, tail := 0, tailSize := 0 }
    if a < 256 then M.modify fun r => { r with dst := r.dst ++ [UInt8.ofNat a] }
    else M.throw .InvalidInput
  | none =>
    match nextId with
    | some n => M.modify fun r => { r with id := n }
    | none => M.throw .InvalidInput

theorem decodeNext_arith (r : Reader) (p q : List Bool) (ni as : Option Nat) (l : Nat)
    (hbuf : r.buf = bitsVal q) (hsz : r.bufSize = q.length) (htail : r.tail = bitsVal p)
    (hsq : r.speed ≤ q.length) (hl : l < r.speed) (hs : r.speed ≤ 5) (hq : q.length ≤ 20) (hp : p.length ≤ 30)
    (hlook : lookup (tableOf r.speed) r.id (bitsVal (q.take r.speed)) = some (ni, as, l)) :
    decodeNext r = dispatch ni as
      { r with buf := bitsVal (q.drop (r.speed - l)), bufSize := (q.drop (r.speed - l)).length,
               tail := bitsVal (p ++ q.take (r.speed - l)), tailSize := r.tailSize + (r.speed - l) } := by
  have hkey : r.buf / 2 ^ (r.bufSize - r.speed) = bitsVal (q.take r.speed) := by
    rw [hbuf, hsz, bitsVal_take]
  have hhi : bitsVal (q.take r.speed) / 2 ^ l = bitsVal (q.take (r.speed - l)) := by
    rw [bitsVal_take, bitsVal_take, Nat.div_div_eq_div_mul, ← Nat.pow_add]
    congr 2; omega
  have hd := bitsVal_drop q (r.speed - l)
  have hsh : r.bufSize - r.speed + l = q.length - (r.speed - l) := by omega
  have hqlt : bitsVal q < 2 ^ 64 := Nat.lt_of_lt_of_le (bitsVal_lt q) (pow64 (by omega))
  have hrm : bitsVal (q.take (r.speed - l)) * 2 ^ (r.bufSize - r.speed + l) % 2 ^ 64
      = bitsVal (q.take (r.speed - l)) * 2 ^ (q.length - (r.speed - l)) := by
    rw [hsh, Nat.mod_eq_of_lt (by omega)]
  have htl : bitsVal p * 2 ^ (r.speed - l) % 2 ^ 64 = bitsVal p * 2 ^ (r.speed - l) := by
    apply Nat.mod_eq_of_lt
    have h1 : bitsVal p * 2 ^ (r.speed - l) < 2 ^ p.length * 2 ^ (r.speed - l) :=
      Nat.mul_lt_mul_of_pos_right (bitsVal_lt p) (Nat.two_pow_pos _)
    rw [← Nat.pow_add] at h1
    exact Nat.lt_of_lt_of_le h1 (pow64 (by omega))
  have htake : (q.take (r.speed - l)).length = r.speed - l := by simp; omega
  have htor : bitsVal p * 2 ^ (r.speed - l) ||| bitsVal (q.take (r.speed - l))
      = bitsVal (p ++ q.take (r.speed - l)) := by
    have := bitsVal_append_or p (q.take (r.speed - l))
    rwa [htake] at this
  have c1 : r.speed ≤ r.bufSize := by omega
  have c2 : r.bufSize - r.speed < 64 := by omega
  have c3 : l < 64 := by omega
  have c4 : r.bufSize - r.speed + l < 64 := by omega
  have c5 : bitsVal (q.take (r.speed - l)) * 2 ^ (q.length - (r.speed - l)) ≤ r.buf := by rw [hbuf]; exact hd.2
  have c6 : l ≤ r.speed := by omega
  have c7 : r.speed - l ≤ r.bufSize := by omega
  have c8 : r.speed - l < 64 := by omega
  have hft : findTarget r.speed r.id (bitsVal (q.take r.speed)) = .ok (ni, as, l) := by
    simp [findTarget, hlook]
  have hbuf' : r.buf - bitsVal (q.take (r.speed - l)) * 2 ^ (q.length - (r.speed - l))
      = bitsVal (q.drop (r.speed - l)) := by rw [hbuf]; exact hd.1.symm
  have hsz' : r.bufSize - (r.speed - l) = (q.drop (r.speed - l)).length := by rw [hsz]; simp
  simp only [decodeNext, M.bind_apply, M.get_apply, subU, shr64, shl64, M.pure_apply, M.lift_apply,
    if_pos c1, if_pos c2, if_pos c3, if_pos c4, if_pos c6, if_pos c7, if_pos c8, hkey, hft, hhi, hrm, if_pos c5,
    M.modify_apply, hbuf', hsz', htail, htl, htor]
  rfl

theorem decodeNext_spec {s : Nat} {tbl : List (List Cell)} {path : Nat → List Bool} (ht : TableOk s tbl path)
    (htbl : tableOf s = tbl) (hs1 : 1 ≤ s) (hs : s ≤ 5) {d0 : Bytes} {r : Reader} {o : Bytes} {p q : List Bool}
    (h : RInv s tbl path d0 r o p q) (hsq : s ≤ q.length) (hq : q.length ≤ 20) :
    (∃ r' o' p' q', decodeNext r = (.ok (), r') ∧ RInv s tbl path d0 r' o' p' q' ∧ q'.length < q.length ∧
        codesOf o ++ p ++ q = codesOf o' ++ p' ++ q') ∨
    (∃ r' o' q', decodeNext r = (.err .InvalidInput, r') ∧ r'.dst = d0 ++ o' ∧
        codesOf o ++ p ++ q = codesOf o' ++ code 256 ++ q') := by
  obtain ⟨h1, h2, h3, h4, h5, h6, h7⟩ := h
  have hpn : NoCode p := by rw [← h3]; exact ht.internal _ h2
  have hp : p.length ≤ 30 := Nat.le_of_lt hpn.length_lt
  have hkl : (q.take s).length = s := by simp; omega
  rcases ht.cell r.id h2 (q.take s) hkl with ⟨n, hlook, hn, hpath⟩ | ⟨a, l, hlook, ha, hl, hpath⟩
  · left
    have := decodeNext_arith r p q (some n) none 0 h4 h5 h6 (by omega) (by omega) (by omega) hq hp
      (by rw [h1, htbl]; exact hlook)
    refine ⟨_, o, p ++ q.take s, q.drop s, by rw [this]; rfl, ?_, ?_, ?_⟩
    · refine ⟨h1, hn, by rw [hpath, h3], ?_, ?_, ?_, h7⟩
      · simp [h1]
      · simp [h1]
      · simp [h1]
    · simp; omega
    · simp
  · have hl' : l < r.speed := by omega
    have := decodeNext_arith r p q none (some a) l h4 h5 h6 (by omega) hl' (by omega) hq hp
        (by rw [h1, htbl]; exact hlook)
    have htt : (q.take s).take (s - l) = q.take (s - l) := by rw [List.take_take]; congr 1; omega
    rw [htt, h3] at hpath
    have hsplit : p ++ q = code a ++ q.drop (s - l) := by
      rw [← hpath, List.append_assoc, List.take_append_drop]
    by_cases ha' : a < 256
    · left
      have hau : (UInt8.ofNat a).toNat = a := UInt8.toNat_ofNat_of_lt' ha'
      refine ⟨{ r with buf := bitsVal (q.drop (r.speed - l)), bufSize := (q.drop (r.speed - l)).length,
                       tail := 0, tailSize := 0, id := 0, dst := r.dst ++ [UInt8.ofNat a] },
        o ++ [UInt8.ofNat a], [], q.drop (s - l), ?_, ?_, ?_, ?_⟩
      · rw [this]; simp [dispatch, M.bind_apply, ha']
      · refine ⟨h1, ht.rows, ht.path0, ?_, ?_, rfl, ?_⟩
        · simp [h1]
        · simp [h1]
        · simp [h7]
      · simp; omega
      · rw [List.append_assoc, hsplit, codesOf_append]
        simp [hau]
    · right
      have ha256 : a = 256 := by omega
      subst ha256
      refine ⟨{ r with buf := bitsVal (q.drop (r.speed - l)), bufSize := (q.drop (r.speed - l)).length,
                       tail := 0, tailSize := 0, id := 0 },
        o, q.drop (s - l), by rw [this]; rfl, h7, ?_⟩
      rw [List.append_assoc, hsplit, List.append_assoc]

theorem decodeLoop_spec {s : Nat} {tbl : List (List Cell)} {path : Nat → List Bool} (ht : TableOk s tbl path)
    (htbl : tableOf s = tbl) (hs1 : 1 ≤ s) (hs : s ≤ 5) (fuel : Nat) {d0 : Bytes} {r : Reader} {o : Bytes}
    {p q : List Bool} (h : RInv s tbl path d0 r o p q) (hf : q.length ≤ fuel) (hq : q.length ≤ 20) :
    (∃ r' o' p' q', decodeLoop fuel r = (.ok (), r') ∧ RInv s tbl path d0 r' o' p' q' ∧ q'.length < s ∧
        codesOf o ++ p ++ q = codesOf o' ++ p' ++ q') ∨
    (∃ r' o' q', decodeLoop fuel r = (.err .InvalidInput, r') ∧ r'.dst = d0 ++ o' ∧
        codesOf o ++ p ++ q = codesOf o' ++ code 256 ++ q') := by
  induction fuel generalizing r o p q with
  | zero =>
    left
    have h5 := h.bufSize
    have h1 := h.speed
    refine ⟨r, o, p, q, ?_, h, by omega, rfl⟩
    simp [decodeLoop, M.bind_apply]; omega
  | succ fuel ih =>
    have h5 := h.bufSize
    have h1 := h.speed
    by_cases hlt : r.bufSize < r.speed
    · left
      exact ⟨r, o, p, q, by simp [decodeLoop, M.bind_apply, hlt], h, by omega, rfl⟩
    · rcases decodeNext_spec ht htbl hs1 hs h (by omega) hq with
        ⟨r', o', p', q', he, hinv, hlen, hbits⟩ | ⟨r', o', q', he, hd, hbits⟩
      · rcases ih hinv (by omega) (by omega) with
          ⟨r2, o2, p2, q2, he2, hinv2, hlen2, hbits2⟩ | ⟨r2, o2, q2, he2, hd2, hbits2⟩
        · left
          refine ⟨r2, o2, p2, q2, ?_, hinv2, hlen2, hbits.trans hbits2⟩
          simp only [decodeLoop, M.bind_apply, M.get_apply, M.ite_apply, if_neg hlt, he, he2]
        · right
          refine ⟨r2, o2, q2, ?_, hd2, hbits.trans hbits2⟩
          simp only [decodeLoop, M.bind_apply, M.get_apply, M.ite_apply, if_neg hlt, he, he2]
      · right
        refine ⟨r', o', q', ?_, hd, hbits⟩
        simp only [decodeLoop, M.bind_apply, M.get_apply, M.ite_apply, if_neg hlt, he]

theorem readByte_spec {s : Nat} {tbl : List (List Cell)} {path : Nat → List Bool} (ht : TableOk s tbl path)
    (htbl : tableOf s = tbl) (hs1 : 1 ≤ s) (hs : s ≤ 5) (b : UInt8) {d0 : Bytes} {r : Reader} {o : Bytes}
    {p q : List Bool} (h : RInv s tbl path d0 r o p q) (hq : q.length < s) :
    (∃ r' o' p' q', readByte b r = (.ok (), r') ∧ RInv s tbl path d0 r' o' p' q' ∧ q'.length < s ∧
        codesOf o ++ p ++ q ++ byteBits b = codesOf o' ++ p' ++ q') ∨
    (∃ r' o' q', readByte b r = (.err .InvalidInput, r') ∧ r'.dst = d0 ++ o' ∧
        codesOf o ++ p ++ q ++ byteBits b = codesOf o' ++ code 256 ++ q') := by
  have hlt : bitsVal q * 2 ^ 8 < 2 ^ 64 := by
    have h1 : bitsVal q * 2 ^ 8 < 2 ^ q.length * 2 ^ 8 :=
      Nat.mul_lt_mul_of_pos_right (bitsVal_lt q) (Nat.two_pow_pos _)
    rw [← Nat.pow_add] at h1
    exact Nat.lt_of_lt_of_le h1 (pow64 (by omega))
  have hor : r.buf * 2 ^ 8 % 2 ^ 64 ||| b.toNat = bitsVal (q ++ byteBits b) := by
    rw [h.buf, Nat.mod_eq_of_lt hlt, ← bitsVal_byteBits b]
    have := bitsVal_append_or q (byteBits b)
    rwa [byteBits_length] at this
  have hinv : RInv s tbl path d0 { r with buf := r.buf * 2 ^ 8 % 2 ^ 64 ||| b.toNat, bufSize := r.bufSize + 8 } o p
      (q ++ byteBits b) :=
    ⟨h.speed, h.id, h.path, hor, by simp [h.bufSize], h.tail, h.dst⟩
  have hrb : readByte b r = decodeLoop (r.bufSize + 8)
      { r with buf := r.buf * 2 ^ 8 % 2 ^ 64 ||| b.toNat, bufSize := r.bufSize + 8 } := by
    simp [readByte, M.bind_apply, shl64]
  have hbs := h.bufSize
  rw [hrb, List.append_assoc (codesOf o ++ p)]
  exact decodeLoop_spec ht htbl hs1 hs _ hinv (by simp; omega) (by simp; omega)

theorem readLoop_spec {s : Nat} {tbl : List (List Cell)} {path : Nat → List Bool} (ht : TableOk s tbl path)
    (htbl : tableOf s = tbl) (hs1 : 1 ≤ s) (hs : s ≤ 5) (src : Bytes) {d0 : Bytes} {r : Reader} {o : Bytes}
    {p q : List Bool} (h : RInv s tbl path d0 r o p q) (hq : q.length < s) :
    (∃ r' o' p' q', readLoop src r = (.ok (), r') ∧ RInv s tbl path d0 r' o' p' q' ∧ q'.length < s ∧
        codesOf o ++ p ++ q ++ bytesBits src = codesOf o' ++ p' ++ q') ∨
    (∃ r' o' q', readLoop src r = (.err .InvalidInput, r') ∧ r'.dst = d0 ++ o' ∧
        codesOf o ++ p ++ q ++ bytesBits src = codesOf o' ++ code 256 ++ q') := by
  induction src generalizing r o p q with
  | nil => left; exact ⟨r, o, p, q, rfl, h, hq, by simp⟩
  | cons b src ih =>
    rcases readByte_spec ht htbl hs1 hs b h hq with
      ⟨r', o', p', q', he, hinv, hlen, hbits⟩ | ⟨r', o', q', he, hd, hbits⟩
    · rcases ih hinv hlen with ⟨r2, o2, p2, q2, he2, hinv2, hlen2, hbits2⟩ | ⟨r2, o2, q2, he2, hd2, hbits2⟩
      · left
        refine ⟨r2, o2, p2, q2, ?_, hinv2, hlen2, ?_⟩
        · simp only [readLoop, M.bind_apply, he, he2]
        · rw [bytesBits_cons, ← List.append_assoc, hbits, hbits2]
      · right
        refine ⟨r2, o2, q2, ?_, hd2, ?_⟩
        · simp only [readLoop, M.bind_apply, he, he2]
        · rw [bytesBits_cons, ← List.append_assoc, hbits, hbits2]
    · right
      refine ⟨r', o', q' ++ bytesBits src, ?_, hd, ?_⟩
      · simp only [readLoop, M.bind_apply, he]
      · rw [bytesBits_cons, ← List.append_assoc, hbits, List.append_assoc]

theorem zeros_val (k : Nat) : bitsVal (List.replicate k false) = 0 := by
  induction k with
  | zero => rfl
  | succ k ih => rw [List.replicate_succ, bitsVal_cons, ih]; simp

/-- The values the decoder accepts as padding. -/
def padVals : List Nat := [0, 1, 3, 7, 15, 31, 63, 127]

/-- The padding check itself, on the unread bits `q ++ zeros`. -/
theorem finalizeTail_spec (k : Nat) (r : Reader) (p q : List Bool)
    (hbuf : r.buf = bitsVal (q ++ List.replicate k false)) (hsz : r.bufSize = q.length + k)
    (htail : r.tail = bitsVal p) (hk : k ≤ 5) (hq : q.length ≤ 20) (hp : p.length ≤ 30) :
    ∃ r', finalizeTail k r = (if bitsVal (p ++ q) ∈ padVals then .ok () else .err .InvalidInput, r') ∧ r'.dst = r.dst := by
  have hz := zeros_val k
  have hb : r.buf / 2 ^ k = bitsVal q := by
    rw [hbuf, bitsVal_append, hz, List.length_replicate, Nat.add_zero, Nat.mul_div_cancel _ (Nat.two_pow_pos k)]
  have htl : bitsVal p * 2 ^ q.length % 2 ^ 64 = bitsVal p * 2 ^ q.length := by
    apply Nat.mod_eq_of_lt
    have h1 : bitsVal p * 2 ^ q.length < 2 ^ p.length * 2 ^ q.length :=
      Nat.mul_lt_mul_of_pos_right (bitsVal_lt p) (Nat.two_pow_pos _)
    rw [← Nat.pow_add] at h1
    exact Nat.lt_of_lt_of_le h1 (pow64 (by omega))
  have c1 : k < 64 := by omega
  have c2 : k ≤ r.bufSize := by omega
  have c3 : r.bufSize - k = q.length := by omega
  have c4 : q.length < 64 := by omega
  have hany : ([0, 1, 3, 7, 15, 31, 63, 127].any fun p_1 => p_1 == bitsVal (p ++ q)) = true ↔
      bitsVal (p ++ q) ∈ padVals := by
    simp only [List.any_eq_true, beq_iff_eq, padVals, exists_eq_right]
  by_cases hmem : bitsVal (p ++ q) ∈ padVals
  · refine ⟨{ r with tail := 0, tailSize := 0, buf := 0, bufSize := 0 }, ?_, rfl⟩
    simp only [finalizeTail, M.bind_apply, M.get_apply, shr64, subU, shl64, if_pos c1, if_pos c2, c3, if_pos c4,
      M.pure_apply, M.modify_apply, hb, htail, htl, bitsVal_append_or, hany.mpr hmem, if_true, if_pos hmem]
  · refine ⟨{ r with tail := bitsVal (p ++ q), tailSize := r.tailSize + q.length, buf := 0, bufSize := 0 }, ?_, rfl⟩
    simp only [finalizeTail, M.bind_apply, M.get_apply, shr64, subU, shl64, if_pos c1, if_pos c2, c3, if_pos c4,
      M.pure_apply, M.modify_apply, hb, htail, htl, bitsVal_append_or, M.ite_apply, hany, if_neg hmem,
      M.throw_apply]

/-- Outcome of `finalize`: the unread bits are parsed to the end and the rest is judged by its value. -/
theorem finalize_spec {s : Nat} {tbl : List (List Cell)} {path : Nat → List Bool} (ht : TableOk s tbl path)
    (htbl : tableOf s = tbl) (hs1 : 1 ≤ s) (hs : s ≤ 5) {d0 : Bytes} {r : Reader} {o : Bytes}
    {p q : List Bool} (h : RInv s tbl path d0 r o p q) (hq : q.length < s) :
    (∃ r' o' t, finalize r = (if bitsVal t ∈ padVals then .ok () else .err .InvalidInput, r') ∧
        r'.dst = d0 ++ o' ∧ codesOf o ++ p ++ q = codesOf o' ++ t ∧ NoCode t) ∨
    (∃ r' o' q', finalize r = (.err .InvalidInput, r') ∧ r'.dst = d0 ++ o' ∧
        codesOf o ++ p ++ q = codesOf o' ++ code 256 ++ q') := by
  obtain ⟨h1, h2, h3, h4, h5, h6, h7⟩ := h
  have hpn : NoCode p := by rw [← h3]; exact ht.internal _ h2
  have hp : p.length ≤ 30 := Nat.le_of_lt hpn.length_lt
  by_cases hq0 : q = []
  · subst hq0
    left
    simp only [bitsVal_nil, List.length_nil] at h4 h5
    obtain ⟨r', hr', hd⟩ := finalizeTail_spec 0 r p [] (by simpa using h4) (by simpa using h5) h6 (by omega) (by simp) hp
    refine ⟨r', o, p, ?_, by rw [hd, h7], by simp, hpn⟩
    have c1 : (0 + s - 1) / s * s = 0 := by
      rw [Nat.div_eq_of_lt (by omega), Nat.zero_mul]
    have c2 : ¬ (0 ≥ s) := by omega
    have hr0 : ({ r with buf := 0, bufSize := 0 } : Reader) = r := by
      cases r; simp only at h4 h5; subst h4; subst h5; rfl
    have hX : finalizeChar 0 r = (.ok (), r) := by
      simp only [finalizeChar, M.bind_apply, M.get_apply, h1, h5, c2, if_false, M.pure_apply]
    have hm : finalize r = (finalizeChar 0 >>= fun _ => finalizeTail 0) r := by
      conv => rhs; rw [← hr0]
      simp only [finalize, M.bind_apply, M.get_apply, subU, h5, h1, c1, Nat.le_refl, if_true, M.pure_apply, shl64,
        h4, Nat.sub_zero, Nat.zero_lt_succ, M.modify_apply, Nat.zero_mul, Nat.zero_mod, Nat.add_zero]
    rw [hm, M.bind_apply, hX]
    simpa using hr'
  · have hqpos : 0 < q.length := List.length_pos_iff.mpr hq0
    let k := s - q.length
    have c1 : (q.length + s - 1) / s * s = s := by
      have : (q.length + s - 1) / s = 1 := by
        rw [Nat.div_eq_iff (by omega)]; omega
      rw [this, Nat.one_mul]
    have c2 : q.length ≤ s := by omega
    have c3 : s - q.length < 64 := by omega
    let K := q ++ List.replicate k false
    have hKlen : K.length = s := by simp [K, k]; omega
    have hz := zeros_val k
    have hKv : bitsVal q * 2 ^ k % 2 ^ 64 = bitsVal K := by
      have : bitsVal K = bitsVal q * 2 ^ k := by simp [K, bitsVal_append, hz]
      rw [← this, Nat.mod_eq_of_lt]
      exact Nat.lt_of_lt_of_le (bitsVal_lt K) (pow64 (by omega))
    let r1 : Reader := { r with buf := bitsVal K, bufSize := K.length }
    have hsz1 : q.length + k = K.length := by simp [K]
    have c4 : K.length ≥ s := by omega
    have hmain : finalize r = (finalizeChar k >>= fun _ => finalizeTail k) r1 := by
      have c3' : k < 64 := c3
      simp only [finalize, M.bind_apply, M.get_apply, subU, h5, h1, c1, if_pos c2, M.pure_apply, shl64]
      rw [show s - q.length = k from rfl]
      simp only [if_pos c3', h4, hKv, M.modify_apply, h1, h5, hsz1, M.pure_apply, r1]
    have hchar : ∀ ni as l, lookup tbl r.id (bitsVal K) = some (ni, as, l) →
        finalizeChar k r1 = if k ≤ l then decodeNext r1 else (.ok (), r1) := by
      intro ni as l hlook
      have c4' : r1.bufSize ≥ r1.speed := by simp only [r1, h1]; exact c4
      have hft : findTarget r1.speed r1.id r1.buf = .ok (ni, as, l) := by
        simp only [findTarget, r1, h1, htbl, hlook]
      simp only [finalizeChar, M.bind_apply, M.get_apply, if_pos c4', hft, M.ite_apply, M.pure_apply]
    rcases ht.cell r.id h2 K hKlen with ⟨n, hlook, hn, hpath⟩ | ⟨a, l, hlook, ha, hl, hpath⟩
    · left
      have hX := hchar _ _ _ hlook
      rw [if_neg (by simp [k]; omega)] at hX
      obtain ⟨r', hr', hd⟩ := finalizeTail_spec k r1 p q rfl (by simp [r1, hsz1]) h6 (by omega) (by omega) hp
      refine ⟨r', o, p ++ q, ?_, by rw [hd]; exact h7, by simp, ?_⟩
      · rw [hmain, M.bind_apply, hX]; exact hr'
      · intro a ha hpre
        refine ht.internal n hn a ha ?_
        rw [hpath, h3]
        exact hpre.trans ⟨List.replicate k false, by simp [K]⟩
    · rw [h3] at hpath
      by_cases hkl : k ≤ l
      · have hX := hchar _ _ _ hlook
        rw [if_pos hkl] at hX
        have hKt : K.take s = K := List.take_of_length_le (by omega)
        have hr1s : r1.speed = s := h1
        have harith := decodeNext_arith r1 p K none (some a) l rfl rfl h6 (by omega) (by omega) (by omega)
          (by omega) hp (by rw [hr1s, htbl, hKt]; exact hlook)
        rw [hr1s] at harith
        have hsl : s - l ≤ q.length := by omega
        have hKtake : K.take (s - l) = q.take (s - l) := List.take_append_of_le_length hsl
        have hKdrop : K.drop (s - l) = q.drop (s - l) ++ List.replicate k false := List.drop_append_of_le_length hsl
        have hsplit : p ++ q = code a ++ q.drop (s - l) := by
          rw [← hpath, hKtake, List.append_assoc, List.take_append_drop]
        by_cases ha' : a < 256
        · left
          have hau : (UInt8.ofNat a).toNat = a := UInt8.toNat_ofNat_of_lt' ha'
          let r2 : Reader := { r1 with speed := s, buf := bitsVal (K.drop (s - l)), bufSize := (K.drop (s - l)).length, tail := 0,
                                       tailSize := 0, id := 0, dst := r.dst ++ [UInt8.ofNat a] }
          have hdn : decodeNext r1 = (.ok (), r2) := by
            rw [harith]; simp [dispatch, M.bind_apply, ha', r2, r1]
          obtain ⟨r', hr', hd⟩ := finalizeTail_spec k r2 [] (q.drop (s - l)) (by simp [r2, hKdrop])
            (by simp [r2, hKdrop]) (by simp [r2]) (by omega) (by simp; omega) (by simp)
          refine ⟨r', o ++ [UInt8.ofNat a], q.drop (s - l), ?_, ?_, ?_, ?_⟩
          · rw [hmain, M.bind_apply, hX, hdn]; simpa using hr'
          · rw [hd]; simp [r2, h7]
          · rw [List.append_assoc, hsplit, codesOf_append]; simp [hau]
          · apply noCode_of_short; simp; omega
        · right
          have ha256 : a = 256 := by omega
          subst ha256
          refine ⟨{ r1 with speed := s, buf := bitsVal (K.drop (s - l)), bufSize := (K.drop (s - l)).length,
                            tail := 0, tailSize := 0, id := 0 }, o, q.drop (s - l), ?_, h7, ?_⟩
          · rw [hmain, M.bind_apply, hX, harith]; rfl
          · rw [List.append_assoc, hsplit, List.append_assoc]
      · left
        have hX := hchar _ _ _ hlook
        rw [if_neg hkl] at hX
        obtain ⟨r', hr', hd⟩ := finalizeTail_spec k r1 p q rfl (by simp [r1, hsz1]) h6 (by omega) (by omega) hp
        refine ⟨r', o, p ++ q, ?_, by rw [hd]; exact h7, by simp, ?_⟩
        · rw [hmain, M.bind_apply, hX]; exact hr'
        · intro b hb hpre
          have hqlt : q.length < s - l := by omega
          have hKtake : K.take (s - l) = q ++ (List.replicate k false).take (s - l - q.length) := by
            simp only [K, List.take_append]
            rw [List.take_of_length_le (by omega)]
          have hpc : IsPrefix (p ++ q) (code a) := ⟨_, by rw [← hpath, hKtake, ← List.append_assoc]⟩
          have hba := code_prefix_free hb ha (hpre.trans hpc)
          subst hba
          have hl1 := hpre.length_le
          have hl2 := congrArg List.length hpath
          simp only [List.length_append, List.length_take, hKlen] at hl1 hl2
          omega

/-- The decoder is the greedy bit-level parse, whatever the speed. -/
theorem decode_spec (src dst : Bytes) (sp : Speed) :
    ∃ o, (∃ t, decode src dst sp = (if bitsVal t ∈ padVals then .ok () else .err .InvalidInput, dst ++ o) ∧
            bytesBits src = codesOf o ++ t ∧ NoCode t) ∨
         (∃ t, decode src dst sp = (.err .InvalidInput, dst ++ o) ∧ bytesBits src = codesOf o ++ code 256 ++ t) := by
  obtain ⟨path, ht⟩ := speed_tableOk sp
  have hs1 : 1 ≤ sp.toNat := by cases sp <;> simp [Speed.toNat]
  have hs : sp.toNat ≤ 5 := by cases sp <;> simp [Speed.toNat]
  have h0 : RInv sp.toNat (tableOf sp.toNat) path dst (Reader.new sp.toNat dst) [] [] [] :=
    ⟨rfl, ht.rows, ht.path0, rfl, rfl, rfl, by simp [Reader.new]⟩
  rcases readLoop_spec ht rfl hs1 hs src h0 (by simp only [List.length_nil]; omega) with
    ⟨r1, o1, p1, q1, he1, hinv1, hl1, hb1⟩ | ⟨r1, o1, q1, he1, hd1, hb1⟩
  · simp only [codesOf_nil, List.nil_append] at hb1
    rcases finalize_spec ht rfl hs1 hs hinv1 hl1 with ⟨r2, o2, t, he2, hd2, hb2, hn⟩ | ⟨r2, o2, t, he2, hd2, hb2⟩
    · refine ⟨o2, .inl ⟨t, ?_, hb1.trans hb2, hn⟩⟩
      simp only [decode, M.bind_apply, he1, he2, hd2]
    · refine ⟨o2, .inr ⟨t, ?_, hb1.trans hb2⟩⟩
      simp only [decode, M.bind_apply, he1, he2, hd2]
  · refine ⟨o1, .inr ⟨q1, ?_, by simpa using hb1⟩⟩
    simp only [decode, M.bind_apply, he1, hd1]

end Verif.Huffman
