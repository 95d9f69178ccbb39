import Verif.Huffman.Encoder
import Verif.Lemmas.HuffCode
/-! The Huffman encoder writes the concatenated codes padded with ones. -/
namespace Verif.Huffman
open Verif.Spec

/-- The accumulator holds the bits `p` not yet written. -/
def Pending (s : EncState) (p : List Bool) : Prop :=
  s.bitsLeft + p.length = 40 ∧ s.bits.toNat % 2 ^ 40 = bitsVal p * 2 ^ s.bitsLeft

theorem topByte (x : UInt64) : ((x >>> 32).toUInt8).toNat = x.toNat % 2 ^ 40 / 2 ^ 32 := by
  have : (x >>> 32).toNat = x.toNat / 2 ^ 32 := by
    rw [UInt64.toNat_shiftRight]; simp [Nat.shiftRight_eq_div_pow]
  rw [UInt64.toNat_toUInt8, this]
  omega

theorem shl8 (x : UInt64) : (x <<< 8).toNat % 2 ^ 40 = x.toNat % 2 ^ 32 * 2 ^ 8 := by
  have : (x <<< 8).toNat = x.toNat * 2 ^ 8 % 2 ^ 64 := by
    rw [UInt64.toNat_shiftLeft]; simp [Nat.shiftLeft_eq]
  rw [this]; omega

theorem shlN (c k : Nat) (hk : k < 64) (hc : c * 2 ^ k < 2 ^ 64) :
    (UInt64.ofNat c <<< UInt64.ofNat k).toNat = c * 2 ^ k := by
  have hc' : c < 2 ^ 64 := Nat.lt_of_le_of_lt (Nat.le_mul_of_pos_right _ (Nat.two_pow_pos k)) hc
  have h1 : (UInt64.ofNat c).toNat = c := UInt64.toNat_ofNat_of_lt' hc'
  have h2 : (UInt64.ofNat k).toNat = k := UInt64.toNat_ofNat_of_lt' (by show k < 2 ^ 64; omega)
  rw [UInt64.toNat_shiftLeft, h1, h2, Nat.mod_eq_of_lt hk, Nat.shiftLeft_eq, Nat.mod_eq_of_lt hc]

theorem or_disjoint {a i y : Nat} (hy : y < 2 ^ i) : a * 2 ^ i ||| y = a * 2 ^ i + y := by
  rw [Nat.mul_comm]; exact (Nat.two_pow_add_eq_or_of_lt hy a).symm

/-- Adding `q` to the accumulator. -/
theorem or_pending {x : UInt64} {bl : Nat} {p q : List Bool} {y : UInt64} {k : Nat}
    (hx : x.toNat % 2 ^ 40 = bitsVal p * 2 ^ bl) (hbl : bl ≤ 40) (hk : bl = q.length + k)
    (hy : y.toNat = bitsVal q * 2 ^ k) :
    (x ||| y).toNat % 2 ^ 40 = bitsVal (p ++ q) * 2 ^ k := by
  have hlt : bitsVal q * 2 ^ k < 2 ^ bl := by
    rw [hk, Nat.pow_add]; exact Nat.mul_lt_mul_of_pos_right (bitsVal_lt q) (Nat.two_pow_pos k)
  have hlt' : bitsVal q * 2 ^ k < 2 ^ 40 := Nat.lt_of_lt_of_le hlt (Nat.pow_le_pow_right (by omega) hbl)
  rw [UInt64.toNat_or, Nat.or_mod_two_pow, hx, hy, Nat.mod_eq_of_lt hlt', or_disjoint hlt, bitsVal_append, hk,
    Nat.pow_add, Nat.add_mul, Nat.mul_assoc]

theorem flush_spec (fuel : Nat) (s : EncState) (p : List Bool) (hp : Pending s p)
    (hl : p.length < 8 * (fuel + 1)) :
    ∃ s' q p', flush fuel s = (.ok (), s') ∧ s'.dst = s.dst ++ q ∧ bytesBits q ++ p' = p ∧ p'.length < 8 ∧
      Pending s' p' := by
  induction fuel generalizing s p with
  | zero =>
    obtain ⟨h1, h2⟩ := hp
    refine ⟨s, [], p, ?_, by simp, rfl, by omega, h1, h2⟩
    simp [flush, M.bind_apply]; omega
  | succ fuel ih =>
    by_cases hb : s.bitsLeft ≤ 32
    · obtain ⟨h1, h2⟩ := hp
      have hlen : 8 ≤ p.length := by omega
      let s1 : EncState := { s with dst := s.dst ++ [(s.bits >>> 32).toUInt8], bits := s.bits <<< 8,
                                    bitsLeft := s.bitsLeft + 8 }
      have hsplit : p = p.take 8 ++ p.drop 8 := (List.take_append_drop _ _).symm
      have ht : (p.take 8).length = 8 := by simp; omega
      have hd : (p.drop 8).length + s.bitsLeft = 32 := by simp; omega
      have hval : bitsVal p * 2 ^ s.bitsLeft
          = bitsVal (p.take 8) * 2 ^ 32 + bitsVal (p.drop 8) * 2 ^ s.bitsLeft := by
        conv => lhs; rw [hsplit]
        rw [bitsVal_append, Nat.add_mul, Nat.mul_assoc, ← Nat.pow_add, hd]
      have hlow : bitsVal (p.drop 8) * 2 ^ s.bitsLeft < 2 ^ 32 := by
        rw [← hd, Nat.pow_add]; exact Nat.mul_lt_mul_of_pos_right (bitsVal_lt _) (Nat.two_pow_pos _)
      have hp1 : Pending s1 (p.drop 8) := by
        refine ⟨by simp [s1]; omega, ?_⟩
        show (s.bits <<< 8).toNat % 2 ^ 40 = bitsVal (p.drop 8) * 2 ^ (s.bitsLeft + 8)
        have : s.bits.toNat % 2 ^ 32 = s.bits.toNat % 2 ^ 40 % 2 ^ 32 := by omega
        rw [shl8, this, h2, hval, Nat.pow_add, ← Nat.mul_assoc, Nat.mul_comm (bitsVal (p.take 8)),
          Nat.mul_add_mod, Nat.mod_eq_of_lt hlow]
      obtain ⟨s', q, p', hf, hdst, hq, hp', hpend⟩ := ih s1 (p.drop 8) hp1 (by simp; omega)
      refine ⟨s', (s.bits >>> 32).toUInt8 :: q, p', ?_, ?_, ?_, hp', hpend⟩
      · simp only [flush, M.bind_apply, M.get_apply, M.ite_apply, if_pos hb, M.modify_apply]
        exact hf
      · rw [hdst]; simp [s1]
      · have hbyte : byteBits (s.bits >>> 32).toUInt8 = p.take 8 := by
          apply bitsVal_inj
          · rw [byteBits_length, ht]
          · rw [bitsVal_byteBits, topByte, h2, hval, Nat.mul_comm, Nat.mul_add_div (by omega),
              Nat.div_eq_of_lt hlow, Nat.add_zero]
        rw [bytesBits_cons, hbyte, List.append_assoc, hq, List.take_append_drop]
    · refine ⟨s, [], p, ?_, by simp, rfl, ?_, hp⟩
      · simp [flush, M.bind_apply, hb]
      · have := hp.1; omega

theorem encodeByte_spec (b : UInt8) (s : EncState) (p : List Bool) (hp : Pending s p) (hl : p.length < 8) :
    ∃ s' q p', encodeByte b s = (.ok (), s') ∧ s'.dst = s.dst ++ q ∧
      bytesBits q ++ p' = p ++ code b.toNat ∧ p'.length < 8 ∧ Pending s' p' := by
  obtain ⟨l, c, htab, hcode, hc, h5, h30⟩ := encTable_entry (UInt8.toNat_le_256 b)
  obtain ⟨h1, h2⟩ := hp
  have hle : l ≤ s.bitsLeft := by omega
  let left := s.bitsLeft - l
  let s1 : EncState := { s with bits := s.bits ||| (UInt64.ofNat c <<< UInt64.ofNat left), bitsLeft := left }
  have hleft : s.bitsLeft = (code b.toNat).length + left := by rw [hcode]; simp [left]; omega
  have hcv : bitsVal (code b.toNat) = c := by rw [hcode, bitsVal_natBits, Nat.mod_eq_of_lt hc]
  have hclt : c * 2 ^ left < 2 ^ 64 := by
    have : c * 2 ^ left < 2 ^ l * 2 ^ left := Nat.mul_lt_mul_of_pos_right hc (Nat.two_pow_pos _)
    rw [← Nat.pow_add] at this
    exact Nat.lt_of_lt_of_le this (Nat.pow_le_pow_right (by omega) (by omega))
  have hlc : (code b.toNat).length = l := by rw [hcode]; simp
  have hp1 : Pending s1 (p ++ code b.toNat) := by
    refine ⟨by simp [s1, hlc, left]; omega, ?_⟩
    exact or_pending h2 (by omega) hleft (by rw [shlN c left (by omega) hclt, hcv])
  obtain ⟨s', q, p', hf, hdst, hq, hp', hpend⟩ := flush_spec 8 s1 _ hp1 (by simp [hlc]; omega)
  refine ⟨s', q, p', ?_, ?_, hq, hp', hpend⟩
  · simp only [encodeByte, htab, M.bind_apply, M.get_apply, subU, M.ite_apply, if_pos hle, M.pure_apply]
    have : ¬ 64 ≤ s.bitsLeft - l := by omega
    simp only [this, if_false, M.modify_apply]
    exact hf
  · rw [hdst]

theorem encodeLoop_spec (src : Bytes) (s : EncState) (p : List Bool) (hp : Pending s p) (hl : p.length < 8) :
    ∃ s' q p', encodeLoop src s = (.ok (), s') ∧ s'.dst = s.dst ++ q ∧
      bytesBits q ++ p' = p ++ codesOf src ∧ p'.length < 8 ∧ Pending s' p' := by
  induction src generalizing s p with
  | nil => exact ⟨s, [], p, rfl, by simp, by simp, hl, hp⟩
  | cons b src ih =>
    obtain ⟨s1, q1, p1, he, hd1, hb1, hl1, hp1⟩ := encodeByte_spec b s p hp hl
    obtain ⟨s2, q2, p2, he2, hd2, hb2, hl2, hp2⟩ := ih s1 p1 hp1 hl1
    refine ⟨s2, q1 ++ q2, p2, ?_, ?_, ?_, hl2, hp2⟩
    · simp only [encodeLoop, M.bind_apply, he]; exact he2
    · rw [hd2, hd1, List.append_assoc]
    · rw [bytesBits_append, List.append_assoc, hb2, ← List.append_assoc, hb1, codesOf_cons, List.append_assoc]

theorem bitsVal_ones (k : Nat) : bitsVal (List.replicate k true) = 2 ^ k - 1 := by
  induction k with
  | zero => rfl
  | succ k ih =>
    rw [List.replicate_succ, bitsVal_cons, ih, List.length_replicate, Nat.pow_succ]
    simp; omega

theorem encodeFinish_spec (s : EncState) (p : List Bool) (hp : Pending s p) (hl : p.length < 8) :
    ∃ s' q k, encodeFinish s = (.ok (), s') ∧ s'.dst = s.dst ++ q ∧ k < 8 ∧
      bytesBits q = p ++ padOnes k ∧ q.length ≤ 1 := by
  obtain ⟨h1, h2⟩ := hp
  by_cases hb : s.bitsLeft = 40
  · have : p = [] := List.length_eq_zero_iff.mp (by omega)
    subst this
    exact ⟨s, [], 0, by simp [encodeFinish, M.bind_apply, hb], by simp, by omega, by simp [padOnes], by simp⟩
  · let y : UInt64 := (1 <<< UInt64.ofNat s.bitsLeft) - 1
    have hy : y.toNat = bitsVal (List.replicate s.bitsLeft true) * 2 ^ 0 := by
      have h1lt : 1 * 2 ^ s.bitsLeft < 2 ^ 64 := by
        rw [Nat.one_mul]; exact Nat.pow_lt_pow_right (by omega) (by omega)
      have hs : ((1 : UInt64) <<< UInt64.ofNat s.bitsLeft).toNat = 2 ^ s.bitsLeft := by
        have := shlN 1 s.bitsLeft (by omega) h1lt
        rw [Nat.one_mul] at this; exact this
      rw [bitsVal_ones]
      show ((1 <<< UInt64.ofNat s.bitsLeft) - 1 : UInt64).toNat = _
      rw [UInt64.toNat_sub_of_le]
      · rw [hs]; simp
      · rw [UInt64.le_iff_toNat_le, hs]; exact Nat.one_le_two_pow
    have hor := or_pending (q := List.replicate s.bitsLeft true) (k := 0) h2 (by omega) (by simp) hy
    refine ⟨{ s with bits := s.bits ||| y, dst := s.dst ++ [((s.bits ||| y) >>> 32).toUInt8] },
      [((s.bits ||| y) >>> 32).toUInt8], 8 - p.length, ?_, rfl, ?_, ?_, by simp⟩
    · have : ¬ 64 ≤ s.bitsLeft := by omega
      simp only [encodeFinish, M.bind_apply, M.get_apply, M.ite_apply, ne_eq, hb, not_false_eq_true, if_true,
        this, if_false, M.modify_apply]
      rfl
    · have : p.length ≠ 0 := by omega
      omega
    · rw [bytesBits_cons, bytesBits_nil, List.append_nil]
      apply bitsVal_inj
      · simp [padOnes]; omega
      · rw [bitsVal_byteBits, topByte, hor]
        have hrep : List.replicate s.bitsLeft true = padOnes (8 - p.length) ++ List.replicate 32 true := by
          rw [padOnes, List.replicate_append_replicate]; congr 1; omega
        rw [hrep, ← List.append_assoc, bitsVal_append _ (List.replicate 32 true), Nat.pow_zero, Nat.mul_one,
          List.length_replicate, Nat.mul_comm, Nat.mul_add_div (by omega)]
        have : bitsVal (List.replicate 32 true) / 2 ^ 32 = 0 := by
          rw [bitsVal_ones]
        omega

theorem encode_spec (src dst : Bytes) :
    ∃ q, encode src dst = (.ok (), dst ++ q) ∧ IsHuffEnc src q := by
  have hp0 : Pending { bits := 0, bitsLeft := 40, dst := dst } [] := ⟨by simp, by simp⟩
  obtain ⟨s1, q1, p1, he1, hd1, hb1, hl1, hp1⟩ := encodeLoop_spec src _ [] hp0 (by simp)
  obtain ⟨s2, q2, k, he2, hd2, hk, hb2, _⟩ := encodeFinish_spec s1 p1 hp1 hl1
  refine ⟨q1 ++ q2, ?_, k, hk, ?_⟩
  · simp only [encode, M.bind_apply, he1, he2, hd2, hd1, List.append_assoc]
  · rw [bytesBits_append, hb2, ← List.append_assoc, hb1, List.nil_append]

/-- The encoding is unique as a function of the bits: the padding length is forced by the octet boundary. -/
theorem IsHuffEnc.unique {s q q' : Bytes} (h : IsHuffEnc s q) (h' : IsHuffEnc s q') : q = q' := by
  obtain ⟨k, hk, h⟩ := h
  obtain ⟨k', hk', h'⟩ := h'
  have l1 := congrArg List.length h
  have l2 := congrArg List.length h'
  simp [padOnes] at l1 l2
  have : k = k' := by omega
  subst this
  exact bytesBits_inj (h.trans h'.symm)

end Verif.Huffman
