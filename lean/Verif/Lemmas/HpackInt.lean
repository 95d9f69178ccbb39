import Verif.Hpack.Primitives
import Verif.Spec.Hpack
/-! Integers of RFC 7541 5.1: the encoder writes and the decoder reads exactly `Spec.IntWire`. -/
namespace Verif.Hpack
open Verif.Spec

theorem forall_u8 {P : UInt8 → Prop} (h : ∀ n : Fin 256, P (UInt8.ofNat n)) (b : UInt8) : P b := by
  have := h ⟨b.toNat, b.toNat_lt⟩
  simpa using this

theorem u8_ext {a b : UInt8} (h : a.toNat = b.toNat) : a = b := UInt8.toNat_inj.mp h

theorem and128_iff : ∀ b : UInt8, (b &&& 128 = 128) ↔ 128 ≤ b.toNat :=
  forall_u8 (by decide +kernel)
theorem and128_zero_iff : ∀ b : UInt8, (b &&& 128 = 0) ↔ b.toNat < 128 :=
  forall_u8 (by decide +kernel)
theorem and127_toNat : ∀ b : UInt8, (b &&& 127).toNat = b.toNat % 128 :=
  forall_u8 (by decide +kernel)
theorem and64_iff : ∀ b : UInt8, (b &&& 64 = 64) ↔ 64 ≤ b.toNat % 128 :=
  forall_u8 (by decide +kernel)
theorem and32_iff : ∀ b : UInt8, (b &&& 32 = 32) ↔ 32 ≤ b.toNat % 64 :=
  forall_u8 (by decide +kernel)
theorem and16_iff : ∀ b : UInt8, (b &&& 16 = 16) ↔ 16 ≤ b.toNat % 32 :=
  forall_u8 (by decide +kernel)

theorem pow_le_256 {n : Nat} (hn : n ≤ 8) : 2 ^ n ≤ 256 := Nat.pow_le_pow_right (by decide) hn

theorem mask_toNat {n : Nat} (hn : n ≤ 8) : (UInt8.ofNat (2 ^ n - 1)).toNat = 2 ^ n - 1 := by
  have := pow_le_256 hn
  have := Nat.two_pow_pos n
  rw [UInt8.toNat_ofNat_of_lt']; simp [UInt8.size]; omega

theorem and_mask {n : Nat} (hn : n ≤ 8) (b : UInt8) :
    (b &&& UInt8.ofNat (2 ^ n - 1)).toNat = b.toNat % 2 ^ n := by
  rw [UInt8.toNat_and, mask_toNat hn, Nat.and_two_pow_sub_one_eq_mod]

/-- Clearing the low `n` bits. -/
theorem flags_toNat {n : Nat} (h1 : 1 ≤ n) (hn : n ≤ 8) (b : UInt8) :
    (b &&& (255 - UInt8.ofNat (2 ^ n - 1))).toNat = b.toNat - b.toNat % 2 ^ n := by
  revert b
  have : n = 1 ∨ n = 2 ∨ n = 3 ∨ n = 4 ∨ n = 5 ∨ n = 6 ∨ n = 7 ∨ n = 8 := by omega
  rcases this with rfl | rfl | rfl | rfl | rfl | rfl | rfl | rfl <;>
    exact forall_u8 (by decide +kernel)

theorem or_disjoint {n a b : Nat} (ha : a % 2 ^ n = 0) (hb : b < 2 ^ n) : a ||| b = a + b := by
  have := Nat.two_pow_add_eq_or_of_lt hb (a / 2 ^ n)
  rw [Nat.mul_div_cancel' (Nat.dvd_of_mod_eq_zero ha)] at this
  exact this.symm

/-- Splitting an octet: high part a multiple of `2^n`. -/
theorem sub_mod_mod (a n : Nat) : (a - a % 2 ^ n) % 2 ^ n = 0 := Nat.sub_mod_eq_zero_of_mod_eq (by simp)

/-! ### Continuation octets -/

theorem contVal_lt (cs : Bytes) : contVal cs < 128 ^ cs.length := by
  induction cs with
  | nil => simp [contVal]
  | cons c cs ih =>
    simp only [contVal, List.length_cons, Nat.pow_succ]
    have : c.toNat % 128 < 128 := Nat.mod_lt _ (by decide)
    omega

theorem isCont_cons {c : UInt8} {cs : Bytes} (h : cs ≠ []) : IsCont (c :: cs) ↔ 128 ≤ c.toNat ∧ IsCont cs := by
  cases cs with
  | nil => exact absurd rfl h
  | cons d ds => rfl

theorem _root_.Verif.Spec.IsCont.ne_nil {cs : Bytes} (h : IsCont cs) : cs ≠ [] := by rintro rfl; exact h

theorem _root_.Verif.Spec.IsCont.pos {cs : Bytes} (h : IsCont cs) : 1 ≤ cs.length := by
  cases cs with
  | nil => exact absurd rfl h.ne_nil
  | cons => simp

/-- The continuation octets at the front of a buffer are determined. -/
theorem isCont_prefix_unique {cs ds r r' : Bytes} (hc : IsCont cs) (hd : IsCont ds) (h : cs ++ r = ds ++ r') :
    cs = ds ∧ r = r' := by
  induction cs generalizing ds with
  | nil => exact hc.elim
  | cons c cs ih =>
    cases ds with
    | nil => exact hd.elim
    | cons d ds =>
      simp only [List.cons_append, List.cons.injEq] at h
      obtain ⟨rfl, h⟩ := h
      cases cs with
      | nil =>
        cases ds with
        | nil => simp_all
        | cons e es =>
          have h1 : c.toNat < 128 := hc
          have h2 := hd.1
          omega
      | cons e es =>
        cases ds with
        | nil =>
          have h1 : c.toNat < 128 := hd
          have h2 := hc.1
          omega
        | cons f fs =>
          obtain ⟨h3, h4⟩ := ih hc.2 hd.2 h
          exact ⟨by rw [h3], h4⟩

/-- Either the buffer starts with at most `k` continuation octets, or its first `k` octets all have the top bit set,
or it ends before that. -/
theorem cont_trichotomy (k : Nat) (l : Bytes) :
    (∃ cs r, l = cs ++ r ∧ IsCont cs ∧ cs.length ≤ k) ∨
    (k ≤ l.length ∧ ∀ c ∈ l.take k, 128 ≤ c.toNat) ∨
    (l.length < k ∧ ∀ c ∈ l, 128 ≤ c.toNat) := by
  induction k generalizing l with
  | zero => right; left; simp
  | succ k ih =>
    cases l with
    | nil => right; right; simp
    | cons c l =>
      by_cases hc : c.toNat < 128
      · left; exact ⟨[c], l, rfl, hc, by simp⟩
      · rcases ih l with ⟨cs, r, rfl, h1, h2⟩ | ⟨h1, h2⟩ | ⟨h1, h2⟩
        · left
          exact ⟨c :: cs, r, rfl, (isCont_cons h1.ne_nil).mpr ⟨by omega, h1⟩, by simpa using h2⟩
        · right; left
          refine ⟨by simpa using h1, ?_⟩
          intro d hd
          simp only [List.take_succ_cons, List.mem_cons] at hd
          rcases hd with rfl | hd
          · omega
          · exact h2 d hd
        · right; right
          refine ⟨by simpa using h1, ?_⟩
          intro d hd
          simp only [List.mem_cons] at hd
          rcases hd with rfl | hd
          · omega
          · exact h2 d hd

theorem contBytes_spec (fuel v : Nat) (h : v < 128 ^ (fuel + 1)) :
    IsCont (contBytes fuel v) ∧ contVal (contBytes fuel v) = v ∧
    (∀ k, 1 ≤ k → ((contBytes fuel v).length ≤ k ↔ v < 128 ^ k)) := by
  induction fuel generalizing v with
  | zero =>
    simp only [Nat.zero_add, Nat.pow_one] at h
    have hv : (UInt8.ofNat v).toNat = v := UInt8.toNat_ofNat_of_lt' (by simp [UInt8.size]; omega)
    refine ⟨?_, ?_, ?_⟩
    · simp only [contBytes, IsCont, hv]; exact h
    · simp only [contBytes, contVal, hv]; omega
    · intro k hk
      have : 128 ^ 1 ≤ 128 ^ k := Nat.pow_le_pow_right (by decide) hk
      simp only [contBytes, List.length_singleton]
      omega
  | succ fuel ih =>
    by_cases hv : v ≥ 128
    · have hlt : v / 128 < 128 ^ (fuel + 1) := by
        rw [Nat.div_lt_iff_lt_mul (by decide), ← Nat.pow_succ]; exact h
      obtain ⟨h1, h2, h3⟩ := ih _ hlt
      have hb : (128 ||| UInt8.ofNat v : UInt8).toNat = 128 + v % 128 := by
        have hall : ∀ b : UInt8, (128 ||| b).toNat = 128 + b.toNat % 128 := forall_u8 (by decide +kernel)
        rw [hall]
        simp only [UInt8.toNat_ofNat']
        omega
      simp only [contBytes, if_pos hv]
      refine ⟨?_, ?_, ?_⟩
      · rw [isCont_cons h1.ne_nil, hb]; exact ⟨by omega, h1⟩
      · simp only [contVal, h2, hb]; omega
      · intro k hk
        have hp := h1.pos
        simp only [List.length_cons]
        rcases Nat.lt_or_ge 1 k with hk1 | hk1
        · have := h3 (k - 1) (by omega)
          obtain ⟨j, rfl⟩ : ∃ j, k = j + 1 := ⟨k - 1, by omega⟩
          simp only [Nat.add_sub_cancel] at this
          rw [Nat.add_le_add_iff_right, this, Nat.pow_succ, Nat.div_lt_iff_lt_mul (by decide)]
        · obtain rfl : k = 1 := by omega
          simp only [Nat.pow_one]
          omega
    · have hv' : (UInt8.ofNat v).toNat = v := UInt8.toNat_ofNat_of_lt' (by simp [UInt8.size]; omega)
      simp only [contBytes, if_neg hv]
      refine ⟨by simp only [IsCont, hv']; omega, by simp only [contVal, hv']; omega, ?_⟩
      intro k hk
      have : 128 ^ 1 ≤ 128 ^ k := Nat.pow_le_pow_right (by decide) hk
      simp only [List.length_singleton]
      omega

/-! ### The encoder -/

/-- High bits of the first octet written. -/
def hiBits (n : Nat) (flags : UInt8) : Nat := flags.toNat - flags.toNat % 2 ^ n

theorem hiBits_mod (n : Nat) (f : UInt8) : hiBits n f % 2 ^ n = 0 := sub_mod_mod _ _

theorem hiBits_add_lt {n : Nat} (hn : n ≤ 8) (f : UInt8) {v : Nat} (hv : v < 2 ^ n) : hiBits n f + v < 256 := by
  have h1 := hiBits_mod n f
  have h2 : hiBits n f < 256 := Nat.lt_of_le_of_lt (Nat.sub_le _ _) f.toNat_lt
  have h3 : 256 = 2 ^ n * 2 ^ (8 - n) := by rw [← Nat.pow_add, show n + (8 - n) = 8 by omega]
  have h4 : hiBits n f = 2 ^ n * (hiBits n f / 2 ^ n) := (Nat.mul_div_cancel' (Nat.dvd_of_mod_eq_zero h1)).symm
  have h5 : hiBits n f / 2 ^ n < 2 ^ (8 - n) := by
    rw [Nat.div_lt_iff_lt_mul (Nat.two_pow_pos n), Nat.mul_comm, ← h3]; exact h2
  have h6 : 2 ^ n * (hiBits n f / 2 ^ n + 1) ≤ 2 ^ n * 2 ^ (8 - n) := Nat.mul_le_mul_left _ h5
  rw [Nat.mul_add, ← h4, ← h3] at h6
  omega

theorem ofNat_or {n : Nat} (h1 : 1 ≤ n) (hn : n ≤ 8) (f : UInt8) {v : Nat} (hv : v < 2 ^ n) :
    ((f &&& (255 - UInt8.ofNat (2 ^ n - 1))) ||| UInt8.ofNat v) = UInt8.ofNat (hiBits n f + v) := by
  have h3 := hiBits_add_lt hn f hv
  have hvv : (UInt8.ofNat v).toNat = v := UInt8.toNat_ofNat_of_lt' (by simp [UInt8.size]; omega)
  apply u8_ext
  rw [UInt8.toNat_or, flags_toNat h1 hn, hvv, UInt8.toNat_ofNat_of_lt' (by simp [UInt8.size]; omega)]
  exact or_disjoint (sub_mod_mod _ _) hv

/-- The encoder writes a representation of the value with the flag bits above the prefix; it has at most `k + 1`
octets exactly when the value is below `2^n - 1 + 128^k`. -/
theorem encodeInteger_spec (v : UInt32) (f : UInt8) (n : Nat) (h1 : 1 ≤ n) (hn : n ≤ 8) :
    ∃ bs, encodeInteger v f n = .ok bs ∧ IntWire n (hiBits n f) v.toNat bs ∧
      (∀ k, 1 ≤ k → (bs.length ≤ k + 1 ↔ v.toNat < 2 ^ n - 1 + 128 ^ k)) := by
  have hm := mask_toNat hn
  have hp := Nat.two_pow_pos n
  unfold encodeInteger
  rw [if_neg (by omega)]
  simp only [hm]
  by_cases hv : v.toNat < 2 ^ n - 1
  · rw [if_pos hv]
    refine ⟨_, rfl, Or.inl ⟨hv, ?_⟩, ?_⟩
    · rw [ofNat_or h1 hn f (by omega)]
    · intro k _
      have : 0 < 128 ^ k := Nat.pow_pos (by decide)
      simp only [List.length_singleton]
      omega
  · rw [if_neg hv]
    have hlt : v.toNat - (2 ^ n - 1) < 128 ^ (5 + 1) := by
      have := v.toNat_lt
      have : (128 : Nat) ^ (5 + 1) = 2 ^ 42 := by decide
      omega
    obtain ⟨c1, c2, c3⟩ := contBytes_spec 5 _ hlt
    refine ⟨_, rfl, Or.inr ⟨_, c1, ?_, ?_⟩, ?_⟩
    · rw [c2]; omega
    · rw [ofNat_or h1 hn f (by omega)]
    · intro k hk
      simp only [List.length_cons, Nat.add_le_add_iff_right]
      rw [c3 k hk]
      omega

/-! ### The decoder -/

theorem decodeIntegerLoop_ok (buf cs r : Bytes) (fuel total value : Nat) (hc : IsCont cs)
    (hb : buf.drop total = cs ++ r) (ht : 1 ≤ total) (hl : total + cs.length ≤ 5) (hf : 6 ≤ fuel + total)
    (hv : value < 256 + 128 ^ (total - 1)) :
    decodeIntegerLoop buf fuel total (7 * (total - 1)) value =
      .ok (value + contVal cs * 128 ^ (total - 1), total + cs.length) := by
  induction cs generalizing fuel total value with
  | nil => exact hc.elim
  | cons c cs ih =>
    obtain ⟨fuel, rfl⟩ : ∃ g, fuel = g + 1 := ⟨fuel - 1, by simp at hl; omega⟩
    have hget : buf[total]? = some c := by
      have := congrArg (fun l => l[0]?) hb
      simpa using this
    have hne : buf.isEmpty = false := by
      cases buf with
      | nil => simp at hget
      | cons => rfl
    have hsh : ¬ 32 ≤ 7 * (total - 1) := by simp at hl; omega
    have hpow : 2 ^ (7 * (total - 1)) = 128 ^ (total - 1) := by rw [Nat.pow_mul]
    have hp4 : 128 ^ (total - 1) ≤ 128 ^ 3 := Nat.pow_le_pow_right (by decide) (by simp at hl; omega)
    have hc127 : c.toNat % 128 * 128 ^ (total - 1) ≤ 127 * 128 ^ (total - 1) :=
      Nat.mul_le_mul_right _ (by omega)
    have hmod : c.toNat % 128 * 2 ^ (7 * (total - 1)) % 2 ^ 32 = c.toNat % 128 * 128 ^ (total - 1) := by
      rw [hpow, Nat.mod_eq_of_lt]; omega
    unfold decodeIntegerLoop
    simp only [hne, hget, and127_toNat, hmod, if_neg hsh]
    rw [if_neg (by simp), if_neg (by omega)]
    cases cs with
    | nil =>
      have hlt : c.toNat < 128 := hc
      rw [if_pos ((and128_zero_iff c).mpr hlt)]
      simp [contVal]
    | cons d ds =>
      have hge := hc.1
      simp only [List.length_cons] at hl
      rw [if_neg (by rw [and128_zero_iff]; omega), if_neg (by omega)]
      have hdrop : buf.drop (total + 1) = d :: ds ++ r := by
        rw [← List.drop_drop, hb]; simp
      have := ih fuel (total + 1) (value + c.toNat % 128 * 128 ^ (total - 1)) hc.2 hdrop (by omega)
        (by simp only [List.length_cons]; omega) (by omega)
        (by
          rw [show total + 1 - 1 = (total - 1) + 1 by omega, Nat.pow_succ]
          omega)
      rw [show 7 * (total - 1) + 7 = 7 * (total + 1 - 1) by omega, this]
      rw [show total + 1 - 1 = (total - 1) + 1 by omega, Nat.pow_succ]
      simp only [contVal, List.length_cons, Nat.add_mul]
      congr 2
      · rw [Nat.add_assoc]
        congr 2
        simp only [Nat.mul_comm, Nat.mul_left_comm, Nat.mul_assoc, Nat.mul_add]
      · omega

/-- Reading through octets with the top bit set: overflow at five octets, an index out of bounds at the end. -/
theorem decodeIntegerLoop_bad (buf : Bytes) (fuel total value : Nat) (ht : 1 ≤ total) (ht4 : total ≤ 4)
    (hf : 6 ≤ fuel + total) (hv : value < 256 + 128 ^ (total - 1)) (hb : buf ≠ [])
    (h : ∀ c ∈ (buf.drop total).take (5 - total), 128 ≤ c.toNat) :
    decodeIntegerLoop buf fuel total (7 * (total - 1)) value =
      if 5 ≤ buf.length then .err .IntegerOverflow else .panic := by
  have hne : buf.isEmpty = false := by simpa using hb
  induction fuel generalizing total value with
  | zero => omega
  | succ fuel ih =>
    unfold decodeIntegerLoop
    simp only [hne]
    cases hget : buf[total]? with
    | none =>
      have : buf.length ≤ total := by simpa using hget
      rw [if_neg (by simp), if_neg (by omega)]
    | some c =>
      have hlen : total < buf.length := by
        rcases Nat.lt_or_ge total buf.length with h | h
        · exact h
        · rw [List.getElem?_eq_none h] at hget; simp at hget
      have hmem : c ∈ (buf.drop total).take (5 - total) := by
        obtain ⟨j, hj⟩ : ∃ j, 5 - total = j + 1 := ⟨4 - total, by omega⟩
        have : buf.drop total = c :: buf.drop (total + 1) := by
          rw [List.drop_eq_getElem_cons hlen]
          congr 1
          rw [List.getElem?_eq_getElem hlen] at hget; simpa using hget
        rw [this, hj]; simp
      have hge := h c hmem
      have hsh : ¬ 32 ≤ 7 * (total - 1) := by omega
      have hpow : 2 ^ (7 * (total - 1)) = 128 ^ (total - 1) := by rw [Nat.pow_mul]
      have hp4 : 128 ^ (total - 1) ≤ 128 ^ 3 := Nat.pow_le_pow_right (by decide) (by omega)
      have hc127 : c.toNat % 128 * 128 ^ (total - 1) ≤ 127 * 128 ^ (total - 1) :=
        Nat.mul_le_mul_right _ (by omega)
      have hmod : c.toNat % 128 * 2 ^ (7 * (total - 1)) % 2 ^ 32 = c.toNat % 128 * 128 ^ (total - 1) := by
        rw [hpow, Nat.mod_eq_of_lt]; omega
      simp only [and127_toNat, hmod, if_neg hsh]
      rw [if_neg (by simp), if_neg (by omega), if_neg (by rw [and128_zero_iff]; omega)]
      by_cases h5 : total + 1 = 5
      · rw [if_pos h5, if_pos (by omega)]
      · rw [if_neg h5, show 7 * (total - 1) + 7 = 7 * (total + 1 - 1) by omega]
        apply ih (total + 1) _ (by omega) (by omega) (by omega)
        · rw [show total + 1 - 1 = (total - 1) + 1 by omega, Nat.pow_succ]
          omega
        · intro d hd
          apply h
          obtain ⟨j, hj⟩ : ∃ j, 5 - total = j + 1 := ⟨4 - total, by omega⟩
          rw [show 5 - (total + 1) = j by omega] at hd
          rw [hj, List.drop_eq_getElem_cons hlen]
          exact List.mem_cons_of_mem _ hd

/-- Completeness: the decoder reads any representation of at most five octets, whatever follows. -/
theorem decodeInteger_complete {n hi v : Nat} {bs : Bytes} (rest : Bytes) (h1 : 1 ≤ n) (hn : n ≤ 8)
    (hhi : hi % 2 ^ n = 0) (hhl : hi < 256) (h : IntWireLim 5 n hi v bs) :
    decodeInteger (bs ++ rest) n = .ok (v, bs.length) := by
  have hm := mask_toNat hn
  have hp := Nat.two_pow_pos n
  have hadd : ∀ w, w < 2 ^ n → (UInt8.ofNat (hi + w)).toNat = hi + w := by
    intro w hw
    have := hiBits_add_lt hn (UInt8.ofNat hi) hw
    have e : (UInt8.ofNat hi).toNat = hi := UInt8.toNat_ofNat_of_lt' (by simp [UInt8.size]; omega)
    rw [hiBits, e, hhi] at this
    exact UInt8.toNat_ofNat_of_lt' (by simp [UInt8.size]; omega)
  have hmod : ∀ w, w < 2 ^ n → (hi + w) % 2 ^ n = w := by
    intro w hw; rw [Nat.add_mod, hhi, Nat.zero_add, Nat.mod_mod, Nat.mod_eq_of_lt hw]
  unfold decodeInteger
  rw [if_neg (by omega)]
  obtain ⟨⟨hv, rfl⟩ | ⟨cs, hc, rfl, rfl⟩, hl⟩ := h
  · simp only [List.cons_append, List.nil_append, and_mask hn, hm]
    rw [hadd v (by omega), hmod v (by omega), if_pos hv]
    rfl
  · simp only [List.cons_append, and_mask hn, hm]
    rw [hadd _ (by omega), hmod _ (by omega), if_neg (by omega)]
    simp only [List.length_cons] at hl
    have h2 := pow_le_256 hn
    have := decodeIntegerLoop_ok (UInt8.ofNat (hi + (2 ^ n - 1)) :: (cs ++ rest)) cs rest 5 1 (2 ^ n - 1) hc (by simp) (by omega) (by omega)
      (by omega) (by simp only [Nat.sub_self, Nat.pow_zero]; omega)
    simp only [Nat.sub_self, Nat.mul_zero, Nat.pow_zero, Nat.mul_one] at this
    rw [this]
    simp [Nat.add_comm]

/-- The five ways `decodeInteger` can end on a non-empty buffer, decided by the octets. -/
theorem decodeInteger_cases (buf : Bytes) (n : Nat) (h1 : 1 ≤ n) (hn : n ≤ 8) :
    (buf = [] ∧ decodeInteger buf n = .err .IntegerUnderflow) ∨
    (∃ b0 tl, buf = b0 :: tl ∧
      ((∃ v bs rest, buf = bs ++ rest ∧ IntWireLim 5 n (hiBits n b0) v bs ∧
          decodeInteger buf n = .ok (v, bs.length)) ∨
       (b0.toNat % 2 ^ n = 2 ^ n - 1 ∧ 4 ≤ tl.length ∧ (∀ c ∈ tl.take 4, 128 ≤ c.toNat) ∧
          decodeInteger buf n = .err .IntegerOverflow) ∨
       (b0.toNat % 2 ^ n = 2 ^ n - 1 ∧ tl.length < 4 ∧ (∀ c ∈ tl, 128 ≤ c.toNat) ∧
          decodeInteger buf n = .panic))) := by
  have hm := mask_toNat hn
  have hp := Nat.two_pow_pos n
  cases buf with
  | nil => left; simp [decodeInteger]; omega
  | cons b0 tl =>
    right
    refine ⟨b0, tl, rfl, ?_⟩
    have hb0 : b0.toNat = hiBits n b0 + b0.toNat % 2 ^ n := by
      have := Nat.mod_le b0.toNat (2 ^ n)
      unfold hiBits; omega
    have hofb : UInt8.ofNat (hiBits n b0 + b0.toNat % 2 ^ n) = b0 := by rw [← hb0]; simp
    have hlt := Nat.mod_lt b0.toNat hp
    have hhl : hiBits n b0 < 256 := Nat.lt_of_le_of_lt (Nat.sub_le _ _) b0.toNat_lt
    by_cases hv : b0.toNat % 2 ^ n < 2 ^ n - 1
    · left
      have hw : IntWireLim 5 n (hiBits n b0) (b0.toNat % 2 ^ n) [b0] := ⟨Or.inl ⟨hv, by rw [hofb]⟩, by simp⟩
      exact ⟨_, [b0], tl, rfl, hw, decodeInteger_complete tl h1 hn (hiBits_mod n b0) hhl hw⟩
    · have hv' : b0.toNat % 2 ^ n = 2 ^ n - 1 := by omega
      have h2 := pow_le_256 hn
      have hbad : (∀ c ∈ tl.take 4, 128 ≤ c.toNat) → decodeInteger (b0 :: tl) n = if 4 ≤ tl.length then .err .IntegerOverflow else .panic := by
        intro hall
        unfold decodeInteger
        rw [if_neg (by omega)]
        simp only [and_mask hn, hm]
        rw [if_neg hv]
        have := decodeIntegerLoop_bad (b0 :: tl) 5 1 (b0.toNat % 2 ^ n) (by omega) (by omega) (by omega)
          (by simp only [Nat.sub_self, Nat.pow_zero]; omega) (by simp) (by simpa using hall)
        simp only [Nat.sub_self, Nat.mul_zero, List.length_cons] at this
        rw [this]
        simp only [show (5 ≤ tl.length + 1) = (4 ≤ tl.length) by apply propext; omega]
      rcases cont_trichotomy 4 tl with ⟨cs, r, rfl, hc, hl⟩ | ⟨hl, hall⟩ | ⟨hl, hall⟩
      · left
        have hw : IntWireLim 5 n (hiBits n b0) (2 ^ n - 1 + contVal cs) (b0 :: cs) :=
          ⟨Or.inr ⟨cs, hc, rfl, by rw [← hv', hofb]⟩, by simpa using hl⟩
        exact ⟨_, b0 :: cs, r, rfl, hw, decodeInteger_complete r h1 hn (hiBits_mod n b0) hhl hw⟩
      · right; left
        exact ⟨hv', hl, hall, by rw [hbad hall, if_pos hl]⟩
      · right; right
        refine ⟨hv', hl, hall, ?_⟩
        rw [hbad (fun c hc => hall c (List.mem_of_mem_take hc)), if_neg (by omega)]

/-- A cut integer makes the decoder index out of bounds. -/
theorem decodeInteger_cut {n : Nat} {buf : Bytes} (h1 : 1 ≤ n) (hn : n ≤ 8) (h : IntCut n buf) :
    decodeInteger buf n = .panic := by
  obtain ⟨b0, tl, rfl, hv, hl, hall⟩ := h
  have h2 := pow_le_256 hn
  unfold decodeInteger
  rw [if_neg (by omega)]
  simp only [and_mask hn, mask_toNat hn]
  rw [if_neg (by omega)]
  have := decodeIntegerLoop_bad (b0 :: tl) 5 1 (b0.toNat % 2 ^ n) (by omega) (by omega) (by omega)
    (by simp only [Nat.sub_self, Nat.pow_zero]; omega) (by simp)
    (by intro c hc; exact hall c (List.mem_of_mem_drop (i := 0) (by simpa using List.mem_of_mem_take hc)))
  simp only [Nat.sub_self, Nat.mul_zero, List.length_cons] at this
  rw [this, if_neg (by omega)]

/-- A full prefix followed by four octets that each announce another is an overflow. -/
theorem decodeInteger_over {n : Nat} {b0 : UInt8} {tl : Bytes} (h1 : 1 ≤ n) (hn : n ≤ 8)
    (hv : b0.toNat % 2 ^ n = 2 ^ n - 1) (hl : 4 ≤ tl.length) (hall : ∀ c ∈ tl.take 4, 128 ≤ c.toNat) :
    decodeInteger (b0 :: tl) n = .err .IntegerOverflow := by
  have h2 := pow_le_256 hn
  unfold decodeInteger
  rw [if_neg (by omega)]
  simp only [and_mask hn, mask_toNat hn]
  rw [if_neg (by omega)]
  have := decodeIntegerLoop_bad (b0 :: tl) 5 1 (b0.toNat % 2 ^ n) (by omega) (by omega) (by omega)
    (by simp only [Nat.sub_self, Nat.pow_zero]; omega) (by simp) (by simpa using hall)
  simp only [Nat.sub_self, Nat.mul_zero, List.length_cons] at this
  rw [this, if_pos (by omega)]

/-- All continuation octets but the last have the top bit set. -/
theorem _root_.Verif.Spec.IsCont.take {cs : Bytes} (h : IsCont cs) (k : Nat) (hk : k < cs.length) (r : Bytes) :
    ∀ c ∈ (cs ++ r).take k, 128 ≤ c.toNat := by
  induction cs generalizing k with
  | nil => exact h.elim
  | cons d ds ih =>
    cases k with
    | zero => simp
    | succ k =>
      cases ds with
      | nil => simp at hk
      | cons e es =>
        intro c hc
        simp only [List.cons_append, List.take_succ_cons, List.mem_cons] at hc
        rcases hc with rfl | hc
        · exact h.1
        · exact ih h.2 k (by simpa using hk) c hc

/-- Soundness: what was read is a representation of the value of at most five octets. -/
theorem decodeInteger_sound {n v t : Nat} {buf : Bytes} (h1 : 1 ≤ n) (hn : n ≤ 8)
    (h : decodeInteger buf n = .ok (v, t)) :
    ∃ b0 bs rest, buf = bs ++ rest ∧ buf.head? = some b0 ∧ t = bs.length ∧ IntWireLim 5 n (hiBits n b0) v bs := by
  rcases decodeInteger_cases buf n h1 hn with ⟨_, h'⟩ | ⟨b0, tl, rfl, ⟨v', bs, rest, hb, hw, h'⟩ | ⟨_, _, _, h'⟩ | ⟨_, _, _, h'⟩⟩ <;>
    rw [h] at h'
  · simp at h'
  · simp only [Res.ok.injEq, Prod.mk.injEq] at h'
    obtain ⟨rfl, rfl⟩ := h'
    exact ⟨b0, bs, rest, hb, rfl, rfl, hw⟩
  · simp at h'
  · simp at h'

theorem _root_.Verif.Spec.IntWire.pos {n hi v : Nat} {bs : Bytes} (h : IntWire n hi v bs) : 1 ≤ bs.length := by
  rcases h with ⟨_, rfl⟩ | ⟨cs, _, _, rfl⟩ <;> simp

/-- Values readable in five octets. -/
theorem _root_.Verif.Spec.IntWireLim.bound {n hi v : Nat} {bs : Bytes} (h : IntWireLim 5 n hi v bs) : v < 2 ^ n - 1 + 2 ^ 28 := by
  obtain ⟨⟨hv, rfl⟩ | ⟨cs, hc, rfl, rfl⟩, hl⟩ := h
  · omega
  · simp only [List.length_cons] at hl
    have := contVal_lt cs
    have h4 : 128 ^ cs.length ≤ 128 ^ 4 := Nat.pow_le_pow_right (by decide) (by omega)
    have : (128 : Nat) ^ 4 = 2 ^ 28 := by decide
    omega

theorem _root_.Verif.Spec.IntWireLim.lt32 {n hi v : Nat} {bs : Bytes} (hn : n ≤ 8) (h : IntWireLim 5 n hi v bs) : v < 2 ^ 32 := by
  have := IntWireLim.bound h
  have := pow_le_256 hn
  omega

end Verif.Hpack
