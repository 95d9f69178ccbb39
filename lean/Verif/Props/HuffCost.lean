import Verif.Lemmas.HuffCost
import Verif.Props.Huffman
/-! C108: the work of Huffman decoding. -/
namespace Verif.Props
open Verif.Spec Verif.Huffman

/-- C108. Counting changes nothing: the counted decoder returns what `decode` returns. -/
theorem C108_same_result (src dst : Bytes) (sp : Speed) :
    ((decodeC src dst sp).1, (decodeC src dst sp).2.1) = decode src dst sp := decodeC_result src dst sp

/-- C108. The exact number of rounds, by the bits of the input: every decoded octet costs its code length in groups of `s`
bits, rounded up; the undecodable rest costs only its complete groups; EOS costs its thirty bits. There is at most one table
lookup more than rounds. -/
theorem C108_rounds (src dst : Bytes) (sp : Speed) :
    ∃ o w, (decodeC src dst sp).2 = (dst ++ o, w) ∧ w.rounds ≤ w.lookups ∧ w.lookups ≤ w.rounds + 1 ∧
     ((∃ t, bytesBits src = codesOf o ++ t ∧ NoCode t ∧ w.rounds = roundsFor sp.toNat o + t.length / sp.toNat) ∨
      (∃ t, bytesBits src = codesOf o ++ code 256 ++ t ∧ w.rounds = roundsFor sp.toNat o + groupsOf sp.toNat 30)) :=
  decodeC_spec src dst sp

theorem groupsOf_le {s n : Nat} (hs : 1 ≤ s) (hn : 1 ≤ n) : groupsOf s n ≤ n := by
  unfold groupsOf
  rw [Nat.div_le_iff_le_mul (by omega)]
  obtain ⟨k, rfl⟩ := Nat.exists_eq_add_of_le hs
  obtain ⟨m, rfl⟩ := Nat.exists_eq_add_of_le hn
  have : (1 + m) * (1 + k) = 1 + m + k + m * k := by
    rw [Nat.add_mul, Nat.one_mul, Nat.mul_add, Nat.mul_one]; omega
  rw [this]; omega

theorem groupsOf_mul_le {s n : Nat} (hs : 1 ≤ s) : s * groupsOf s n ≤ n + (s - 1) := by
  unfold groupsOf
  have := Nat.mul_div_le (n + s - 1) s
  omega

theorem groupsOf_anti {s s' n : Nat} (hs : 1 ≤ s) (h : s ≤ s') (hn : 1 ≤ n) : groupsOf s' n ≤ groupsOf s n := by
  unfold groupsOf
  have hs' : 0 < s' := by omega
  have e : ∀ k, 1 ≤ k → (n + k - 1) / k = (n - 1) / k + 1 := by
    intro k hk
    have : n + k - 1 = (n - 1) + k := by omega
    rw [this, Nat.add_div_right _ hk]
  rw [e s hs, e s' hs']
  exact Nat.add_le_add_right (Nat.div_le_div_left h hs) 1

theorem roundsFor_le {s : Nat} (hs : 1 ≤ s) (o : Bytes) : roundsFor s o ≤ codeLenSum o := by
  induction o with
  | nil => simp [roundsFor]
  | cons b o ih =>
    have h1 := code_length_ge (UInt8.toNat_le_256 b)
    have h2 := groupsOf_le (n := (code b.toNat).length) hs (by omega)
    simp only [roundsFor, codeLenSum, List.map_cons, List.sum_cons] at *
    omega

theorem roundsFor_mul_le {s : Nat} (hs : 1 ≤ s) (o : Bytes) : s * roundsFor s o ≤ codeLenSum o + (s - 1) * o.length := by
  induction o with
  | nil => simp [roundsFor]
  | cons b o ih =>
    have h2 := groupsOf_mul_le (n := (code b.toNat).length) hs
    simp only [roundsFor, codeLenSum, List.map_cons, List.sum_cons, List.length_cons, Nat.mul_add] at *
    omega

theorem roundsFor_anti {s s' : Nat} (hs : 1 ≤ s) (h : s ≤ s') (o : Bytes) : roundsFor s' o ≤ roundsFor s o := by
  induction o with
  | nil => simp [roundsFor]
  | cons b o ih =>
    have h1 := code_length_ge (UInt8.toNat_le_256 b)
    have h2 := groupsOf_anti (n := (code b.toNat).length) hs h (by omega)
    simp only [roundsFor, List.map_cons, List.sum_cons] at *
    omega

theorem speed_pos (sp : Speed) : 1 ≤ sp.toNat := by cases sp <;> simp [Speed.toNat]
theorem speed_le (sp : Speed) : sp.toNat ≤ 5 := by cases sp <;> simp [Speed.toNat]

theorem eos_len : (code 256).length = 30 := by decide +kernel

/-- C108. Decoding is linear: at most one round per input bit and one lookup more, whatever the input. -/
theorem C108_linear (src dst : Bytes) (sp : Speed) :
    (decodeC src dst sp).2.2.rounds ≤ 8 * src.length ∧ (decodeC src dst sp).2.2.lookups ≤ 8 * src.length + 1 := by
  obtain ⟨o, w, he, _, hl, hcase⟩ := decodeC_spec src dst sp
  have hb : w.rounds ≤ 8 * src.length := by
    have hr := roundsFor_le (speed_pos sp) o
    rcases hcase with ⟨t, hbits, _, hw⟩ | ⟨t, hbits, hw⟩
    · have hlen := congrArg List.length hbits
      simp only [bytesBits_length, List.length_append, codesOf_length] at hlen
      have := Nat.div_le_self t.length sp.toNat
      omega
    · have hlen := congrArg List.length hbits
      simp only [bytesBits_length, List.length_append, codesOf_length, eos_len] at hlen
      rw [eos_len] at hw
      have := groupsOf_le (n := 30) (speed_pos sp) (by omega)
      omega
  rw [he]
  simp only
  omega

/-- C108. Reading `s` bits at a time really saves work: `s` times the number of rounds exceeds the number of input bits by at
most `s - 1` for every decoded octet (and once more for EOS). -/
theorem C108_speedup (src dst : Bytes) (sp : Speed) :
    ∃ o, (decodeC src dst sp).2.1 = dst ++ o ∧
      sp.toNat * (decodeC src dst sp).2.2.rounds ≤ 8 * src.length + (sp.toNat - 1) * (o.length + 1) := by
  obtain ⟨o, w, he, _, _, hcase⟩ := decodeC_spec src dst sp
  refine ⟨o, by rw [he], ?_⟩
  have hr := roundsFor_mul_le (speed_pos sp) o
  have hexp : (sp.toNat - 1) * (o.length + 1) = (sp.toNat - 1) * o.length + (sp.toNat - 1) := by
    rw [Nat.mul_add, Nat.mul_one]
  rw [he, hexp]
  simp only
  rcases hcase with ⟨t, hbits, _, hw⟩ | ⟨t, hbits, hw⟩
  · have hlen := congrArg List.length hbits
    simp only [bytesBits_length, List.length_append, codesOf_length] at hlen
    have := Nat.mul_div_le t.length sp.toNat
    rw [hw, Nat.mul_add]
    omega
  · have hlen := congrArg List.length hbits
    simp only [bytesBits_length, List.length_append, codesOf_length, eos_len] at hlen
    rw [eos_len] at hw
    have := groupsOf_mul_le (n := 30) (speed_pos sp)
    rw [hw, Nat.mul_add]
    omega

/-- C108. A higher speed never takes more rounds, on any input. -/
theorem C108_faster (src dst dst' : Bytes) (sp sp' : Speed) (h : sp.toNat ≤ sp'.toNat) :
    (decodeC src dst' sp').2.2.rounds ≤ (decodeC src dst sp).2.2.rounds := by
  obtain ⟨o, w, he, _, _, hcase⟩ := decodeC_spec src dst sp
  obtain ⟨o', w', he', _, _, hcase'⟩ := decodeC_spec src dst' sp'
  rw [he, he']
  simp only
  have hlow : ∀ {t : List Bool}, NoCode t → ∀ a, a < 256 → ¬ IsPrefix (code a) t := fun hn a ha => hn a (by omega)
  have heos : ∀ t : List Bool, ∀ a, a < 256 → ¬ IsPrefix (code a) (code 256 ++ t) := fun t => eos_noByte
  have hanti := fun o => roundsFor_anti (speed_pos sp) h o
  rcases hcase with ⟨t, hbits, hn, hw⟩ | ⟨t, hbits, hw⟩ <;> rcases hcase' with ⟨t', hbits', hn', hw'⟩ | ⟨t', hbits', hw'⟩
  · obtain ⟨rfl, rfl⟩ := codes_unique (hlow hn) (hlow hn') (hbits.symm.trans hbits')
    have := hanti o
    have := Nat.div_le_div_left (a := t.length) h (speed_pos sp)
    omega
  · rw [List.append_assoc] at hbits'
    obtain ⟨rfl, rfl⟩ := codes_unique (hlow hn) (heos t') (hbits.symm.trans hbits')
    exact absurd ⟨t', rfl⟩ (hn 256 (by omega))
  · rw [List.append_assoc] at hbits
    obtain ⟨rfl, rfl⟩ := codes_unique (heos t) (hlow hn') (hbits.symm.trans hbits')
    exact absurd ⟨t, rfl⟩ (hn' 256 (by omega))
  · rw [List.append_assoc] at hbits hbits'
    obtain ⟨rfl, _⟩ := codes_unique (heos t) (heos t') (hbits.symm.trans hbits')
    have := hanti o
    rw [eos_len] at hw hw'
    have := groupsOf_anti (n := 30) (speed_pos sp) h (by omega)
    omega

/-- C108. One bit at a time means exactly one round per input bit when the input is accepted. -/
theorem C108_one_bit (src dst out : Bytes) (h : decode src dst .OneBit = (.ok (), out)) :
    (decodeC src dst .OneBit).2.2.rounds = 8 * src.length := by
  obtain ⟨o, w, he, _, _, hcase⟩ := decodeC_spec src dst .OneBit
  have hone : roundsFor 1 o = codeLenSum o := by
    simp [roundsFor, codeLenSum, groupsOf]
  have hs : Speed.OneBit.toNat = 1 := rfl
  rw [he]
  simp only
  rcases hcase with ⟨t, hbits, _, hw⟩ | ⟨t, hbits, hw⟩
  · have hlen := congrArg List.length hbits
    simp only [bytesBits_length, List.length_append, codesOf_length] at hlen
    rw [hw, hs, hone, Nat.div_one]; omega
  · rw [C08_eos_rejected src dst o t .OneBit hbits] at h
    simp at h

/-- C108, a concrete case: the ten octets of "Hello world!" at the five speeds; EOS after "a". -/
example : Speed.known.map (fun s => (decodeC helloCoded [] s).2.2) = [⟨80, 80⟩, ⟨42, 43⟩, ⟨29, 30⟩, ⟨26, 27⟩, ⟨22, 22⟩] := by decide +kernel
example : Speed.known.map (fun s => (decodeC [0x1f, 0xff, 0xff, 0xff, 0xff] [] s).2.2.rounds) = [35, 18, 12, 10, 7] := by decide +kernel
example : decode helloCoded [] .OneBit = (.ok (), helloBytes) ∧ Speed.TwoBits.toNat ≤ Speed.FourBits.toNat := by decide +kernel
example : (decodeC helloCoded [9] .FiveBits).2 = (9 :: helloBytes, ⟨roundsFor 5 helloBytes + 1, roundsFor 5 helloBytes + 1⟩) := by decide +kernel

end Verif.Props
