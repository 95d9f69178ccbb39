import Verif.Props.Huffman
/-! Property theorem C124: what cutting a text into pieces costs. -/
namespace Verif.Props
open Verif Verif.Spec Verif.Huffman

theorem pad_length {a qa : Bytes} {k : Nat} (h : bytesBits qa = codesOf a ++ padOnes k) : 8 * qa.length = codeLenSum a + k := by
  have hl := congrArg List.length h
  simpa only [bytesBits_length, List.length_append, codesOf_length, padOnes, List.length_replicate] using hl

theorem codeLenSum_perm {a b : Bytes} (h : a.Perm b) : codeLenSum a = codeLenSum b := by
  unfold codeLenSum
  exact (h.map _).sum_nat

/-- C124. A text cut into any pieces, each encoded on its own: together the encodings are not shorter than the encoding of the whole text
and at most seven eighths of an octet per piece longer. -/
theorem C124_cost_of_pieces (ps : List Bytes) :
    ∃ w, encode ps.flatten [] = (.ok (), w) ∧ (∀ p ∈ ps, (encode p []).1 = .ok ()) ∧
      w.length ≤ (ps.map fun p => (encode p []).2.length).sum ∧
      8 * (ps.map fun p => (encode p []).2.length).sum ≤ 8 * w.length + 7 * ps.length := by
  obtain ⟨w, hw, m, hm, hq⟩ := encode_spec ps.flatten []
  refine ⟨w, hw, fun p _ => ?_, ?_⟩
  · obtain ⟨q, h, _⟩ := encode_spec p []
    rw [h]
  have lw := pad_length hq
  have hl : codeLenSum ps.flatten ≤ 8 * (ps.map fun p => (encode p []).2.length).sum ∧
      8 * (ps.map fun p => (encode p []).2.length).sum ≤ codeLenSum ps.flatten + 7 * ps.length := by
    clear hw hq lw hm
    induction ps with
    | nil => simp [codeLenSum]
    | cons p ps ih =>
      obtain ⟨q, hq, k, hk, hb⟩ := encode_spec p []
      have := pad_length hb
      have e : codeLenSum (p :: ps).flatten = codeLenSum p + codeLenSum ps.flatten := by simp [codeLenSum]
      have e2 : (encode p []).2.length = q.length := by rw [hq]; rfl
      simp only [List.map_cons, List.sum_cons, List.length_cons]
      omega
  omega

/-- C124. With two pieces this is at most one octet. -/
theorem C124_two_pieces (a b : Bytes) :
    ∃ qa qb q, encode a [] = (.ok (), qa) ∧ encode b [] = (.ok (), qb) ∧ encode (a ++ b) [] = (.ok (), q) ∧
      q.length ≤ qa.length + qb.length ∧ qa.length + qb.length ≤ q.length + 1 := by
  obtain ⟨qa, ha, _⟩ := encode_spec a []
  obtain ⟨qb, hb, _⟩ := encode_spec b []
  obtain ⟨q, h1, _, h2, h3⟩ := C124_cost_of_pieces [a, b]
  simp only [List.map_cons, List.map_nil, List.sum_cons, List.sum_nil, List.length_cons, List.length_nil, ha, hb, List.nil_append] at h2 h3
  exact ⟨qa, qb, q, ha, hb, by simpa using h1, by omega, by omega⟩

/-- C124. The length of an encoding does not depend on the order of the bytes. -/
theorem C124_order (a b : Bytes) (h : a.Perm b) :
    ∃ qa qb, encode a [] = (.ok (), qa) ∧ encode b [] = (.ok (), qb) ∧ qa.length = qb.length := by
  obtain ⟨qa, ha, k, hk, hqa⟩ := encode_spec a []
  obtain ⟨qb, hb, j, hj, hqb⟩ := encode_spec b []
  refine ⟨qa, qb, ha, hb, ?_⟩
  have la := pad_length hqa
  have lb := pad_length hqb
  have := codeLenSum_perm h
  omega

/-! The bound is reached: "a b" has 17 bits and takes three octets; eight times this takes 17 octets, not 24. -/
example : (encode [97, 32, 98] []).2.length = 3 ∧ (encode (List.replicate 8 [97, 32, 98]).flatten []).2.length = 17 ∧ 8 * (8 * 3) = 8 * 17 + 7 * 8 := by
  decide +kernel
example : [97, 32, 98].Perm [98, 97, 32] ∧ (encode [98, 97, 32] []).2.length = 3 := ⟨by decide, by decide +kernel⟩

end Verif.Props
