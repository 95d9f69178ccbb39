import Verif.Props.HpackExtra
import Verif.Props.HpackRoom
/-! C79, exactly: when BEST_FORMAT makes a header longer, and that the bound on the number of entries cannot be raised. -/
namespace Verif.Props
open Verif Verif.Spec Verif.Hpack

/-- C79. Exactly when the flag costs: the header itself is in the table but its index needs more octets than the whole
literal, or only its name is and the index needs more octets than the name written out (with one octet for the pattern). -/
theorem C79_longer_iff (s s1 s2 : EncoderState) (hwf : s.table.WF) (n v : Bytes) (f : UInt8) (hf : f.toNat.testBit 4 = false)
    (h1 : encode (.Literal n v f) s = (.ok (), s1)) (h2 : encode (.Literal n v (f ||| 0x10)) s = (.ok (), s2)) :
    s1.dst.length < s2.dst.length ↔
      (∃ i, LowestAt s.table.spec (· = (n, v)) i ∧
        1 + strOctets (f.toNat.testBit 0) n + strOctets (f.toNat.testBit 1) v < intLen 7 i) ∨
      ((∀ j, s.table.spec.addr j ≠ some (n, v)) ∧ ∃ i, LowestAt s.table.spec (·.1 = n) i ∧
        1 + strOctets (f.toNat.testBit 0) n < intLen (flagMode f).bits i) := by
  have hbits : ∀ f : UInt8, (f ||| 0x10).toNat.testBit 0 = f.toNat.testBit 0 ∧ (f ||| 0x10).toNat.testBit 1 = f.toNat.testBit 1 ∧
      (f ||| 0x10).toNat.testBit 4 = true ∧ flagMode (f ||| 0x10) = flagMode f := forall_u8 (by decide +kernel)
  obtain ⟨b0, b1, b4, bm⟩ := hbits f
  have huniq : ∀ {P : Octets × Octets → Prop} {i j : Nat}, LowestAt s.table.spec P i → LowestAt s.table.spec P j → i = j := by
    intro P i j hi hj
    obtain ⟨⟨e, he, hp⟩, hl⟩ := hi
    obtain ⟨⟨e', he', hp'⟩, hl'⟩ := hj
    rcases Nat.lt_trichotomy i j with h | h | h
    · exact absurd hp (hl' i h e he)
    · exact h
    · exact absurd hp' (hl j h e' he')
  have l1 := encode_length hwf (.literal n v f hf) h1
  obtain ⟨rep, hc2⟩ := Chosen.exists s.table hwf (.Literal n v (f ||| 0x10))
  have l2 := encode_length hwf hc2 h2
  rw [l1, l2]
  simp only [huffName, huffValue, flagsOf, b0, b1, repOctets]
  cases hc2 with
  | literal _ _ _ h => rw [b4] at h; cases h
  | bestFull _ _ _ _ i h =>
    dsimp only
    constructor
    · intro hlt; exact Or.inl ⟨i, h, by omega⟩
    · rintro (⟨j, hj, hlt⟩ | ⟨hno, _⟩)
      · rw [huniq h hj]; omega
      · obtain ⟨⟨e, he, rfl⟩, _⟩ := h; exact absurd he (hno i)
  | bestName _ _ _ _ hno i h =>
    simp only [bm]
    constructor
    · intro hlt; exact Or.inr ⟨hno, i, h, by omega⟩
    · rintro (⟨j, hj, hlt⟩ | ⟨_, j, hj, hlt⟩)
      · obtain ⟨⟨e, he, rfl⟩, _⟩ := hj; exact absurd he (hno j)
      · rw [huniq h hj]; omega
  | bestNew _ _ _ _ hno =>
    dsimp only
    constructor
    · intro hlt; omega
    · rintro (⟨j, hj, hlt⟩ | ⟨_, j, hj, hlt⟩)
      · obtain ⟨⟨e, he, rfl⟩, _⟩ := hj; exact absurd rfl (hno j _ he)
      · obtain ⟨⟨e, he, hp⟩, _⟩ := hj; exact absurd hp (hno j _ he)

/-- A table of `k` entries with empty names and an older one called `a`. -/
def crowdedTable (k : Nat) : Table := Table.ofEntries (List.replicate k ([], []) ++ [([0x61], [])]) 600000

theorem crowded_WF {k : Nat} (hk : k ≤ 18000) : (crowdedTable k).WF := by
  have h : ∀ k, tableSize (List.replicate k (([] : Bytes), ([] : Bytes))) = 32 * k := by
    intro k
    induction k with
    | zero => rfl
    | succ k ih => rw [List.replicate_succ, tableSize_cons, ih]; simp only [entrySize, List.length_nil]; omega
  refine ⟨rfl, ?_⟩
  show tableSize (List.replicate k (([] : Bytes), ([] : Bytes)) ++ [([0x61], [])]) ≤ 600000
  rw [tableSize_append, h, tableSize_cons, tableSize_nil]
  simp only [entrySize, List.length_nil, List.length_cons]
  omega

/-- C79: the bound on the number of entries cannot be raised. With 16338 entries and more the flag can cost one octet. -/
theorem C79_many_entries (k : Nat) (hk1 : 16337 ≤ k) (hk2 : k ≤ 18000) (dst : Bytes) :
    (crowdedTable k).dynamicLen = k + 1 ∧
    ∃ s1 s2, encode (.Literal [0x61] [0x62] 0) ⟨crowdedTable k, dst⟩ = (.ok (), s1) ∧
      encode (.Literal [0x61] [0x62] 0x10) ⟨crowdedTable k, dst⟩ = (.ok (), s2) ∧ s2.dst.length = s1.dst.length + 1 := by
  have hent : (crowdedTable k).spec.entries = List.replicate k ([], []) ++ [([0x61], [])] := rfl
  have hat : (crowdedTable k).spec.addr (62 + k) = some ([0x61], []) := by
    rw [SpecTable.addr, if_neg (by omega), if_neg (by omega), hent, List.getElem?_append_right (by simp)]
    simp
  have hbelow : ∀ j, j < 62 + k → ∀ e, (crowdedTable k).spec.addr j = some e → e.1 ≠ [0x61] := by
    intro j hj e he
    unfold SpecTable.addr at he
    split at he
    · cases he
    · split at he
      · have hall : ∀ e ∈ rfcStatic, e.1 ≠ [0x61] := by decide +kernel
        exact hall e (List.mem_of_getElem? he)
      · rw [hent, List.getElem?_append_left (by rw [List.length_replicate]; omega), List.getElem?_replicate_of_lt (by omega)] at he
        cases he; decide
  have hnot : ∀ j, (crowdedTable k).spec.addr j ≠ some ([0x61], [0x62]) := by
    intro j he
    by_cases hj : j < 62 + k
    · exact hbelow j hj _ he rfl
    · by_cases hj' : j = 62 + k
      · subst hj'; rw [hat] at he; cases he
      · have := addr_le he
        rw [hent, List.length_append, List.length_replicate, List.length_singleton] at this
        omega
  have hwf := crowded_WF hk2
  have c1 : Chosen (crowdedTable k).spec (.Literal [0x61] [0x62] 0) _ := .literal [0x61] [0x62] 0 (by decide)
  have c2 : Chosen (crowdedTable k).spec (.Literal [0x61] [0x62] 0x10) _ :=
    .bestName [0x61] [0x62] 0x10 (by decide) hnot (62 + k) ⟨⟨_, hat, rfl⟩, hbelow⟩
  have e1 := encode_spec ⟨crowdedTable k, dst⟩ hwf _ _ 0 c1
  have e2 := encode_spec ⟨crowdedTable k, dst⟩ hwf _ _ 0 c2
  simp only [Rep.apply, NameRef.resolve, hat, Option.map_some] at e1 e2
  obtain ⟨bs1, t1, _, _, h1, _, _⟩ := e1.1 (by show 1 < 2 ^ 32 ∧ 1 < 2 ^ 32; decide)
  obtain ⟨bs2, t2, _, _, h2, _, _⟩ := e2.1 (by
    show 1 < 2 ^ 32; decide)
  refine ⟨by show (List.replicate k _ ++ _).length = _; rw [List.length_append, List.length_replicate]; rfl, _, _, h1, h2, ?_⟩
  rw [encode_length hwf c1 h1, encode_length hwf c2 h2]
  have x1 : repOctets (huffName (.Literal [0x61] [0x62] 0)) (huffValue (.Literal [0x61] [0x62] 0))
      (.literal (flagMode 0) (.new [0x61]) [0x62]) = 5 := by decide +kernel
  have x2 : repOctets (huffName (.Literal [0x61] [0x62] 0x10)) (huffValue (.Literal [0x61] [0x62] 0x10))
      (.literal (flagMode 0x10) (.index (62 + k)) [0x62]) = 6 := by
    have y : strOctets false [0x62] = 2 := by decide +kernel
    have z : intLen 4 (62 + k) = 4 := by
      have g1 := (groups_le 2 (62 + k - 15)).mpr (by omega)
      have g2 := mt (groups_le 1 (62 + k - 15)).mp (by omega)
      rw [intLen, if_neg (by omega)]
      show 1 + groups (62 + k - 15) = 4
      omega
    show intLen 4 (62 + k) + strOctets false [0x62] = 6
    omega
  rw [x1, x2]

example : (crowdedTable 2).dynamic.inner = [([], []), ([], []), ([0x61], [])] := by decide +kernel
/-- The full match case of `C79_longer_iff` needs an enormous table: a header costs at least three octets as a literal. -/
example : (encode (.Literal [] [] 0) ⟨crowdedTable 2, []⟩).2.dst.length = 3 ∧
    (encode (.Literal [] [] 0x10) ⟨crowdedTable 2, []⟩).2.dst.length = 1 := by decide +kernel

end Verif.Props
