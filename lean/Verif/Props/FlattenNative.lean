import Verif.Props.FlattenTotal
import Verif.Huffman.FlattenNative
/-! C107, continued: `flatten` in debug and in release builds. -/
namespace Verif.Props
open Verif Verif.Huffman Verif.Spec Verif.Spec.Matrix

theorem chunksOfOn_eq (chk : Bool) {bits n s m : Nat} (h : m * s < 32 + s) : chunksOfOn chk bits s m = chunksOf bits n s m := by
  induction m with
  | zero => rfl
  | succ m ih =>
    rw [Nat.succ_mul] at h
    unfold chunksOfOn chunksOf
    rw [if_neg (fun c => absurd c.2 (by omega)), if_neg (by omega), ih (by omega), Nat.mod_eq_of_lt (show m * s < 32 by omega)]

theorem chunksOfOn_checked {bits n s m : Nat} : chunksOfOn true bits s m = chunksOf bits n s m := by
  induction m with
  | zero => rfl
  | succ m ih =>
    unfold chunksOfOn chunksOf
    by_cases h : 32 ≤ m * s
    · rw [if_pos ⟨rfl, h⟩, if_pos h]
    · rw [if_neg (fun c => h c.2), if_neg h, ih, Nat.mod_eq_of_lt (show m * s < 32 by omega)]

theorem chunksOfOn_release (bits s m : Nat) : ∃ l, chunksOfOn false bits s m = .ok l ∧ l.length = m ∧ (∀ k ∈ l, k < 2 ^ s) ∧
    (0 < m → l.getLast? = some (bits % 2 ^ s)) := by
  induction m with
  | zero => exact ⟨[], rfl, rfl, by simp, by simp⟩
  | succ m ih =>
    obtain ⟨l, e, hl, hk, hlast⟩ := ih
    refine ⟨bits / 2 ^ (m * s % 32) % 2 ^ s :: l, ?_, by simp [hl], ?_, fun _ => ?_⟩
    · unfold chunksOfOn
      rw [if_neg (fun c => absurd c.1 (by decide)), e]
      rfl
    · intro k hk'
      rcases List.mem_cons.mp hk' with rfl | hk'
      · exact Nat.mod_lt _ (Nat.two_pow_pos s)
      · exact hk k hk'
    · cases m with
      | zero =>
        have : l = [] := List.eq_nil_of_length_eq_zero hl
        subst this
        simp
      | succ m =>
        rw [List.getLast?_cons, hlast (Nat.succ_pos m)]
        rfl

theorem codingPathsOn_eq (chk : Bool) {c : Nat × Nat} {s : Nat} (h : ceilDiv c.1 s * s < 32 + s) : codingPathsOn chk c s = codingPaths c s := by
  unfold codingPathsOn codingPaths
  simp only [chunksOfOn_eq chk (n := ceilDiv c.1 s) h]
  congr 1


theorem codingPathsOn_checked (c : Nat × Nat) (s : Nat) : codingPathsOn true c s = codingPaths c s := by
  unfold codingPathsOn codingPaths
  simp only [chunksOfOn_checked (n := ceilDiv c.1 s)]
  congr 1


theorem flattenCodeOn_of {chk : Bool} {c : Nat × Nat} {s : Nat} (h : codingPathsOn chk c s = codingPaths c s) (t : Mat) (a : Nat) :
    flattenCodeOn chk s t a c = flattenCode s t a c := by
  unfold flattenCodeOn flattenCode
  simp only [h]
  congr 1


theorem flattenLoopOn_of {chk : Bool} {s : Nat} {todo : List (Nat × Nat)} (h : ∀ c ∈ todo, codingPathsOn chk c s = codingPaths c s) :
    ∀ (t : Mat) (n : Nat), flattenLoopOn chk s t n todo = flattenLoop s t n todo := by
  induction todo with
  | nil => intro t n; rfl
  | cons c cs ih =>
    intro t n
    unfold flattenLoopOn flattenLoop
    rw [flattenCodeOn_of (h c (by simp))]
    congr 1; funext t'; exact ih (fun x hx => h x (by simp [hx])) t' (n + 1)

/-- C107. Debug builds are the model used everywhere else. -/
theorem C107_debug (codes : List (Nat × Nat)) (speed : Speed) : flattenOn true codes speed = flatten codes speed :=
  flattenLoopOn_of (fun c _ => codingPathsOn_checked c _) _ _

/-- C107. Release builds return the same matrix whenever a debug build returns one. -/
theorem C107_release_agrees (codes : List (Nat × Nat)) (speed : Speed) (t : Mat) (h : flatten codes speed = .ok t) :
    flattenOn false codes speed = .ok t := by
  have h' := (C107_panics_exactly codes speed).2.mp ⟨t, h⟩
  rw [← h]
  refine flattenLoopOn_of (fun c hc => codingPathsOn_eq false ?_) _ _
  have := h' c hc
  have := longest_iff speed c.1
  omega

example : flattenOn false [(2, 0), (2, 1), (3, 4), (3, 5), (2, 3)] .TwoBits =
    .ok [[(none, some 0, 0), (none, some 1, 0), (some 1, none, 0), (none, some 4, 0)],
      [(none, some 2, 1), (none, some 2, 1), (none, some 3, 1), (none, some 3, 1)]] :=
  C107_release_agrees _ _ _ (by decide)

theorem flattenCodeOn_ok {s : Nat} (hs : 0 < s) (hs5 : s ≤ 5) {t : Mat} (h : Shape s t) {c : Nat × Nat} (h1 : 1 ≤ c.1) (a : Nat) :
    ∃ t', flattenCodeOn false s t a c = .ok t' ∧ Shape s t' ∧ t'.length + 1 ≤ t.length + ceilDiv c.1 s := by
  obtain ⟨init, last, hi, hlen, hp, hcov⟩ : ∃ init last, (∀ k ∈ init, k < 2 ^ s) ∧ init.length + 1 = ceilDiv c.1 s ∧
      codingPathsOn false c s = .ok ((List.range (2 ^ (ceilDiv c.1 s * s - c.1))).map fun i => init ++ [last + i]) ∧
      ∀ i, i < 2 ^ (ceilDiv c.1 s * s - c.1) → last + i < 2 ^ s := by
    have ⟨b1, b2⟩ := ceilDiv_bounds (L := c.1) hs
    generalize hm : ceilDiv c.1 s = m at b1 b2
    generalize hleft : m * s - c.1 = left at *
    have hml : m * s = c.1 + left := by omega
    have hpos : 0 < m := by
      rcases Nat.eq_zero_or_pos m with h | h
      · subst h; simp at hml; omega
      · exact h
    have hleft_s : left ≤ s := by omega
    generalize hb : c.2 * 2 ^ left % 2 ^ 32 = bits
    have hd : 2 ^ left ∣ bits := by
      rw [← hb]
      exact (Nat.dvd_mod_iff (Nat.pow_dvd_pow 2 (by omega))).mpr (Nat.dvd_mul_left _ _)
    obtain ⟨l, e1, e2, e3, e5⟩ := chunksOfOn_release bits s m
    have e5 := e5 hpos
    obtain ⟨init, hl⟩ := List.getLast?_eq_some_iff.mp e5
    generalize hlast : bits % 2 ^ s = last at *
    have hdvd : 2 ^ left ∣ last := by
      rw [← hlast]
      exact (Nat.dvd_mod_iff (Nat.pow_dvd_pow 2 hleft_s)).mpr hd
    have hlastlt : last < 2 ^ s := by rw [← hlast]; exact Nat.mod_lt _ (Nat.two_pow_pos s)
    refine ⟨init, last, fun k hk => e3 k (by rw [hl]; simp [hk]), ?_, ?_, ?_⟩
    · rw [← e2, hl]; simp
    · unfold codingPathsOn
      rw [hm]
      simp only [hleft, hb, e1, Res.bind_ok, e5]
      simp [hl]
    · intro i hi
      obtain ⟨x, hx⟩ := hdvd
      obtain ⟨y, hy⟩ := Nat.pow_dvd_pow 2 hleft_s
      rw [hx, hy] at hlastlt
      have : x < y := Nat.lt_of_mul_lt_mul_left hlastlt
      calc last + i < 2 ^ left * x + 2 ^ left := by omega
        _ = 2 ^ left * (x + 1) := by rw [Nat.mul_succ]
        _ ≤ 2 ^ left * y := Nat.mul_le_mul_left _ this
        _ = 2 ^ s := hy.symm
  obtain ⟨t1, id, w, sh1, hid⟩ := walkCreate_total h h.pos hi
  have hw := walkCreate_length_le w
  obtain ⟨t2, e2, sh2, l2, _⟩ := setTargets_spec (a := a % 2 ^ 16) (l := (ceilDiv c.1 s * s - c.1) % 2 ^ 8) (init := init) (f := fun i => last + i) sh1 hid
    (Nat.mod_lt _ (by decide)) (Nat.mod_lt _ (by decide)) (List.range (2 ^ (ceilDiv c.1 s * s - c.1)))
    (fun i hi' => hcov i (List.mem_range.mp hi'))
  rw [← setTargets_mod] at e2
  refine ⟨t2, ?_, sh2, by omega⟩
  unfold flattenCodeOn
  rw [hp]
  simp only [Res.bind_ok]
  have hcons : ∃ rest, List.range (2 ^ (ceilDiv c.1 s * s - c.1)) = 0 :: rest := by
    have := Nat.two_pow_pos (ceilDiv c.1 s * s - c.1)
    rw [show 2 ^ (ceilDiv c.1 s * s - c.1) = (2 ^ (ceilDiv c.1 s * s - c.1) - 1) + 1 by omega, List.range_succ_eq_map]
    exact ⟨_, rfl⟩
  obtain ⟨rest, hr⟩ := hcons
  rw [hr] at e2 ⊢
  simp only [List.map_cons, Nat.add_zero, List.dropLast_concat, w, Res.bind_ok] at e2 ⊢
  exact e2

theorem codingPathsOn_zero (chk : Bool) {s : Nat} (hs : 0 < s) {c : Nat × Nat} (h : c.1 = 0) : codingPathsOn chk c s = .panic := by
  have : ceilDiv c.1 s = 0 := by rw [h]; unfold ceilDiv; rw [Nat.zero_add]; exact Nat.div_eq_of_lt (by omega)
  unfold codingPathsOn
  simp only [this, chunksOfOn, Res.bind_ok, List.getLast?_nil]

theorem flattenLoopOn_release {sp : Speed} {todo : List (Nat × Nat)} : ∀ {t : Mat} (n : Nat), Shape sp.toNat t →
    ((∀ c ∈ todo, 1 ≤ c.1) → ∃ t', flattenLoopOn false sp.toNat t n todo = .ok t' ∧ Shape sp.toNat t' ∧
      t'.length ≤ t.length + (todo.map fun c => ceilDiv c.1 sp.toNat - 1).sum) ∧
    ((∃ c ∈ todo, c.1 = 0) → flattenLoopOn false sp.toNat t n todo = .panic) := by
  have hs : 0 < sp.toNat := by cases sp <;> decide
  have hs5 : sp.toNat ≤ 5 := by cases sp <;> decide
  induction todo with
  | nil => intro t n h; exact ⟨fun _ => ⟨t, rfl, h, by simp⟩, fun ⟨c, hc, _⟩ => by cases hc⟩
  | cons c cs ih =>
    intro t n h
    by_cases hc : c.1 = 0
    · refine ⟨fun ha => absurd (ha c (by simp)) (by omega), fun _ => ?_⟩
      unfold flattenLoopOn flattenCodeOn
      rw [codingPathsOn_zero false hs hc]
      rfl
    · obtain ⟨t1, e1, s1, l1⟩ := flattenCodeOn_ok hs hs5 h (c := c) (by omega) n
      obtain ⟨i1, i2⟩ := ih (n + 1) s1
      refine ⟨fun ha => ?_, fun hp => ?_⟩
      · obtain ⟨t2, e2, s2, l2⟩ := i1 (fun x hx => ha x (by simp [hx]))
        refine ⟨t2, by unfold flattenLoopOn; rw [e1]; exact e2, s2, ?_⟩
        simp only [List.map_cons, List.sum_cons]
        omega
      · unfold flattenLoopOn
        rw [e1]
        refine i2 ?_
        obtain ⟨d, hd, hd'⟩ := hp
        rcases List.mem_cons.mp hd with rfl | hd
        · exact absurd hd' hc
        · exact ⟨d, hd, hd'⟩

/-- C107. Release builds panic exactly when some code is empty; codes that are too long give a matrix, too. -/
theorem C107_release_panics_exactly (codes : List (Nat × Nat)) (speed : Speed) :
    (flattenOn false codes speed = .panic ↔ ∃ c ∈ codes, c.1 = 0) ∧
    ((∃ t, flattenOn false codes speed = .ok t) ↔ ∀ c ∈ codes, 1 ≤ c.1) := by
  obtain ⟨r1, r2⟩ := flattenLoopOn_release (todo := codes) 0 (built_nil speed.toNat).1
  by_cases h : ∃ c ∈ codes, c.1 = 0
  · have e : flattenOn false codes speed = .panic := r2 h
    refine ⟨⟨fun _ => h, fun _ => e⟩, ⟨fun ⟨t, ht⟩ => (by rw [e] at ht; cases ht), fun ha => ?_⟩⟩
    obtain ⟨c, hc, hc'⟩ := h
    have := ha c hc
    omega
  · have h' : ∀ c ∈ codes, 1 ≤ c.1 := fun c hc => Nat.pos_of_ne_zero fun h0 => h ⟨c, hc, h0⟩
    obtain ⟨t, e, _⟩ := r1 h'
    have e : flattenOn false codes speed = .ok t := e
    exact ⟨⟨fun hp => (by rw [e] at hp; cases hp), fun hp => absurd hp h⟩, ⟨fun _ => h', fun _ => ⟨t, e⟩⟩⟩

/-- C107. The matrix of a release build can be walked safely, too, whatever the codes. -/
theorem C107_release_safe_matrix (codes : List (Nat × Nat)) (speed : Speed) (t : Mat) (h : flattenOn false codes speed = .ok t) :
    0 < t.length ∧ (∀ row ∈ t, row.length = 2 ^ speed.toNat) ∧
    (∀ i k next cell', cell t i k = some (some next, cell') → next < t.length) ∧
    t.length ≤ 1 + (codes.map fun c => (c.1 + speed.toNat - 1) / speed.toNat - 1).sum := by
  have h' := (C107_release_panics_exactly codes speed).2.mp ⟨t, h⟩
  obtain ⟨t', e, sh, hl⟩ := (flattenLoopOn_release (todo := codes) 0 (built_nil speed.toNat).1).1 h'
  have e : flattenOn false codes speed = .ok t' := e
  rw [h] at e
  cases e
  refine ⟨sh.pos, ?_, ?_, ?_⟩
  · intro row hr
    obtain ⟨i, hi, e⟩ := List.mem_iff_getElem.mp hr
    exact sh.width i row (by rw [List.getElem?_eq_getElem hi, e])
  · intro i k next cell' hc
    exact sh.inside i k next (by rw [nextOf, hc]; rfl)
  · simpa [ceilDiv] using hl

/-- C107. But the matrix of a release build is wrong for codes that are too long: the code of 32 zeros followed by a one, which panics in a
debug build, is entered as a code that begins with a one (the shift by 32 is a shift by 0). -/
theorem C107_release_differs :
    flatten [(33, 1)] .OneBit = .panic ∧
    ∃ t, flattenOn false [(33, 1)] .OneBit = .ok t ∧ (cell t 0 1).map (·.1) = some (some 1) ∧ (cell t 0 0).map (·.1) = some none := by
  refine ⟨(C107_panics_exactly _ _).1.mpr ⟨(33, 1), by simp, Or.inr (by decide)⟩, ?_⟩
  obtain ⟨t, ht⟩ := (C107_release_panics_exactly [(33, 1)] .OneBit).2.mpr (by decide)
  refine ⟨t, ht, ?_⟩
  have e : (match flattenOn false [(33, 1)] .OneBit with
    | .ok t => decide ((cell t 0 1).map (·.1) = some (some 1)) && decide ((cell t 0 0).map (·.1) = some none)
    | _ => false) = true := by decide +kernel
  rw [ht] at e
  simpa using e

example : ∃ t, flattenOn false [(2, 0), (33, 5), (200, 77)] .TwoBits = .ok t := (C107_release_panics_exactly _ _).2.mpr (by decide)
example : flattenOn false [(2, 0), (0, 5)] .TwoBits = .panic := (C107_release_panics_exactly _ _).1.mpr ⟨(0, 5), by simp, rfl⟩

end Verif.Props
