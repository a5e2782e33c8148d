import Verif.CliConfig.Spec

/-!
# Lemmas about the CLI's configuration
-/

namespace Verif.CliConfig

open Spec Verif.Text

theorem dropWhile_eq_nil (p : Char → Bool) (s : List Char) :
    s.dropWhile p = [] ↔ ∀ c ∈ s, p c = true := by
  induction s with
  | nil => simp
  | cons c s ih =>
    by_cases h : p c = true
    · simp [List.dropWhile_cons, h, ih]
    · simp [List.dropWhile_cons, h]

theorem trimSpace_nil (s : List Char) : trimSpace s = [] ↔ ∀ c ∈ s, isSpace c = true := by
  unfold trimSpace
  rw [List.reverse_eq_nil_iff, dropWhile_eq_nil]
  simp only [List.mem_reverse]
  constructor
  · intro h
    apply (dropWhile_eq_nil isSpace s).mp
    cases hd : s.dropWhile isSpace with
    | nil => rfl
    | cons c t =>
      have h1 := h c (by rw [hd]; simp)
      have h2 : isSpace c = false := by
        have := List.head?_dropWhile_not isSpace s
        rw [hd] at this
        simpa using this
      rw [h2] at h1; simp at h1
  · intro h
    rw [(dropWhile_eq_nil isSpace s).mpr h]
    simp

theorem isSpace_iff (c : Char) : isSpace c = true ↔ c.toNat ∈ whiteSpace := by
  unfold isSpace whiteSpace
  simp only [Bool.or_eq_true, Bool.and_eq_true, beq_iff_eq, decide_eq_true_eq, List.mem_cons,
    List.not_mem_nil, or_false]
  omega

theorem nonBlank_iff (s : String) : nonBlank s = true ↔ ¬ Blank s := by
  unfold nonBlank Blank
  simp only [← isSpace_iff]
  rw [← trimSpace_nil]
  simp

theorem nonBlank_false (s : String) : nonBlank s = false ↔ Blank s := by
  have := nonBlank_iff s
  cases h : nonBlank s <;> simp_all

theorem parseUint_iff (bits : Nat) (s : String) (n : Nat) :
    parseUint bits s.toList = some n ↔ NatText s n ∧ n < 2 ^ bits := by
  unfold parseUint NatText
  rw [digitsVal_eq]
  by_cases hds : s.toList = []
  · simp [hds]
  · have hne : s.toList.isEmpty = false := by simpa using hds
    rw [hne]
    by_cases hall : ∀ d ∈ s.toList, d.isDigit = true
    · simp only [if_pos hall, Bool.false_eq_true, if_false]
      constructor
      · intro h
        split at h
        · rename_i hlt
          simp only [Option.some.injEq] at h
          subst h
          exact ⟨⟨hds, hall, rfl⟩, hlt⟩
        · simp at h
      · rintro ⟨⟨_, _, rfl⟩, h⟩
        simp [h]
    · rw [if_neg hall]
      constructor
      · intro h; simp at h
      · rintro ⟨⟨_, h, _⟩, _⟩; exact absurd h hall

theorem parseInt_iff (bits : Nat) (s : String) (n : Int) :
    parseInt bits s.toList = some n ↔
      IntText s n ∧ -(2 ^ (bits - 1) : Nat) ≤ n ∧ n < (2 ^ (bits - 1) : Nat) :=
  parseSigned_iff bits s.toList n

theorem hasSuffix_iff (s e : String) : hasSuffix s e = true ↔ ∃ base, s.toList = base ++ e.toList := by
  unfold hasSuffix
  rw [List.isSuffixOf_iff_suffix]
  constructor
  · rintro ⟨b, h⟩; exact ⟨b, h.symm⟩
  · rintro ⟨b, h⟩; exact ⟨b, h.symm⟩

end Verif.CliConfig
