import Verif.RtConfig.Spec

/-!
# Lemmas about the runtime's configuration
-/

namespace Verif.RtConfig

open Spec Verif.Text

theorem bind_ok_iff {α β : Type} (x : Outcome String α) (f : α → Outcome String β) (b : β) :
    (x >>= f) = .ok b ↔ ∃ a, x = .ok a ∧ f a = .ok b := by
  cases x with
  | ok a => simp
  | err e => simp
  | panic => simp

theorem expect_iff {α : Type} (o : Option α) (a : α) : expect o = .ok a ↔ o = some a := by
  cases o <;> simp [expect]

theorem parseBool_iff (s : String) (b : Bool) : parseBool s = some b ↔ BoolName s b := by
  unfold parseBool
  constructor
  · intro h
    split at h
    · rename_i hs; injection h with h; subst h; subst hs; exact .yes
    · split at h
      · rename_i hs; injection h with h; subst h; subst hs; exact .no
      · simp at h
  · intro h
    cases h
    · simp
    · simp

theorem optionalBool_iff (v : Option String) (b : Option Bool) :
    optionalBool v = .ok b ↔ OptBool v b := by
  unfold optionalBool OptBool
  cases v with
  | none => cases b <;> simp
  | some s =>
    simp only
    cases hp : parseBool s with
    | none =>
      cases b with
      | none => simp
      | some b =>
        dsimp only
        rw [← parseBool_iff, hp]
        simp
    | some b' =>
      cases b with
      | none => simp
      | some b => dsimp only; rw [← parseBool_iff, hp]; simp

theorem port_iff (s : String) (n : Int) : parseSigned 32 s.toList = some n ↔ Int32Text s n := by
  rw [parseSigned_iff]
  unfold Int32Text
  have : (2 ^ (32 - 1) : Nat) = 2147483648 := rfl
  rw [this]
  constructor
  · rintro ⟨h, h1, h2⟩; exact ⟨h, by omega, by omega⟩
  · rintro ⟨h, h1, h2⟩; exact ⟨h, by omega, by omega⟩

theorem mode_iff (s : String) (m : CallMode) :
    callModeOf s = .ok m ↔ ModeName s m := by
  constructor
  · intro h
    unfold callModeOf at h
    split at h
    · injection h with h; subst h; exact .ffi
    · injection h with h; subst h; exact .http
    · simp at h
  · intro h
    cases h <;> rfl

theorem platform_iff (s : String) (p : Platform) :
    platformOf s = p ↔ PlatformName s p := by
  constructor
  · intro h
    unfold platformOf at h
    split at h
    · subst h; exact .aws
    · subst h; exact .azure
    · subst h; exact .gcp
    · subst h; exact .local'
    · subst h
      rename_i h1 h2 h3 h4
      exact .other s (by simp only [List.mem_cons, List.not_mem_nil, or_false, not_or]; exact ⟨h1, h2, h3, h4⟩)
  · intro h
    cases h with
    | aws => rfl
    | azure => rfl
    | gcp => rfl
    | local' => rfl
    | other _ h =>
      simp only [List.mem_cons, List.not_mem_nil, or_false, not_or] at h
      obtain ⟨h1, h2, h3, h4⟩ := h
      unfold platformOf
      split <;> simp_all

theorem toLower_digit {c : Char} (h : c.isDigit = true) : c.toLower = c := by
  have h1 : c.val.toNat ≤ 57 := by
    simp only [Char.isDigit, Bool.and_eq_true, decide_eq_true_eq, UInt32.le_iff_toNat_le] at h
    simpa using h.2
  unfold Char.toLower
  split
  · rename_i h2
    simp only [UInt32.le_iff_toNat_le, ge_iff_le] at h2
    have h3 : 65 ≤ c.val.toNat := h2.1
    omega
  · rfl

theorem unsigned_not_level {s : List Char} {n : Nat} (h : UnsignedText s n) (l : Level) :
    s.map Char.toLower ≠ levelText l := by
  intro heq
  obtain ⟨sign, ds, rfl, _, hne, hd, _⟩ := h
  cases ds with
  | nil => exact hne rfl
  | cons d ds =>
    have hdig := hd d (by simp)
    have hmem : d ∈ levelText l := by
      rw [← heq, List.mem_map]
      exact ⟨d, by simp, toLower_digit hdig⟩
    have hall : ∀ c ∈ levelText l, c.isDigit = false := by cases l <;> decide
    rw [hall d hmem] at hdig
    simp at hdig

theorem parseLevel_iff (s : String) (l : Level) : parseLevel s = some l ↔ LevelName s l := by
  unfold parseLevel LevelName
  have hnum : ∀ n, n < 2 ^ 64 → (parseUnsigned (2 ^ 64) s.toList = some n ↔ UnsignedText s.toList n) := by
    intro n hn
    rw [parseUnsigned_iff]
    exact ⟨fun h => h.1, fun h => ⟨h, hn⟩⟩
  have hfive : ∀ l, levelIndex l < 2 ^ 64 := by intro l; cases l <;> decide
  have hone : ∀ n m, UnsignedText s.toList n → UnsignedText s.toList m → n < 2 ^ 64 → m < 2 ^ 64 →
      n = m := by
    intro n m h1 h2 h3 h4
    have h5 := (hnum n h3).mpr h1
    have h6 := (hnum m h4).mpr h2
    rw [h5] at h6; injection h6
  constructor
  · intro h
    split at h
    · rename_i hp; injection h with h; subst h; exact .inl ((hnum 1 (by decide)).mp hp)
    · rename_i hp; injection h with h; subst h; exact .inl ((hnum 2 (by decide)).mp hp)
    · rename_i hp; injection h with h; subst h; exact .inl ((hnum 3 (by decide)).mp hp)
    · rename_i hp; injection h with h; subst h; exact .inl ((hnum 4 (by decide)).mp hp)
    · rename_i hp; injection h with h; subst h; exact .inl ((hnum 5 (by decide)).mp hp)
    · right
      dsimp only at h
      split at h
      · rename_i hp; injection h with h; subst h; exact hp
      · split at h
        · rename_i hp; injection h with h; subst h; exact hp
        · split at h
          · rename_i hp; injection h with h; subst h; exact hp
          · split at h
            · rename_i hp; injection h with h; subst h; exact hp
            · split at h
              · rename_i hp; injection h with h; subst h; exact hp
              · simp at h
  · rintro (h | h)
    · have := (hnum _ (hfive l)).mpr h
      rw [this]
      cases l <;> rfl
    · have hno : ∀ n, parseUnsigned (2 ^ 64) s.toList ≠ some n := by
        intro n hn
        exact unsigned_not_level ((parseUnsigned_iff _ _ _).mp hn).1 l h
      split
      · rename_i hp; exact absurd hp (hno 1)
      · rename_i hp; exact absurd hp (hno 2)
      · rename_i hp; exact absurd hp (hno 3)
      · rename_i hp; exact absurd hp (hno 4)
      · rename_i hp; exact absurd hp (hno 5)
      · dsimp only
        rw [h]
        cases l <;> decide

theorem methodOf_iff (s : String) (m : Method) : methodOf s = some m ↔ NamesMethod s m := by
  unfold methodOf NamesMethod
  dsimp only
  generalize s.toList.map Char.toLower = l
  constructor
  · intro h
    repeat' split at h
    all_goals first
      | (injection h with h; subst h; assumption)
      | simp at h
  · intro h
    subst h
    cases m <;> decide

end Verif.RtConfig
