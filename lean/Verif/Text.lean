/-!
# Texts: splitting, trimming and numbers

Shared models of small pieces of the Rust standard library on texts, represented as lists of
characters.
-/

namespace Verif.Text

/-- `str::split(sep)` for one character, collected: always at least one piece. -/
def splitC (sep : Char) : List Char → List (List Char)
  | [] => [[]]
  | c :: cs =>
    if c = sep then [] :: splitC sep cs
    else
      match splitC sep cs with
      | [] => [[c]]
      | p :: ps => (c :: p) :: ps

/-- Joining with a separator character, `[_]::join`. -/
def joinC (sep : Char) : List (List Char) → List Char
  | [] => []
  | [p] => p
  | p :: q :: ps => p ++ sep :: joinC sep (q :: ps)

/-- Decimal digit value. -/
def digitVal (c : Char) : Option Nat :=
  if '0'.toNat ≤ c.toNat ∧ c.toNat ≤ '9'.toNat then some (c.toNat - '0'.toNat) else none

/-- Digits of an unsigned decimal number, most significant first; `none` for a non-digit. -/
def digitsVal (acc : Nat) : List Char → Option Nat
  | [] => some acc
  | c :: rest =>
    match digitVal c with
    | some d => digitsVal (acc * 10 + d) rest
    | none => none

/-- `str::parse` for an unsigned integer type with `bound` values: an optional plus sign followed by
at least one digit, value in range. -/
def parseUnsigned (bound : Nat) (s : List Char) : Option Nat :=
  let ds := match s with
    | '+' :: ds => ds
    | ds => ds
  if ds.isEmpty then none
  else
    match digitsVal 0 ds with
    | none => none
    | some n => if n < bound then some n else none

/-- Parsing of a signed integer type with the given number of bits (Rust's `str::parse` and Go's
`strconv.ParseInt` in base ten): an optional sign, then digits, value in range. -/
def parseSigned (bits : Nat) (s : List Char) : Option Int :=
  let (neg, ds) : Bool × List Char := match s with
    | '+' :: ds => (false, ds)
    | '-' :: ds => (true, ds)
    | ds => (false, ds)
  if ds.isEmpty then none
  else
    match digitsVal 0 ds with
    | none => none
    | some n =>
      if neg then (if n ≤ 2 ^ (bits - 1) then some (-(n : Int)) else none)
      else if n < 2 ^ (bits - 1) then some (n : Int) else none

/-- `to_string` of an unsigned integer. -/
def digits (n : Nat) : List Char := Nat.toDigits 10 n

/-! ## Lemmas -/

theorem splitC_ne_nil (sep : Char) (s : List Char) : splitC sep s ≠ [] := by
  cases s with
  | nil => simp [splitC]
  | cons c cs =>
    simp only [splitC]
    split
    · simp
    · split <;> simp

theorem splitC_append (sep : Char) (a b : List Char) (h : sep ∉ a) :
    splitC sep (a ++ sep :: b) = a :: splitC sep b := by
  induction a with
  | nil => simp [splitC]
  | cons c a ih =>
    simp only [List.mem_cons, not_or] at h
    simp only [List.cons_append, splitC, Ne.symm h.1, if_false, ih h.2]

theorem splitC_none (sep : Char) (a : List Char) (h : sep ∉ a) : splitC sep a = [a] := by
  induction a with
  | nil => rfl
  | cons c a ih =>
    simp only [List.mem_cons, not_or] at h
    simp [splitC, Ne.symm h.1, ih h.2]

/-- Joining the pieces gives back the text. -/
theorem joinC_splitC (sep : Char) (s : List Char) : joinC sep (splitC sep s) = s := by
  induction s with
  | nil => rfl
  | cons c cs ih =>
    simp only [splitC]
    split
    · rename_i h
      cases hs : splitC sep cs with
      | nil => exact absurd hs (splitC_ne_nil sep cs)
      | cons p ps => rw [hs] at ih; simp [joinC, ih, h]
    · cases hs : splitC sep cs with
      | nil => exact absurd hs (splitC_ne_nil sep cs)
      | cons p ps =>
        rw [hs] at ih
        cases ps with
        | nil => simp only [joinC] at ih ⊢; rw [ih]
        | cons q ps => simp only [joinC, List.cons_append] at ih ⊢; rw [ih]

/-- No piece contains the separator. -/
theorem splitC_pieces (sep : Char) (s p : List Char) (h : p ∈ splitC sep s) : sep ∉ p := by
  induction s generalizing p with
  | nil => simp [splitC] at h; simp [h]
  | cons c cs ih =>
    simp only [splitC] at h
    split at h
    · simp only [List.mem_cons] at h
      rcases h with rfl | h
      · simp
      · exact ih p h
    · rename_i hc
      split at h
      · simp only [List.mem_singleton] at h; subst h; simp [Ne.symm hc]
      · rename_i q qs hq
        simp only [List.mem_cons] at h
        rcases h with rfl | h
        · have := ih q (by rw [hq]; simp)
          simp [this, Ne.symm hc]
        · exact ih p (by rw [hq]; simp [h])

theorem splitC_joinC (sep : Char) (ps : List (List Char)) (hne : ps ≠ [])
    (h : ∀ p ∈ ps, sep ∉ p) : splitC sep (joinC sep ps) = ps := by
  induction ps with
  | nil => exact absurd rfl hne
  | cons p ps ih =>
    cases ps with
    | nil => simp only [joinC]; exact splitC_none sep p (h p (by simp))
    | cons q ps =>
      simp only [joinC]
      rw [splitC_append sep p _ (h p (by simp)), ih (by simp) (fun x hx => h x (by simp [hx]))]

/-- Splitting has one piece exactly when there is no separator. -/
theorem splitC_two (sep : Char) (s a b : List Char) (h : splitC sep s = [a, b]) :
    s = a ++ sep :: b ∧ sep ∉ a ∧ sep ∉ b := by
  have h1 := joinC_splitC sep s
  rw [h] at h1
  simp only [joinC] at h1
  exact ⟨h1.symm, splitC_pieces sep s a (by rw [h]; simp), splitC_pieces sep s b (by rw [h]; simp)⟩

theorem splitC_three (sep : Char) (s a b c : List Char) (h : splitC sep s = [a, b, c]) :
    s = a ++ sep :: (b ++ sep :: c) ∧ sep ∉ a ∧ sep ∉ b ∧ sep ∉ c := by
  have h1 := joinC_splitC sep s
  rw [h] at h1
  simp only [joinC] at h1
  exact ⟨h1.symm, splitC_pieces sep s a (by rw [h]; simp), splitC_pieces sep s b (by rw [h]; simp),
    splitC_pieces sep s c (by rw [h]; simp)⟩

theorem digitVal_eq (c : Char) :
    digitVal c = if c.isDigit = true then some (c.toNat - '0'.toNat) else none := by
  unfold digitVal
  have : ('0'.toNat ≤ c.toNat ∧ c.toNat ≤ '9'.toNat) ↔ c.isDigit = true := by
    simp [Char.isDigit, UInt32.le_iff_toNat_le]
  simp only [this]

theorem digitsVal_eq (acc : Nat) (ds : List Char) :
    digitsVal acc ds =
      if (∀ d ∈ ds, d.isDigit = true) then some (Nat.ofDigitChars 10 ds acc) else none := by
  induction ds generalizing acc with
  | nil => simp [digitsVal]
  | cons c ds ih =>
    simp only [digitsVal, digitVal_eq]
    by_cases hc : c.isDigit = true
    · simp only [hc, if_true, ih, Nat.ofDigitChars_cons, List.mem_cons, forall_eq_or_imp, true_and]
      rw [Nat.mul_comm]
    · simp [hc]

/-- Which texts denote which unsigned numbers: an optional plus sign and decimal digits. -/
def UnsignedText (s : List Char) (n : Nat) : Prop :=
  ∃ sign ds, s = sign ++ ds ∧ (sign = [] ∨ sign = ['+']) ∧ ds ≠ [] ∧
    (∀ d ∈ ds, d.isDigit = true) ∧ n = Nat.ofDigitChars 10 ds 0

theorem parseUnsigned_iff (bound : Nat) (s : List Char) (n : Nat) :
    parseUnsigned bound s = some n ↔ UnsignedText s n ∧ n < bound := by
  have key : ∀ ds : List Char,
      ((if ds.isEmpty then none
        else match digitsVal 0 ds with
          | none => none
          | some n => if n < bound then some n else none) = some n) ↔
      (ds ≠ [] ∧ (∀ d ∈ ds, d.isDigit = true) ∧ n = Nat.ofDigitChars 10 ds 0 ∧ n < bound) := by
    intro ds
    rw [digitsVal_eq]
    by_cases hds : ds = []
    · simp [hds]
    · have hne : ds.isEmpty = false := by simp [hds]
      rw [hne]
      by_cases hall : ∀ d ∈ ds, d.isDigit = true
      · simp only [if_pos hall, Bool.false_eq_true, if_false, hds, ne_eq, not_false_eq_true, true_and]
        constructor
        · intro h
          split at h
          · rename_i hlt
            simp only [Option.some.injEq] at h
            subst h
            exact ⟨hall, rfl, hlt⟩
          · simp at h
        · rintro ⟨_, rfl, h⟩
          simp [h]
      · rw [if_neg hall]
        constructor
        · intro h; simp at h
        · rintro ⟨_, h, _⟩; exact absurd h hall
  unfold parseUnsigned UnsignedText
  split
  · rename_i t
    refine (key _).trans ?_
    constructor
    · rintro ⟨h1, h2, h3, h4⟩
      exact ⟨⟨['+'], _, rfl, .inr rfl, h1, h2, h3⟩, h4⟩
    · rintro ⟨⟨sign, dg, h0, h1, h2, h3, h4⟩, h5⟩
      rcases h1 with rfl | rfl
      · simp at h0; subst h0
        exact absurd (h3 '+' (by simp)) (by decide)
      · simp at h0; subst h0
        exact ⟨h2, h3, h4, h5⟩
  · rename_i hp
    refine (key _).trans ?_
    constructor
    · rintro ⟨h1, h2, h3, h4⟩
      exact ⟨⟨[], _, rfl, .inl rfl, h1, h2, h3⟩, h4⟩
    · rintro ⟨⟨sign, dg, h0, h1, h2, h3, h4⟩, h5⟩
      rcases h1 with rfl | rfl
      · simp at h0; subst h0
        exact ⟨h2, h3, h4, h5⟩
      · exact absurd h0 (hp dg)

/-- Which texts denote which integers: an optional sign and decimal digits. -/
def SignedText (s : List Char) (n : Int) : Prop :=
  ∃ sign ds, s = sign ++ ds ∧ ds ≠ [] ∧ (∀ d ∈ ds, d.isDigit = true) ∧
    ((sign = [] ∨ sign = ['+']) ∧ n = (Nat.ofDigitChars 10 ds 0 : Nat) ∨
      sign = ['-'] ∧ n = -((Nat.ofDigitChars 10 ds 0 : Nat) : Int))

theorem parseSigned_iff (bits : Nat) (cs : List Char) (n : Int) :
    parseSigned bits cs = some n ↔
      SignedText cs n ∧ -(2 ^ (bits - 1) : Nat) ≤ n ∧ n < (2 ^ (bits - 1) : Nat) := by
  have key : ∀ (neg : Bool) (ds : List Char),
      ((if ds.isEmpty then none
        else match digitsVal 0 ds with
          | none => none
          | some n =>
            if neg then (if n ≤ 2 ^ (bits - 1) then some (-(n : Int)) else none)
            else if n < 2 ^ (bits - 1) then some (n : Int) else none) = some n) ↔
      (ds ≠ [] ∧ (∀ d ∈ ds, d.isDigit = true) ∧
        n = (if neg then -((Nat.ofDigitChars 10 ds 0 : Nat) : Int) else (Nat.ofDigitChars 10 ds 0 : Nat)) ∧
        -(2 ^ (bits - 1) : Nat) ≤ n ∧ n < (2 ^ (bits - 1) : Nat)) := by
    intro neg ds
    rw [digitsVal_eq]
    have hpos : 0 < 2 ^ (bits - 1) := Nat.pow_pos (by omega)
    generalize 2 ^ (bits - 1) = b at hpos ⊢
    by_cases hds : ds = []
    · simp [hds]
    · have hne : ds.isEmpty = false := by simp [hds]
      rw [hne]
      by_cases hall : ∀ d ∈ ds, d.isDigit = true
      · simp only [if_pos hall, Bool.false_eq_true, if_false, hds, ne_eq, not_false_eq_true, true_and]
        generalize Nat.ofDigitChars 10 ds 0 = k
        cases neg with
        | true =>
          simp only [if_true]
          constructor
          · intro h
            split at h
            · simp only [Option.some.injEq] at h
              exact ⟨hall, h.symm, by omega, by omega⟩
            · simp at h
          · rintro ⟨_, rfl, h1, h2⟩
            rw [if_pos (by omega)]
        | false =>
          simp only [Bool.false_eq_true, if_false]
          constructor
          · intro h
            split at h
            · simp only [Option.some.injEq] at h
              exact ⟨hall, h.symm, by omega, by omega⟩
            · simp at h
          · rintro ⟨_, rfl, h1, h2⟩
            rw [if_pos (by omega)]
      · rw [if_neg hall]
        constructor
        · intro h; simp at h
        · rintro ⟨_, h, _⟩; exact absurd h hall
  unfold parseSigned SignedText
  split
  rename_i neg ds hmatch
  refine (key neg ds).trans ?_
  split at hmatch
  · rename_i t
    injection hmatch with h1 h2
    subst h1; subst h2
    constructor
    · rintro ⟨h1, h2, h3, h4⟩
      exact ⟨⟨['+'], _, rfl, h1, h2, .inl ⟨.inr rfl, h3⟩⟩, h4⟩
    · rintro ⟨⟨sign, dg, h0, h1, h2, h3⟩, h5⟩
      rcases h3 with ⟨rfl | rfl, h4⟩ | ⟨rfl, h4⟩
      · simp at h0; subst h0
        exact absurd (h2 '+' (by simp)) (by decide)
      · simp at h0; subst h0
        exact ⟨h1, h2, h4, h5⟩
      · simp at h0
  · rename_i t
    injection hmatch with h1 h2
    subst h1; subst h2
    constructor
    · rintro ⟨h1, h2, h3, h4⟩
      exact ⟨⟨['-'], _, rfl, h1, h2, .inr ⟨rfl, h3⟩⟩, h4⟩
    · rintro ⟨⟨sign, dg, h0, h1, h2, h3⟩, h5⟩
      rcases h3 with ⟨rfl | rfl, h4⟩ | ⟨rfl, h4⟩
      · simp at h0; subst h0
        exact absurd (h2 '-' (by simp)) (by decide)
      · simp at h0
      · simp at h0; subst h0
        exact ⟨h1, h2, h4, h5⟩
  · rename_i hp hm
    injection hmatch with h1 h2
    subst h1; subst h2
    constructor
    · rintro ⟨h1, h2, h3, h4⟩
      exact ⟨⟨[], _, rfl, h1, h2, .inl ⟨.inl rfl, h3⟩⟩, h4⟩
    · rintro ⟨⟨sign, dg, h0, h1, h2, h3⟩, h5⟩
      rcases h3 with ⟨rfl | rfl, h4⟩ | ⟨rfl, h4⟩
      · simp at h0; subst h0
        exact ⟨h1, h2, h4, h5⟩
      · exact absurd h0 (hp dg)
      · exact absurd h0 (hm dg)

theorem digits_ne_nil (n : Nat) : digits n ≠ [] := Nat.toDigits_ne_nil

theorem digits_isDigit (n : Nat) : ∀ d ∈ digits n, d.isDigit = true :=
  fun _ hd => Nat.isDigit_of_mem_toDigits (by omega) (by omega) hd

theorem ofDigitChars_digits (n : Nat) : Nat.ofDigitChars 10 (digits n) 0 = n := by
  unfold digits
  rw [Nat.ofDigitChars_ten_toDigits]

theorem digits_inj (a b : Nat) (h : digits a = digits b) : a = b := by
  rw [← ofDigitChars_digits a, ← ofDigitChars_digits b, h]

theorem parseUnsigned_digits (bound n : Nat) (h : n < bound) :
    parseUnsigned bound (digits n) = some n := by
  rw [parseUnsigned_iff]
  exact ⟨⟨[], digits n, rfl, .inl rfl, digits_ne_nil n, digits_isDigit n,
    (ofDigitChars_digits n).symm⟩, h⟩

end Verif.Text
