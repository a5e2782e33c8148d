import Verif.Trace.Props

/-!
# C134: what is read as an X-Ray trace id
-/

namespace Verif.Trace

namespace Spec

/-- A hexadecimal digit, in either case, and its value. -/
def HexDigit (c : Char) (d : Nat) : Prop :=
  "0123456789abcdef".toList[d]? = some c ∨ "0123456789ABCDEF".toList[d]? = some c

/-- Hexadecimal digits that stand for a number, the first one being the highest. -/
inductive Number : List Char → Nat → Prop
  | nil : Number [] 0
  | snoc {s n c d} : Number s n → HexDigit c d → Number (s ++ [c]) (n * 16 + d)

/-- What `TraceId::from_hex` takes for a number: digits, possibly after a plus sign. -/
def Signed (s : List Char) (n : Nat) : Prop :=
  ∃ t, t ≠ [] ∧ (s = t ∨ s = '+' :: t) ∧ Number t n

/-- Three parts, of which the first one is not looked at; a hyphen at the end is. -/
def Parts (s a b : List Char) : Prop :=
  ∃ v, '-' ∉ v ∧ '-' ∉ a ∧ '-' ∉ b ∧
    ((b ≠ [] ∧ s = v ++ '-' :: (a ++ '-' :: b)) ∨ s = v ++ '-' :: (a ++ '-' :: (b ++ ['-'])))

end Spec

open Spec

/-- A character with one of ten or fewer codes. -/
theorem char_code {c : Char} {n : Nat} (h : c.toNat = n) : c = Char.ofNat n := by
  rw [← h, Char.ofNat_toNat]

theorem le_code {a b : Char} : a ≤ b ↔ a.toNat ≤ b.toNat := Iff.rfl

theorem digitVal_of {c : Char} {d : Nat} (h : HexDigit c d) : digitVal c = some d := by
  have hd : d < 16 := by
    rcases h with h | h <;> exact (List.getElem?_eq_some_iff.1 h).1
  have : ∀ d : Fin 16, digitVal ("0123456789abcdef".toList[d.val]?.getD 'x') = some d.val ∧
      digitVal ("0123456789ABCDEF".toList[d.val]?.getD 'x') = some d.val := by decide +kernel
  obtain ⟨h1, h2⟩ := this ⟨d, hd⟩
  rcases h with h | h
  · rw [h] at h1; exact h1
  · rw [h] at h2; exact h2

theorem of_digitVal {c : Char} {d : Nat} (h : digitVal c = some d) : HexDigit c d := by
  have key : ∀ n, n < 128 → digitVal (Char.ofNat n) = some d → HexDigit (Char.ofNat n) d := by
    have : ∀ n : Fin 128, ∀ d : Fin 16, digitVal (Char.ofNat n.val) = some d.val →
        "0123456789abcdef".toList[d.val]? = some (Char.ofNat n.val) ∨
        "0123456789ABCDEF".toList[d.val]? = some (Char.ofNat n.val) := by decide +kernel
    have small : ∀ n : Fin 128, (digitVal (Char.ofNat n.val)).getD 0 < 16 := by decide +kernel
    intro n hn hv
    have hd := small ⟨n, hn⟩
    simp only [hv, Option.getD_some] at hd
    exact this ⟨n, hn⟩ ⟨d, hd⟩ hv
  have hc : c.toNat < 128 := by
    have h9 : '9'.toNat = 57 := rfl
    have hf : 'f'.toNat = 102 := rfl
    have hF : 'F'.toNat = 70 := rfl
    unfold digitVal at h
    split at h
    next hh => have := le_code.1 hh.2; omega
    next =>
      split at h
      next hh => have := le_code.1 hh.2; omega
      next =>
        split at h
        next hh => have := le_code.1 hh.2; omega
        next => cases h
  have := key c.toNat hc
  rw [Char.ofNat_toNat] at this
  exact this h

theorem digits_iff (s : Str) (n : Nat) : digits 0 s = some n ↔ Number s n := by
  constructor
  · intro h
    generalize hk : s.length = k
    induction k generalizing s n with
    | zero =>
      cases List.length_eq_zero_iff.1 hk
      cases h
      exact .nil
    | succ k ih =>
      have hne : s ≠ [] := by rintro rfl; cases hk
      rw [← List.dropLast_concat_getLast hne] at h ⊢
      rw [digits_snoc] at h
      cases hm : digits 0 s.dropLast with
      | none => rw [hm] at h; cases h
      | some m =>
        rw [hm, Option.bind_some] at h
        cases hv : digitVal (s.getLast hne) with
        | none => rw [hv] at h; cases h
        | some d =>
          rw [hv] at h
          cases h
          exact .snoc (ih _ _ hm (by rw [List.length_dropLast, hk]; rfl)) (of_digitVal hv)
  · intro h
    induction h with
    | nil => rfl
    | snoc _ hd ih => rw [digits_snoc, ih, Option.bind_some, digitVal_of hd]; rfl

theorem fromHex_iff (s : Str) (n : Nat) : fromHex s = some n ↔ Signed s n ∧ n < 2 ^ 128 := by
  have hplus : ∀ t n, Number ('+' :: t) n → False := by
    intro t n h
    have := (digits_iff _ _).2 h
    rw [digits, show digitVal '+' = none from by decide] at this
    cases this
  constructor
  · intro h
    rw [fromHex] at h
    split at h
    · cases h
    next hne =>
      split at h
      next m hm =>
        split at h
        next hlt =>
          cases h
          refine ⟨⟨dropPlus s, hne, ?_, (digits_iff _ _).1 hm⟩, hlt⟩
          cases s with
          | nil => exact .inl rfl
          | cons c cs =>
            by_cases hc : c = '+'
            · subst hc; exact .inr (by rw [dropPlus, if_pos rfl])
            · exact .inl (by rw [dropPlus, if_neg hc])
        next => cases h
      next => cases h
  · rintro ⟨⟨t, hne, he, hn⟩, hlt⟩
    have hd : dropPlus s = t := by
      rcases he with rfl | rfl
      · cases s with
        | nil => rfl
        | cons c cs =>
          rw [dropPlus, if_neg]
          rintro rfl
          exact hplus _ _ hn
      · rw [dropPlus, if_pos rfl]
    rw [fromHex, hd, if_neg hne, (digits_iff _ _).2 hn]
    exact if_pos hlt

theorem split_ne (s : Str) : split s ≠ [] := by
  cases s with
  | nil => nofun
  | cons c cs =>
    rw [split]
    split
    · nofun
    · split <;> nofun

theorem split_bare {s : Str} (h : '-' ∉ s) : split s = [s] := by
  induction s with
  | nil => rfl
  | cons c cs ih =>
    rw [List.mem_cons, not_or] at h
    rw [split, if_neg (fun e => h.1 e.symm), ih h.2]

theorem split_at' {s t : Str} (h : '-' ∉ s) : split (s ++ '-' :: t) = s :: split t := by
  induction s with
  | nil => rw [List.nil_append, split, if_pos rfl]
  | cons c cs ih =>
    rw [List.mem_cons, not_or] at h
    rw [List.cons_append, split, if_neg (fun e => h.1 e.symm), ih h.2]

theorem split_join (s : Str) : ∀ p ps, split s = p :: ps →
    s = p ++ (ps.map fun q => '-' :: q).flatten ∧ '-' ∉ p ∧ ∀ q ∈ ps, '-' ∉ q := by
  induction s with
  | nil =>
    intro p ps h
    cases h
    exact ⟨rfl, nofun, nofun⟩
  | cons c cs ih =>
    intro p ps h
    rw [split] at h
    split at h
    next hc =>
      subst hc
      cases h
      cases hr : split cs with
      | nil => exact absurd hr (split_ne cs)
      | cons q qs =>
        obtain ⟨e, h1, h2⟩ := ih q qs hr
        refine ⟨?_, nofun, ?_⟩
        · rw [List.nil_append, List.map_cons, List.flatten_cons, List.cons_append, ← e]
        · intro x hx
          rcases List.mem_cons.1 hx with rfl | hx
          · exact h1
          · exact h2 x hx
    next hc =>
      split at h
      next hr => exact absurd hr (split_ne cs)
      next q qs hr =>
        obtain ⟨e, h1, h2⟩ := ih q qs hr
        cases h
        refine ⟨?_, ?_, h2⟩
        · rw [List.cons_append, ← e]
        · rw [List.mem_cons, not_or]
          exact ⟨fun e => hc e.symm, h1⟩

theorem parts_iff (s a b : Str) : (∃ v, splitTerminator s = [v, a, b]) ↔ Parts s a b := by
  constructor
  · rintro ⟨v, h⟩
    refine ⟨v, ?_⟩
    rw [splitTerminator] at h
    split at h
    next hl =>
      have hs : split s = [v, a, b, []] := by
        have h2 := List.dropLast_concat_getLast (split_ne s)
        rw [h] at h2
        rw [List.getLast?_eq_some_getLast (split_ne s), Option.some.injEq] at hl
        rw [hl] at h2
        exact h2.symm
      obtain ⟨e, h1, h2⟩ := split_join s v [a, b, []] hs
      refine ⟨h1, h2 a (by simp), h2 b (by simp), .inr ?_⟩
      rw [e]
      simp
    next hl =>
      obtain ⟨e, h1, h2⟩ := split_join s v [a, b] h
      refine ⟨h1, h2 a (by simp), h2 b (by simp), .inl ⟨?_, ?_⟩⟩
      · rintro rfl
        rw [h] at hl
        exact hl rfl
      · rw [e]
        simp
  · rintro ⟨v, hv, ha, hb, ⟨hne, rfl⟩ | rfl⟩
    · refine ⟨v, ?_⟩
      rw [splitTerminator, split_at' hv, split_at' ha, split_bare hb]
      rw [if_neg]
      intro h
      exact hne (Option.some.inj h)
    · refine ⟨v, ?_⟩
      rw [splitTerminator, split_at' hv, split_at' ha, split_at' hb]
      rfl

/-- What is read, exactly: three parts, of which the second and third make up a number that is not zero
and not too large. -/
theorem xray_reads (s : Str) (id : Nat) : ofXray s = some id ↔
    ∃ a b, Parts s a b ∧ Signed (a ++ b) id ∧ 0 < id ∧ id < 2 ^ 128 := by
  constructor
  · intro h
    rw [ofXray] at h
    split at h
    next v a b hp =>
      split at h
      next n hn =>
        split at h
        · cases h
        next h0 =>
          cases h
          obtain ⟨h1, h2⟩ := (fromHex_iff _ _).1 hn
          exact ⟨a, b, (parts_iff s a b).1 ⟨v, hp⟩, h1, by omega, h2⟩
      next => cases h
    next => cases h
  · rintro ⟨a, b, hp, hs, h0, hlt⟩
    obtain ⟨v, hv⟩ := (parts_iff s a b).2 hp
    rw [ofXray, hv]
    dsimp only
    rw [(fromHex_iff _ _).2 ⟨hs, hlt⟩]
    exact if_neg (by omega)

/-- Upper-case digits, a plus sign and a hyphen at the end are accepted. -/
example : ofXray "x-+Fa-c0-".toList = some 0xfac0 := by decide +kernel

example : Parts "1-a-b".toList ['a'] ['b'] := ⟨['1'], by decide, by decide, by decide, .inl ⟨by decide, rfl⟩⟩

end Verif.Trace
