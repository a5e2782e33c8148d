import Verif.Transform.RouteModel
import Verif.Transform.Lemmas

/-!
# Lemmas about the paths of the router
-/

namespace Verif.Transform.Route

open Verif Verif.Subst Verif.Transform

/-- A text is one part, or a part, a separator and more. -/
theorem parts (r : Str) :
    ('/' ∉ r ∧ upTo r = r ∧ after r = [] ∧ splitSlash r = [r]) ∨
    (∃ v r', r = v ++ '/' :: r' ∧ '/' ∉ v ∧ upTo r = v ∧ after r = '/' :: r' ∧
      splitSlash r = v :: splitSlash r') := by
  induction r with
  | nil => exact .inl ⟨nofun, rfl, rfl, rfl⟩
  | cons c r ih =>
    by_cases hc : c = '/'
    · subst hc
      refine .inr ⟨[], r, rfl, nofun, ?_, ?_, ?_⟩
      · simp [upTo]
      · simp [after]
      · simp [splitSlash]
    · have hu : upTo (c :: r) = c :: upTo r := by simp [upTo, hc]
      have hf : after (c :: r) = after r := by simp [after, hc]
      rcases ih with ⟨h1, h2, h3, h4⟩ | ⟨v, r', h1, h2, h3, h4, h5⟩
      · refine .inl ⟨?_, by rw [hu, h2], by rw [hf, h3], ?_⟩
        · intro hm
          rcases List.mem_cons.1 hm with e | e
          · exact hc e.symm
          · exact h1 e
        · simp only [splitSlash, if_neg hc, h4]
      · refine .inr ⟨c :: v, r', by rw [h1]; rfl, ?_, by rw [hu, h3], by rw [hf, h4], ?_⟩
        · intro hm
          rcases List.mem_cons.1 hm with e | e
          · exact hc e.symm
          · exact h2 e
        · simp only [splitSlash, if_neg hc, h5]

theorem upTo_name (n t : Str) (h : '/' ∉ n) : upTo (n ++ '/' :: t) = n ∧ after (n ++ '/' :: t) = '/' :: t := by
  induction n with
  | nil => simp [upTo, after]
  | cons c n ih =>
    have hc : c ≠ '/' := fun e => h (e ▸ List.mem_cons_self ..)
    have := ih (fun e => h (List.mem_cons_of_mem _ e))
    unfold upTo after at this ⊢
    simpa [hc] using this

theorem upTo_last (n : Str) (h : '/' ∉ n) : upTo n = n ∧ after n = [] := by
  rcases parts n with g | ⟨v, r', g, _⟩
  · exact ⟨g.2.1, g.2.2.1⟩
  · exact absurd (g ▸ List.mem_append_right _ (List.mem_cons_self ..)) h

/-- Text stands for itself. -/
theorem matches_text (s : Str) (t r : Str) (n : Nat) (hs : noSyntax s = true) (hn : s.length ≤ n)
    (ps : List (Str × Str)) :
    matchFrom n (s ++ t) r = some ps ↔ ∃ r', r = s ++ r' ∧ matchFrom (n - s.length) t r' = some ps := by
  induction s generalizing r n with
  | nil => simp
  | cons c s ih =>
    cases n with
    | zero => cases hn
    | succ n =>
      have hc : c ≠ ':' ∧ c ≠ '*' := by
        have : (c ≠ ':' && c ≠ '*') = true := by
          unfold noSyntax at hs
          rw [List.all_cons, Bool.and_eq_true] at hs
          exact hs.1
        simpa using this
      have hs' : noSyntax s = true := by
        unfold noSyntax at hs ⊢
        rw [List.all_cons, Bool.and_eq_true] at hs
        exact hs.2
      have eq : matchFrom (n + 1) (c :: s ++ t) r =
          match r with
          | [] => none
          | d :: r => if c = d then matchFrom n (s ++ t) r else none := by
        rw [List.cons_append, matchFrom.eq_def]
        dsimp only
        rw [if_neg hc.1, if_neg hc.2]
        cases r <;> rfl
      rw [eq, List.length_cons, Nat.succ_sub_succ]
      cases r with
      | nil => simp
      | cons d r =>
        dsimp only
        by_cases e : c = d
        · subst e
          rw [if_pos rfl, ih r n hs' (Nat.le_of_succ_le_succ hn)]
          simp
        · rw [if_neg e]
          constructor
          · exact nofun
          · rintro ⟨r', h, _⟩
            injection h with h _
            exact absurd h.symm e

theorem matches_sep (n : Nat) (p r : Str) (ps : List (Str × Str)) :
    matchFrom (n + 1) ('/' :: p) r = some ps ↔ ∃ r', r = '/' :: r' ∧ matchFrom n p r' = some ps := by
  have := matches_text ['/'] p r (n + 1) rfl (Nat.succ_le_succ (Nat.zero_le _)) ps
  simpa using this

theorem matches_nil (n : Nat) (r : Str) (ps : List (Str × Str)) :
    matchFrom (n + 1) [] r = some ps ↔ r = [] ∧ ps = [] := by
  unfold matchFrom
  by_cases h : r = []
  · rw [if_pos h]
    constructor
    · intro e
      injection e with e
      exact ⟨h, e.symm⟩
    · rintro ⟨_, rfl⟩
      rfl
  · rw [if_neg h]
    exact ⟨nofun, fun g => absurd g.1 h⟩

theorem matches_param (n : Nat) (p r : Str) (ps : List (Str × Str)) :
    matchFrom (n + 1) (':' :: p) r = some ps ↔
      upTo r ≠ [] ∧ ∃ ps', matchFrom n (after p) (after r) = some ps' ∧ ps = (upTo p, upTo r) :: ps' := by
  rw [matchFrom.eq_def]
  dsimp only
  rw [if_pos rfl]
  by_cases h : upTo r = []
  · rw [if_pos h]
    exact ⟨nofun, fun g => absurd h g.1⟩
  · rw [if_neg h, Option.map_eq_some_iff]
    constructor
    · rintro ⟨a, ha, rfl⟩
      exact ⟨h, a, ha, rfl⟩
    · rintro ⟨_, a, ha, rfl⟩
      exact ⟨a, ha, rfl⟩

theorem matches_rest (n : Nat) (p r : Str) (ps : List (Str × Str)) :
    matchFrom (n + 1) ('*' :: p) r = some ps ↔ r ≠ [] ∧ ps = [(p, r)] := by
  rw [matchFrom.eq_def]
  dsimp only
  rw [if_neg (by decide), if_pos rfl]
  by_cases h : r = []
  · rw [if_pos h]
    exact ⟨nofun, fun g => absurd h g.1⟩
  · rw [if_neg h]
    constructor
    · intro e
      injection e with e
      exact ⟨h, e.symm⟩
    · rintro ⟨_, rfl⟩
      rfl

/-- The router takes text. -/
theorem takes_text (s : Str) (t : Str) (n : Nat) (sep : Bool) (hs : noSyntax s = true) (hn : s.length ≤ n) :
    takes n sep (s ++ '/' :: t) = takes (n - s.length) false ('/' :: t) ∧
    (s.length < n → takes n sep s = true) := by
  induction s generalizing n sep with
  | nil =>
    refine ⟨?_, ?_⟩
    · cases n with
      | zero => rfl
      | succ n =>
        simp [takes]
    · intro h
      cases n with
      | zero => cases h
      | succ n => rfl
  | cons c s ih =>
    cases n with
    | zero => cases hn
    | succ n =>
      have hc : c ≠ ':' ∧ c ≠ '*' := by
        have : (c ≠ ':' && c ≠ '*') = true := by
          unfold noSyntax at hs
          rw [List.all_cons, Bool.and_eq_true] at hs
          exact hs.1
        simpa using this
      have hs' : noSyntax s = true := by
        unfold noSyntax at hs ⊢
        rw [List.all_cons, Bool.and_eq_true] at hs
        exact hs.2
      have := ih n (c == '/') hs' (Nat.le_of_succ_le_succ hn)
      refine ⟨?_, fun hl => ?_⟩
      · rw [List.cons_append, takes.eq_def]
        dsimp only
        rw [if_neg hc.1, if_neg hc.2, this.1, List.length_cons, Nat.succ_sub_succ]
      · rw [takes.eq_def]
        dsimp only
        rw [if_neg hc.1, if_neg hc.2]
        exact this.2 (Nat.lt_of_succ_lt_succ hl)

end Verif.Transform.Route
