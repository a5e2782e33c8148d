import Verif.TmplParser.Spec

/-! # Lemmas about the parser of template function calls -/

namespace Verif.TmplParser

variable {P F : Type}

/-! ## The scanner only reads on -/

/-- Nothing is read twice beyond the place where the parser started, and saved positions are only
added. -/
def Inv (s s' : S) : Prop :=
  s'.rest.length ≤ s.rest.length ∧
    ∃ ex, s'.stack = ex ++ s.stack ∧ ∀ e ∈ ex, e.length ≤ s.rest.length

/-- The result of a parser: see `Inv`; a success has read something. -/
def Fine {α : Type} (s : S) (r : Except PErr α × S) : Prop :=
  Inv s r.2 ∧ ∀ a, r.1 = .ok a → r.2.rest.length < s.rest.length

theorem Inv.refl (s : S) : Inv s s := ⟨Nat.le_refl _, [], rfl, by simp⟩

theorem Inv.trans {a b c : S} (h1 : Inv a b) (h2 : Inv b c) : Inv a c := by
  obtain ⟨h1, ex, h3, h4⟩ := h1
  obtain ⟨h2, ey, h5, h6⟩ := h2
  refine ⟨by omega, ey ++ ex, by rw [h5, h3, List.append_assoc], ?_⟩
  intro e he
  rcases List.mem_append.1 he with he | he
  · have := h6 e he; omega
  · exact h4 e he

theorem Inv.fine {α : Type} {s s' : S} {r : Except PErr α × S} (h : Inv s s') (h1 : Fine s' r) :
    Fine s r := by
  refine ⟨h.trans h1.1, ?_⟩
  intro a ha
  have := h1.2 a ha
  have := h.1
  omega

theorem fine_error {α : Type} {s s' : S} (e : PErr) (h : Inv s s') :
    Fine s ((.error e, s') : Except PErr α × S) := ⟨h, by simp⟩

theorem fine_ok {α : Type} {s : S} (a : α) {r : List Char} (h : r.length < s.rest.length) :
    Fine s ((.ok a, ⟨r, s.stack⟩) : Except PErr α × S) :=
  ⟨⟨by dsimp only; omega, [], rfl, by simp⟩, fun _ _ => h⟩

theorem backtrack_save (s : S) (r : List Char) : S.backtrack ⟨r, s.save.stack⟩ = s := rfl

theorem popPos_save (s : S) (r : List Char) : S.popPos ⟨r, s.save.stack⟩ = ⟨r, s.stack⟩ := rfl

theorem pathGo_split : ∀ (t : List Char) (a b : Bool), (pathGo t a b).1 ++ (pathGo t a b).2 = t := by
  intro t
  induction t with
  | nil => intro a b; rfl
  | cons c r ih =>
    intro a b
    rw [pathGo]
    split
    · simp [ih]
    · split
      · simp [ih]
      · split
        · simp [ih]
        · split
          · rfl
          · simp [ih]

theorem jsonPathExpr_fine (x : Ext P F) (hx : Sane x) (s : S) : Fine s (jsonPathExpr x s) := by
  rw [jsonPathExpr]
  have hs := pathGo_split s.save.rest false false
  cases hp : x.path (pathGo s.save.rest false false).1 with
  | some p =>
    dsimp only
    rw [popPos_save]
    apply fine_ok
    have h1 := hx.dollar _ _ hp
    cases hq : (pathGo s.save.rest false false).1 with
    | nil => rw [hq] at h1; cases h1
    | cons c t =>
      have h2 := congrArg List.length hs
      rw [hq] at h2
      simp only [List.length_append, List.length_cons] at h2
      have : s.save.rest = s.rest := rfl
      rw [this] at h2 ⊢
      omega
  | none =>
    dsimp only
    rw [backtrack_save]
    exact fine_error _ (Inv.refl s)

theorem scanGo_len {T : Type} (cb : List Char → Option (Action T)) :
    ∀ (rest seq : List Char) (rq : Bool) (q : Option T),
    (scanGo cb rest seq rq q).2.length ≤ rest.length ∧
    (q = none → ∀ t, (scanGo cb rest seq rq q).1 = .ok (some t) →
      (scanGo cb rest seq rq q).2.length < rest.length) := by
  intro rest
  induction rest with
  | nil =>
    intro seq rq q
    rw [scanGo]
    refine ⟨by cases rq <;> simp, ?_⟩
    intro hq t ht
    subst hq
    cases rq <;> simp at ht
  | cons c r ih =>
    intro seq rq q
    rw [scanGo]
    cases cb (seq ++ [c]) with
    | none => cases rq <;> simp_all
    | some a =>
      cases a with
      | ret t => simp
      | request t =>
        dsimp only
        have := (ih (seq ++ [c]) false (some t)).1
        simp only [List.length_cons]
        exact ⟨by omega, fun _ _ _ => by omega⟩
      | require =>
        dsimp only
        have := (ih (seq ++ [c]) true q).1
        simp only [List.length_cons]
        exact ⟨by omega, fun _ _ _ => by omega⟩

theorem literal_fine (cb : List Char → Option (Action (Expr P F))) (s : S) :
    Fine s (literal cb s) := by
  rw [literal]
  have h := scanGo_len cb s.save.rest [] false none
  have hr : s.save.rest = s.rest := rfl
  split
  next e r he =>
    rw [popPos_save]
    apply fine_ok
    have := h.2 rfl e (by rw [he])
    rw [he] at this
    exact this
  next r he =>
    rw [backtrack_save]
    exact fine_error _ (Inv.refl s)
  next e r he =>
    apply fine_error
    rw [he] at h
    refine ⟨h.1, [s.rest], rfl, ?_⟩
    simp

theorem floatGo_len : ∀ (rest seq : List Char) (b : Bool),
    (floatGo rest seq b).1.1.length + (floatGo rest seq b).2.length = rest.length + seq.length := by
  intro rest
  induction rest with
  | nil => intro seq b; rw [floatGo]; simp
  | cons c r ih =>
    intro seq b
    rw [floatGo]
    split
    · rw [ih]; simp; omega
    · split
      · rw [ih]; simp; omega
      · split
        · rw [ih]; simp; omega
        · simp; omega

theorem floatLiteral_fine (x : Ext P F) (s : S) : Fine s (floatLiteral x s) := by
  rw [floatLiteral]
  have h := floatGo_len s.save.rest [] false
  have hr : s.save.rest = s.rest := rfl
  rw [hr] at h ⊢
  generalize floatGo s.rest [] false = g at h ⊢
  obtain ⟨⟨seq, passed⟩, r⟩ := g
  dsimp only at h ⊢
  split
  · rw [backtrack_save]; exact fine_error _ (Inv.refl s)
  next hc =>
    split
    · rw [popPos_save]
      apply fine_ok
      have : seq ≠ [] := fun h => hc (Or.inl h)
      have := List.length_pos_iff.2 this
      simp only [List.length_nil] at h
      omega
    · rw [backtrack_save]; exact fine_error _ (Inv.refl s)

theorem intGo_len : ∀ (rest seq : List Char),
    (intGo rest seq).1.length + (intGo rest seq).2.length = rest.length + seq.length := by
  intro rest
  induction rest with
  | nil => intro seq; rw [intGo]; simp
  | cons c r ih =>
    intro seq
    rw [intGo]
    split
    · rw [ih]; simp; omega
    · simp; omega

theorem intLiteral_fine (s : S) : Fine s (intLiteral s : Except PErr (Expr P F) × S) := by
  rw [intLiteral]
  have h := intGo_len s.save.rest []
  have hr : s.save.rest = s.rest := rfl
  rw [hr] at h ⊢
  generalize intGo s.rest [] = g at h ⊢
  obtain ⟨seq, r⟩ := g
  dsimp only at h ⊢
  split
  · rw [backtrack_save]; exact fine_error _ (Inv.refl s)
  next hc =>
    split
    · rw [popPos_save]
      apply fine_ok
      have := List.length_pos_iff.2 hc
      simp only [List.length_nil] at h
      omega
    · rw [backtrack_save]; exact fine_error _ (Inv.refl s)

theorem strGo_len : ∀ (rest : List Char) (prev : Char) (t r : List Char),
    strGo rest prev = some (t, r) → r.length < rest.length := by
  intro rest
  induction rest with
  | nil => intro prev t r h; cases h
  | cons c q ih =>
    intro prev t r h
    rw [strGo] at h
    split at h
    · cases h; simp
    · split at h
      next t' r' h' =>
        cases h
        have := ih c t' r h'
        simp only [List.length_cons]; omega
      next => cases h

theorem stringLiteral_fine (s : S) : Fine s (stringLiteral s : Except PErr (Expr P F) × S) := by
  rw [stringLiteral]
  have hr : s.save.rest = s.rest := rfl
  rw [hr]
  split
  next r hs =>
    split
    next t r' h =>
      rw [popPos_save]
      apply fine_ok
      have := strGo_len r ' ' t r' h
      rw [hs, List.length_cons]
      omega
    next => rw [backtrack_save]; exact fine_error _ (Inv.refl s)
  next => rw [backtrack_save]; exact fine_error _ (Inv.refl s)

theorem simpleArg_fine (x : Ext P F) (hx : Sane x) (s : S) : Fine s (simpleArg x s) := by
  rw [simpleArg]
  have h1 := jsonPathExpr_fine x hx s
  cases e1 : jsonPathExpr x s with
  | mk r1 s1 =>
    rw [e1] at h1
    cases r1 with
    | ok v => exact h1
    | error e =>
      dsimp only
      split
      · exact h1
      · have h2 := h1.1.fine (literal_fine (boolCb (P := P) (F := F)) s1)
        cases e2 : literal (boolCb (P := P) (F := F)) s1 with
        | mk r2 s2 =>
          rw [e2] at h2
          cases r2 with
          | ok v => exact h2
          | error _ =>
            dsimp only
            have h3 := h2.1.fine (literal_fine (nullCb (P := P) (F := F)) s2)
            cases e3 : literal (nullCb (P := P) (F := F)) s2 with
            | mk r3 s3 =>
              rw [e3] at h3
              cases r3 with
              | ok v => exact h3
              | error _ =>
                dsimp only
                have h4 := h3.1.fine (floatLiteral_fine x s3)
                cases e4 : floatLiteral x s3 with
                | mk r4 s4 =>
                  rw [e4] at h4
                  cases r4 with
                  | ok v => exact h4
                  | error _ =>
                    dsimp only
                    have h5 := h4.1.fine (intLiteral_fine (P := P) (F := F) s4)
                    cases e5 : (intLiteral s4 : Except PErr (Expr P F) × S) with
                    | mk r5 s5 =>
                      rw [e5] at h5
                      cases r5 with
                      | ok v => exact h5
                      | error _ =>
                        dsimp only
                        have h6 := h5.1.fine (stringLiteral_fine (P := P) (F := F) s5)
                        cases e6 : (stringLiteral s5 : Except PErr (Expr P F) × S) with
                        | mk r6 s6 =>
                          rw [e6] at h6
                          cases r6 with
                          | ok v => exact h6
                          | error _ =>
                            dsimp only
                            split
                            · exact h6
                            · split
                              · exact fine_error _ h6.1
                              · exact h6

theorem nameGo_len (x : Ext P F) : ∀ (rest name : List Char),
    (nameGo x rest name).2.length ≤ rest.length ∧
    (name = [] → ∀ n, n ≠ [] → (nameGo x rest name).1 = some n →
      (nameGo x rest name).2.length < rest.length) := by
  intro rest
  induction rest with
  | nil =>
    intro name
    rw [nameGo]
    refine ⟨Nat.le_refl _, ?_⟩
    intro h n hn h1
    cases h1
    exact absurd h hn
  | cons c r ih =>
    intro name
    cases name with
    | nil =>
      rw [nameGo]
      split
      · have := ih []
        refine ⟨by simp only [List.length_cons]; omega, ?_⟩
        intro _ n hn h1
        have := this.2 rfl n hn h1
        simp only [List.length_cons]; omega
      · split
        · have := ih [c]
          refine ⟨by simp only [List.length_cons]; omega, ?_⟩
          intro _ n hn h1
          simp only [List.length_cons]; omega
        · exact ⟨Nat.le_refl _, by simp⟩
    | cons a as =>
      rw [nameGo]
      · split
        · have := ih (a :: as ++ [c])
          exact ⟨by simp only [List.length_cons]; omega, by simp⟩
        · exact ⟨Nat.le_refl _, by simp⟩
      · simp

theorem funcName_len (x : Ext P F) (rest : List Char) :
    (funcName x rest).2.length ≤ rest.length ∧
    ∀ n, (funcName x rest).1 = .ok n → (funcName x rest).2.length < rest.length := by
  have h := nameGo_len x rest []
  rw [funcName]
  split
  next r he => rw [he] at h; exact ⟨h.1, by simp⟩
  next name r hne he =>
    have hn : name ≠ [] := by
      intro hc
      exact hne (hc ▸ rfl)
    have h2 := h.2 rfl name hn (by rw [he])
    rw [he] at h h2
    exact ⟨h.1, fun _ _ => h2⟩
  next r he => rw [he] at h; exact ⟨h.1, by simp⟩

theorem skipWhite_len (x : Ext P F) (rest : List Char) :
    (skipWhite x rest).length ≤ rest.length := by
  rw [skipWhite]
  exact (List.dropWhile_sublist _).length_le

/-- The bound on the depth is never reached. -/
theorem enough_fuel (x : Ext P F) (hx : Sane x) : ∀ fuel : Nat,
    (∀ s : S, 3 * s.rest.length + 1 ≤ fuel → ∃ r, funcCall x fuel s = some r ∧ Fine s r) ∧
    (∀ (s : S) (args : List (Expr P F)), 3 * s.rest.length + 3 ≤ fuel →
      ∃ r, argsLoop x fuel s args = some r ∧ Inv s r.2) ∧
    (∀ s : S, 3 * s.rest.length + 2 ≤ fuel → ∃ r, funcArg x fuel s = some r ∧ Fine s r) := by
  intro fuel
  induction fuel with
  | zero => exact ⟨fun s h => by omega, fun s _ h => by omega, fun s h => by omega⟩
  | succ fuel ih =>
    obtain ⟨ihC, ihL, ihA⟩ := ih
    refine ⟨?_, ?_, ?_⟩
    · intro s hf
      rw [funcCall]
      have hn := funcName_len x s.save.rest
      have hr : s.save.rest = s.rest := rfl
      cases e1 : funcName x s.save.rest with
      | mk r1 r =>
        rw [e1, hr] at hn
        cases r1 with
        | error e => exact ⟨_, rfl, by rw [backtrack_save]; exact fine_error _ (Inv.refl s)⟩
        | ok name =>
          dsimp only
          have hlt := hn.2 name rfl
          have hw := skipWhite_len x r
          dsimp only at hlt
          split
          next r1 h1 =>
            rw [h1, List.length_cons] at hw
            obtain ⟨res, h2, h3⟩ := ihL ⟨r1, s.save.stack⟩ [] (by dsimp only; omega)
            rw [h2]
            obtain ⟨q, s2⟩ := res
            obtain ⟨h4, ex, h5, h6⟩ := h3
            dsimp only at h4 h5 h6
            have hst : s2.stack = ex ++ s.rest :: s.stack := h5
            cases q with
            | ok args =>
              dsimp only
              refine ⟨_, rfl, ⟨⟨?_, ?_⟩, ?_⟩⟩
              · show s2.rest.length ≤ _; omega
              · cases ex with
                | nil =>
                  refine ⟨[], ?_, by simp⟩
                  show s2.stack.tail = _
                  rw [hst]; rfl
                | cons a ex =>
                  refine ⟨ex ++ [s.rest], ?_, ?_⟩
                  · show s2.stack.tail = _
                    rw [hst]; simp
                  · intro e he
                    rcases List.mem_append.1 he with he | he
                    · have := h6 e (List.mem_cons_of_mem _ he); omega
                    · simp only [List.mem_singleton] at he
                      rw [he]; exact Nat.le_refl _
              · intro _ _
                show s2.rest.length < _; omega
            | error e =>
              dsimp only
              refine ⟨_, rfl, fine_error _ ?_⟩
              rw [S.backtrack, hst]
              cases ex with
              | nil => exact Inv.refl s
              | cons a ex =>
                refine ⟨?_, ex ++ [s.rest], ?_, ?_⟩
                · show a.length ≤ _
                  have := h6 a (by simp); omega
                · show ex ++ s.rest :: s.stack = _
                  simp
                · intro e he
                  rcases List.mem_append.1 he with he | he
                  · have := h6 e (List.mem_cons_of_mem _ he); omega
                  · simp only [List.mem_singleton] at he
                    rw [he]; exact Nat.le_refl _
          next => exact ⟨_, rfl, by rw [backtrack_save]; exact fine_error _ (Inv.refl s)⟩
    · intro s args hf
      rw [argsLoop]
      split
      next => exact ⟨_, rfl, Inv.refl s⟩
      next c r hs =>
        rw [hs, List.length_cons] at hf
        have hstep : ∀ s' : S, s'.stack = s.stack → s'.rest = r → Inv s s' := by
          intro s' h1 h2
          exact ⟨by rw [h2, hs, List.length_cons]; omega, [], by simpa using h1, by simp⟩
        split
        · obtain ⟨res, h1, h2⟩ := ihL ⟨r, s.stack⟩ args (by dsimp only; omega)
          exact ⟨res, h1, (hstep ⟨r, s.stack⟩ rfl rfl).trans h2⟩
        · split
          · exact ⟨_, rfl, hstep _ rfl rfl⟩
          · obtain ⟨res, h1, h2⟩ := ihA s (by rw [hs, List.length_cons]; omega)
            rw [h1]
            obtain ⟨q, s1⟩ := res
            cases q with
            | error e => exact ⟨_, rfl, h2.1⟩
            | ok a =>
              dsimp only
              have hlt := h2.2 a rfl
              dsimp only at hlt
              rw [hs, List.length_cons] at hlt
              have hw := skipWhite_len x s1.rest
              have hnext : ∀ t : List Char, t.length ≤ s1.rest.length → Inv s ⟨t, s1.stack⟩ := by
                intro t ht
                refine h2.1.trans ⟨ht, [], rfl, by simp⟩
              split
              next h3 =>
                obtain ⟨res, h4, h5⟩ := ihL ⟨[], s1.stack⟩ (args ++ [a])
                  (by simp only [List.length_nil]; omega)
                exact ⟨res, h4, (hnext [] (Nat.zero_le _)).trans h5⟩
              next d r1 h3 =>
                rw [h3, List.length_cons] at hw
                split
                · obtain ⟨res, h4, h5⟩ := ihL ⟨r1, s1.stack⟩ (args ++ [a])
                    (by dsimp only; omega)
                  exact ⟨res, h4, (hnext r1 (by omega)).trans h5⟩
                · split
                  · obtain ⟨res, h4, h5⟩ := ihL ⟨d :: r1, s1.stack⟩ (args ++ [a])
                      (by simp only [List.length_cons]; omega)
                    exact ⟨res, h4, (hnext (d :: r1) (by simp only [List.length_cons]; omega)).trans
                      h5⟩
                  · exact ⟨_, rfl, hnext (d :: r1) (by simp only [List.length_cons]; omega)⟩
    · intro s hf
      rw [funcArg]
      obtain ⟨res, h1, h2⟩ := ihC s (by omega)
      rw [h1]
      obtain ⟨q, s1⟩ := res
      cases q with
      | ok e => exact ⟨_, rfl, h2⟩
      | error e => exact ⟨_, rfl, h2.1.fine (simpleArg_fine x hx s1)⟩

/-! ## Characters -/

section chars

variable {x : Ext P F} (hx : Sane x)
include hx

theorem white_not_ident {c : Char} (h : x.white c = true) :
    (x.alpha c || c.isDigit || c == '_') = false := by
  have h1 := hx.apart c h
  have h2 : c.isDigit = false := by
    cases hd : c.isDigit with
    | false => rfl
    | true =>
      exfalso
      simp only [Char.isDigit, Bool.and_eq_true, decide_eq_true_eq] at hd
      have ha : 48 ≤ c.toNat ∧ c.toNat ≤ 57 := ⟨hd.1, hd.2⟩
      rw [hx.whiteAscii c (by omega)] at h
      simp only [decide_eq_true_eq] at h
      rcases h with h | h
      · subst h; exact absurd ha.1 (by decide)
      · omega
  have h3 : c ≠ '_' := by
    intro hc
    subst hc
    rw [hx.whiteAscii '_' (by decide)] at h
    exact absurd h (by decide)
  simp [h1, h2, h3]

theorem not_white_of_alpha {c : Char} (h : x.alpha c = true ∨ c = '_') : x.white c = false := by
  cases hw : x.white c with
  | false => rfl
  | true =>
    rcases h with h | h
    · rw [hx.apart c hw] at h; cases h
    · subst h
      rw [hx.whiteAscii '_' (by decide)] at hw
      exact absurd hw (by decide)

theorem ascii_white {c : Char} (h : c.toNat < 128)
    (h1 : decide (c = ' ' ∨ (9 ≤ c.toNat ∧ c.toNat ≤ 13)) = false) : x.white c = false := by
  rw [hx.whiteAscii c h, h1]

theorem ascii_not_ident {c : Char} (h : c.toNat < 128)
    (h1 : (c.isAlpha || c.isDigit || c == '_') = false) :
    (x.alpha c || c.isDigit || c == '_') = false := by
  rw [hx.alphaAscii c h, h1]

theorem digit_not_white {c : Char} (h : c.isDigit = true) : x.white c = false := by
  cases hw : x.white c with
  | false => rfl
  | true =>
    have := white_not_ident hx hw
    simp [h] at this

theorem digit_not_alpha {c : Char} (h : c.isDigit = true) : x.alpha c = false := by
  have ha : c.toNat < 128 := by
    simp only [Char.isDigit, Bool.and_eq_true, decide_eq_true_eq] at h
    have h2 : c.toNat ≤ 57 := h.2
    omega
  rw [hx.alphaAscii c ha]
  simp only [Char.isDigit, Bool.and_eq_true, decide_eq_true_eq] at h
  have h1 : 48 ≤ c.toNat := h.1
  have h2 : c.toNat ≤ 57 := h.2
  simp only [Char.isAlpha, Char.isUpper, Char.isLower, Bool.or_eq_false_iff, Bool.and_eq_false_iff,
    decide_eq_false_iff_not]
  constructor
  · intro h3
    have h3 : 65 ≤ c.toNat := h3.1
    omega
  · left
    intro h3
    have h3 : 97 ≤ c.toNat := h3
    omega

end chars

/-- Where an argument ends: at a comma or a closing parenthesis, and also, after white space `v`, at
anything but an opening parenthesis. -/
def Stop (x : Ext P F) (v : List Char) (d : Char) : Prop :=
  x.white d = false ∧ d ≠ '(' ∧ (v = [] → d = ',' ∨ d = ')')

/-- The text after an argument. -/
def Delim (x : Ext P F) (tail : List Char) : Prop :=
  ∃ v d r, tail = v ++ d :: r ∧ Blank x v ∧ Stop x v d

section parse

variable {x : Ext P F} (hx : Sane x)
include hx

theorem delim_not_white {d : Char} (h : d = ',' ∨ d = ')') : x.white d = false := by
  rcases h with h | h <;> subst h <;> exact ascii_white hx (by decide) (by decide)

theorem stop_of {d : Char} (v : List Char) (h : d = ',' ∨ d = ')') : Stop x v d :=
  ⟨delim_not_white hx h, by rcases h with h | h <;> subst h <;> decide, fun _ => h⟩

theorem delim_head_not_ident {tail : List Char} (h : Delim x tail) :
    ∃ c r, tail = c :: r ∧ (x.alpha c || c.isDigit || c == '_') = false ∧ c ≠ '.' := by
  obtain ⟨v, d, r, ht, hv, hs⟩ := h
  cases v with
  | nil =>
    have hd := hs.2.2 rfl
    refine ⟨d, r, ht, ?_, ?_⟩
    · rcases hd with h | h <;> subst h <;> exact ascii_not_ident hx (by decide) (by decide)
    · rcases hd with h | h <;> subst h <;> decide
  | cons c v =>
    refine ⟨c, v ++ d :: r, ht, white_not_ident hx (hv c (by simp)), ?_⟩
    intro hc
    subst hc
    have := hv '.' (by simp)
    rw [ascii_white hx (by decide) (by decide)] at this
    cases this

omit hx in
theorem skipWhite_blank {v r : List Char} {d : Char} (hv : Blank x v) (hd : x.white d = false) :
    skipWhite x (v ++ d :: r) = d :: r := by
  rw [skipWhite, List.dropWhile_append_of_pos (fun a ha => hv a ha)]
  rw [List.dropWhile_cons_of_neg (by simp [hd])]

omit hx in
theorem nameGo_rest {c : Char} {r : List Char}
    (hc : (x.alpha c || c.isDigit || c == '_') = false) : ∀ (cs acc : List Char), acc ≠ [] →
    (∀ d ∈ cs, x.alpha d = true ∨ d.isDigit = true ∨ d = '_') →
    nameGo x (cs ++ c :: r) acc = (some (acc ++ cs), c :: r) := by
  intro cs
  induction cs with
  | nil =>
    intro acc ha _
    rw [List.nil_append, nameGo]
    · rw [if_neg (by simp [hc]), List.append_nil]
    · exact ha
  | cons d cs ih =>
    intro acc ha hd
    rw [List.cons_append, nameGo]
    · have h1 : (x.alpha d || d.isDigit || d == '_') = true := by
        rcases hd d (by simp) with h | h | h <;> simp [h]
      rw [if_pos h1, ih (acc ++ [d]) (by simp) (fun e he => hd e (List.mem_cons_of_mem _ he))]
      simp
    · exact ha

theorem nameGo_name {w name r : List Char} {c : Char} (hw : Blank x w) (hn : Name x name)
    (hc : (x.alpha c || c.isDigit || c == '_') = false) :
    nameGo x (w ++ name ++ c :: r) [] = (some name, c :: r) := by
  induction w with
  | cons d w ih =>
    rw [List.cons_append, List.cons_append, nameGo, if_pos (hw d (by simp))]
    exact ih (fun e he => hw e (List.mem_cons_of_mem _ he))
  | nil =>
    obtain ⟨a, cs, h1, h2, h3⟩ := hn
    subst h1
    rw [List.nil_append, List.cons_append, nameGo, if_neg (by simp [not_white_of_alpha hx h2])]
    rw [if_pos (by rcases h2 with h | h <;> simp [h])]
    rw [nameGo_rest hc cs [a] (by simp) h3]
    rfl

theorem funcName_name {w name r : List Char} {c : Char} (hw : Blank x w) (hn : Name x name)
    (hc : (x.alpha c || c.isDigit || c == '_') = false) :
    funcName x (w ++ name ++ c :: r) = (.ok name, c :: r) := by
  rw [funcName, nameGo_name hx hw hn hc]
  obtain ⟨a, cs, h1, _⟩ := hn
  subst h1
  rfl

omit hx in
/-- No call starts with such a character. -/
theorem funcCall_start {c : Char} {r : List Char} {st : List (List Char)} (fuel : Nat)
    (h1 : x.white c = false) (h2 : x.alpha c = false) (h3 : c ≠ '_') :
    funcCall x (fuel + 1) ⟨c :: r, st⟩ = some (.error .character, ⟨c :: r, st⟩) := by
  have : funcName x (c :: r) = (.error .character, c :: r) := by
    rw [funcName, nameGo, if_neg (by simp [h1]), if_neg (by simp [h2, h3])]
  rw [funcCall]
  dsimp only [S.save]
  rw [this]
  rfl

/-- A word before a delimiter is no call. -/
theorem funcCall_word {name tail : List Char} {st : List (List Char)} (fuel : Nat)
    (hn : Name x name) (ht : Delim x tail) :
    funcCall x (fuel + 1) ⟨name ++ tail, st⟩ = some (.error .character, ⟨name ++ tail, st⟩) := by
  obtain ⟨c, r, h1, h2, _⟩ := delim_head_not_ident hx ht
  have hname : funcName x (name ++ tail) = (.ok name, tail) := by
    rw [h1]
    exact funcName_name (w := []) hx (by simp [Blank]) hn h2
  obtain ⟨v, d, q, h3, h4, h5⟩ := ht
  rw [funcCall]
  dsimp only [S.save]
  rw [hname]
  dsimp only
  have hs : skipWhite x tail = d :: q := by
    rw [h3]; exact skipWhite_blank h4 h5.1
  rw [hs]
  split
  next heq => exact absurd (List.cons.inj heq).1 h5.2.1
  next => rfl

omit hx in
theorem pathGo_head (c : Char) (r : List Char) (a b : Bool)
    (h : (pathGo (c :: r) a b).1.head? = some '$') : c = '$' := by
  rw [pathGo] at h
  split at h
  · simpa using h
  · split at h
    · simpa using h
    · split at h
      · simpa using h
      · split at h
        · simp at h
        · simpa using h

theorem jsonPath_skip {c : Char} {r : List Char} {st : List (List Char)} (hc : c ≠ '$') :
    jsonPathExpr x ⟨c :: r, st⟩ = (.error .jsonPath, ⟨c :: r, st⟩) := by
  rw [jsonPathExpr]
  have : x.path (pathGo (S.save ⟨c :: r, st⟩).rest false false).1 = none := by
    cases hp : x.path (pathGo (S.save ⟨c :: r, st⟩).rest false false).1 with
    | none => rfl
    | some p =>
      exact absurd (pathGo_head c r false false (hx.dollar _ _ hp)) hc
  rw [this]
  rfl

omit hx in
theorem bool_skip {c : Char} {r : List Char} {st : List (List Char)} (h1 : c ≠ 't') (h2 : c ≠ 'f') :
    literal (boolCb (P := P) (F := F)) ⟨c :: r, st⟩ = (.error .character, ⟨c :: r, st⟩) := by
  have : boolCb (P := P) (F := F) ([] ++ [c]) = none := by
    rw [List.nil_append]
    unfold boolCb
    split <;> simp_all
  rw [literal]
  dsimp only [S.save]
  rw [scanGo, this]
  rfl

omit hx in
theorem null_skip {c : Char} {r : List Char} {st : List (List Char)} (h1 : c ≠ 'n') :
    literal (nullCb (P := P) (F := F)) ⟨c :: r, st⟩ = (.error .character, ⟨c :: r, st⟩) := by
  have : nullCb (P := P) (F := F) ([] ++ [c]) = none := by
    rw [List.nil_append]
    unfold nullCb
    split <;> simp_all
  rw [literal]
  dsimp only [S.save]
  rw [scanGo, this]
  rfl

theorem simple_true (tail : List Char) (st : List (List Char)) :
    simpleArg x ⟨['t', 'r', 'u', 'e'] ++ tail, st⟩ = (.ok (.bool true), ⟨tail, st⟩) := by
  rw [simpleArg]
  simp only [List.cons_append]
  rw [jsonPath_skip hx (by decide)]
  rfl

theorem simple_false (tail : List Char) (st : List (List Char)) :
    simpleArg x ⟨['f', 'a', 'l', 's', 'e'] ++ tail, st⟩ = (.ok (.bool false), ⟨tail, st⟩) := by
  rw [simpleArg]
  simp only [List.cons_append]
  rw [jsonPath_skip hx (by decide)]
  rfl

theorem simple_null (tail : List Char) (st : List (List Char)) :
    simpleArg x ⟨['n', 'u', 'l', 'l'] ++ tail, st⟩ = (.ok .null, ⟨tail, st⟩) := by
  rw [simpleArg]
  simp only [List.cons_append]
  rw [jsonPath_skip hx (by decide)]
  rfl

/-- The alternatives before the numbers fail at such a character. -/
theorem simple_number {c : Char} {r : List Char} {st : List (List Char)}
    (hc : c ∉ ['$', 't', 'f', 'n']) :
    simpleArg x ⟨c :: r, st⟩ =
      match floatLiteral x ⟨c :: r, st⟩ with
      | (.ok e, s4) => (.ok e, s4)
      | (.error _, s4) =>
        match intLiteral s4 with
        | (.ok e, s5) => (.ok e, s5)
        | (.error _, s5) =>
          match stringLiteral s5 with
          | (.ok e, s6) => (.ok e, s6)
          | (.error e, s6) =>
            match s6.rest with
            | [] => (.error e, s6)
            | c :: _ => if c ≠ '"' then (.error .character, s6) else (.error e, s6) := by
  simp only [List.mem_cons, List.not_mem_nil, or_false, not_or] at hc
  rw [simpleArg, jsonPath_skip hx hc.1]
  dsimp only
  rw [if_neg (by simpa using hc.1), bool_skip hc.2.1 hc.2.2.1]
  dsimp only
  rw [null_skip hc.2.2.2]
  rfl

omit hx in
theorem floatGo_digits (tail : List Char) (b : Bool) : ∀ (ds seq : List Char),
    (∀ d ∈ ds, d.isDigit = true) →
    floatGo (ds ++ tail) seq b = floatGo tail (seq ++ ds) b := by
  intro ds
  induction ds with
  | nil => intro seq _; simp
  | cons d ds ih =>
    intro seq hd
    have h1 := hd d (by simp)
    have h2 : d ≠ '-' := by intro h; subst h; exact absurd h1 (by decide)
    have h3 : d ≠ '.' := by intro h; subst h; exact absurd h1 (by decide)
    rw [List.cons_append, floatGo, if_neg (by simp [h2]), if_neg (by simp [h3]), if_pos h1,
      ih (seq ++ [d]) (fun e he => hd e (List.mem_cons_of_mem _ he))]
    simp

omit hx in
theorem floatGo_stop {c : Char} {r seq : List Char} {b : Bool} (h1 : c.isDigit = false)
    (h2 : c ≠ '.') (h3 : seq ≠ []) : floatGo (c :: r) seq b = ((seq, b), c :: r) := by
  rw [floatGo, if_neg (by simp [h3]), if_neg (by simp [h2]), if_neg (by simp [h1])]

omit hx in
theorem intGo_digits (tail : List Char) : ∀ (ds seq : List Char),
    (∀ d ∈ ds, d.isDigit = true) → intGo (ds ++ tail) seq = intGo tail (seq ++ ds) := by
  intro ds
  induction ds with
  | nil => intro seq _; simp
  | cons d ds ih =>
    intro seq hd
    rw [List.cons_append, intGo, if_pos (Or.inr (hd d (by simp))),
      ih (seq ++ [d]) (fun e he => hd e (List.mem_cons_of_mem _ he))]
    simp

omit hx in
theorem intGo_stop {c : Char} {r seq : List Char} (h1 : c.isDigit = false) (h3 : seq ≠ []) :
    intGo (c :: r) seq = (seq, c :: r) := by
  rw [intGo, if_neg (by simp [h1, h3])]

theorem delim_stop {tail : List Char} (h : Delim x tail) :
    ∃ c r, tail = c :: r ∧ c.isDigit = false ∧ c ≠ '.' := by
  obtain ⟨c, r, h1, h2, h3⟩ := delim_head_not_ident hx h
  refine ⟨c, r, h1, ?_, h3⟩
  simp only [Bool.or_eq_false_iff] at h2
  exact h2.1.2

/-- Numbers start with a digit, a minus sign or a point. -/
theorem number_start {c : Char} (h : c.isDigit = true ∨ c = '-' ∨ c = '.') :
    x.white c = false ∧ x.alpha c = false ∧ c ≠ '_' ∧ c ∉ ['$', 't', 'f', 'n'] ∧ c ≠ ')' := by
  rcases h with h | h | h
  · refine ⟨digit_not_white hx h, digit_not_alpha hx h, ?_, ?_, ?_⟩
    · intro hc; subst hc; exact absurd h (by decide)
    · intro hc
      simp only [List.mem_cons, List.not_mem_nil, or_false] at hc
      rcases hc with hc | hc | hc | hc <;> subst hc <;> exact absurd h (by decide)
    · intro hc; subst hc; exact absurd h (by decide)
  · subst h
    refine ⟨ascii_white hx (by decide) (by decide), ?_, by decide, by decide, by decide⟩
    rw [hx.alphaAscii _ (by decide)]; decide
  · subst h
    refine ⟨ascii_white hx (by decide) (by decide), ?_, by decide, by decide, by decide⟩
    rw [hx.alphaAscii _ (by decide)]; decide

omit hx in
theorem intText_start {t : List Char} {i : Int} (h : IntText t i) :
    ∃ c r, t = c :: r ∧ (c.isDigit = true ∨ c = '-' ∨ c = '.') := by
  obtain ⟨ds, h1, h2, h3⟩ := h
  rcases h3 with ⟨h3, _⟩ | ⟨h3, _⟩
  · cases ds with
    | nil => exact absurd rfl h1
    | cons d ds => exact ⟨d, ds, h3, Or.inl (h2 d (by simp))⟩
  · exact ⟨'-', ds, h3, Or.inr (Or.inl rfl)⟩

omit hx in
theorem floatText_start {t : List Char} (h : FloatText t) :
    ∃ c r, t = c :: r ∧ (c.isDigit = true ∨ c = '-' ∨ c = '.') := by
  obtain ⟨sign, a, b, h1, h2, h3, h4⟩ := h
  rcases h2 with h2 | h2 <;> subst h2
  · cases a with
    | nil => exact ⟨'.', b, by simpa using h1, Or.inr (Or.inr rfl)⟩
    | cons d a => exact ⟨d, a ++ '.' :: b, by simpa using h1, Or.inl (h3 d (by simp))⟩
  · exact ⟨'-', a ++ '.' :: b, by simpa using h1, Or.inr (Or.inl rfl)⟩

theorem floatGo_int {t tail : List Char} {i : Int} (h : IntText t i) (ht : Delim x tail) :
    floatGo (t ++ tail) [] false = ((t, false), tail) := by
  obtain ⟨c, r, h1, h2, h3⟩ := delim_stop hx ht
  obtain ⟨ds, h4, h5, h6⟩ := h
  rcases h6 with ⟨h6, _⟩ | ⟨h6, _⟩ <;> subst h6 h1
  · rw [floatGo_digits _ _ _ _ h5, floatGo_stop h2 h3 (by simpa using h4)]; simp
  · rw [List.cons_append, floatGo, if_pos (by simp), floatGo_digits _ _ _ _ h5,
      floatGo_stop h2 h3 (by simp)]
    simp

theorem intGo_int {t tail : List Char} {i : Int} (h : IntText t i) (ht : Delim x tail) :
    intGo (t ++ tail) [] = (t, tail) := by
  obtain ⟨c, r, h1, h2, h3⟩ := delim_stop hx ht
  obtain ⟨ds, h4, h5, h6⟩ := h
  rcases h6 with ⟨h6, _⟩ | ⟨h6, _⟩ <;> subst h6 h1
  · rw [intGo_digits _ _ _ h5, intGo_stop h2 (by simpa using h4)]; simp
  · rw [List.cons_append, intGo, if_pos (by simp), intGo_digits _ _ _ h5,
      intGo_stop h2 (by simp)]
    simp

theorem floatGo_float {t tail : List Char} (h : FloatText t) (ht : Delim x tail) :
    floatGo (t ++ tail) [] false = ((t, true), tail) := by
  obtain ⟨c, r, h1, h2, h3⟩ := delim_stop hx ht
  obtain ⟨sign, a, b, h4, h5, h6, h7⟩ := h
  have key : ∀ seq : List Char, floatGo (a ++ '.' :: b ++ tail) seq false
      = ((seq ++ a ++ '.' :: b, true), tail) := by
    intro seq
    rw [List.append_assoc, floatGo_digits _ _ _ _ h6, List.cons_append, floatGo,
      if_neg (by simp), if_pos (by simp), floatGo_digits _ _ _ _ h7, h1,
      floatGo_stop h2 h3 (by simp)]
    simp
  subst h4
  rcases h5 with h5 | h5 <;> subst h5
  · have := key []; simpa using this
  · have := key ['-']
    rw [List.append_assoc, List.append_assoc, List.cons_append, floatGo, if_pos (by simp)]
    simpa using this

omit hx in
theorem parse_intText {t : List Char} {i : Int} (h : IntText t i) (h1 : -2 ^ 63 ≤ i)
    (h2 : i < 2 ^ 63) : Text.parseSigned 64 t = some i := by
  rw [Text.parseSigned_iff]
  obtain ⟨ds, h4, h5, h6⟩ := h
  refine ⟨?_, by simpa using h1, by simpa using h2⟩
  rcases h6 with ⟨h6, h7⟩ | ⟨h6, h7⟩
  · exact ⟨[], ds, by simpa using h6, h4, h5, Or.inl ⟨Or.inl rfl, h7⟩⟩
  · exact ⟨['-'], ds, by simpa using h6, h4, h5, Or.inr ⟨rfl, h7⟩⟩

theorem simple_int {t tail : List Char} {i : Int} (st : List (List Char)) (h : IntText t i)
    (h1 : -2 ^ 63 ≤ i) (h2 : i < 2 ^ 63) (ht : Delim x tail) :
    simpleArg x ⟨t ++ tail, st⟩ = (.ok (.int i), ⟨tail, st⟩) := by
  obtain ⟨c, r, h3, h4⟩ := intText_start h
  have hc := (number_start hx h4).2.2.2.1
  have hf : floatLiteral x ⟨t ++ tail, st⟩ = (.error .character, ⟨t ++ tail, st⟩) := by
    have := floatGo_int hx h ht
    rw [floatLiteral]
    dsimp only [S.save]
    rw [this]
    dsimp only
    rw [if_pos (Or.inr rfl)]
    rfl
  have hi : (intLiteral ⟨t ++ tail, st⟩ : Except PErr (Expr P F) × S)
      = (.ok (.int i), ⟨tail, st⟩) := by
    have := intGo_int hx h ht
    rw [intLiteral]
    dsimp only [S.save]
    rw [this]
    dsimp only
    rw [if_neg (by rw [h3]; simp), parse_intText h h1 h2]
    rfl
  have e : t ++ tail = c :: (r ++ tail) := by rw [h3]; rfl
  rw [e, simple_number hx hc, ← e, hf]
  dsimp only
  rw [hi]

theorem simple_float {t tail : List Char} {f : F} (st : List (List Char)) (h : FloatText t)
    (h1 : x.float t = some f) (ht : Delim x tail) :
    simpleArg x ⟨t ++ tail, st⟩ = (.ok (.float f), ⟨tail, st⟩) := by
  obtain ⟨c, r, h3, h4⟩ := floatText_start h
  have hc := (number_start hx h4).2.2.2.1
  have hf : floatLiteral x ⟨t ++ tail, st⟩ = (.ok (.float f), ⟨tail, st⟩) := by
    have := floatGo_float hx h ht
    rw [floatLiteral]
    dsimp only [S.save]
    rw [this]
    dsimp only
    rw [if_neg (by rw [h3]; simp), h1]
    rfl
  have e : t ++ tail = c :: (r ++ tail) := by rw [h3]; rfl
  rw [e, simple_number hx hc, ← e, hf]

/-! ## Texts -/

omit hx in
theorem strGo_escape (tail : List Char) : ∀ (s : List Char) (prev : Char),
    (s = [] → prev ≠ '\\') → s.getLast? ≠ some '\\' →
    strGo (escape s ++ '"' :: tail) prev = some (escape s, tail) := by
  intro s
  induction s with
  | nil =>
    intro prev h _
    rw [escape, List.nil_append, strGo, if_pos ⟨rfl, h rfl⟩]
  | cons c s ih =>
    intro prev _ hl
    have hl' : s.getLast? ≠ some '\\' := by
      cases s with
      | nil => simp
      | cons d s => rw [List.getLast?_cons_cons] at hl; exact hl
    have hn : s = [] → c ≠ '\\' := by
      intro h hc
      subst h hc
      exact hl rfl
    rw [escape]
    by_cases hc : c = '"'
    · subst hc
      rw [if_pos rfl, List.cons_append, List.cons_append, strGo, if_neg (by simp), strGo,
        if_neg (by simp), ih '"' (fun _ => by decide) hl']
    · rw [if_neg hc, List.cons_append, strGo, if_neg (by simp [hc]), ih c hn hl']

omit hx in
theorem escape_head (s : List Char) : (escape s).head? ≠ some '"' := by
  cases s with
  | nil => simp [escape]
  | cons c s =>
    rw [escape]
    split
    · simp
    next h => simpa using h

omit hx in
theorem unescape_escape : ∀ s : List Char, unescape (escape s) = s := by
  intro s
  induction s with
  | nil => rfl
  | cons c s ih =>
    rw [escape]
    by_cases hc : c = '"'
    · subst hc
      rw [if_pos rfl, unescape, ih]
    · rw [if_neg hc, unescape, ih]
      intro r h1 h2
      have := escape_head s
      rw [h2] at this
      exact this rfl

theorem simple_str (s tail : List Char) (st : List (List Char)) (h : s.getLast? ≠ some '\\') :
    simpleArg x ⟨'"' :: escape s ++ ['"'] ++ tail, st⟩ = (.ok (.str s), ⟨tail, st⟩) := by
  have e : '"' :: escape s ++ ['"'] ++ tail = '"' :: (escape s ++ '"' :: tail) := by simp
  rw [e]
  have hf : floatLiteral x ⟨'"' :: (escape s ++ '"' :: tail), st⟩
      = (.error .character, ⟨'"' :: (escape s ++ '"' :: tail), st⟩) := by
    rw [floatLiteral]
    dsimp only [S.save]
    have : floatGo ('"' :: (escape s ++ '"' :: tail)) [] false
        = (([], false), '"' :: (escape s ++ '"' :: tail)) := by
      rw [floatGo, if_neg (by decide), if_neg (by decide), if_neg (by decide)]
    rw [this]
    rfl
  have hi : (intLiteral ⟨'"' :: (escape s ++ '"' :: tail), st⟩ : Except PErr (Expr P F) × S)
      = (.error .character, ⟨'"' :: (escape s ++ '"' :: tail), st⟩) := by
    rw [intLiteral]
    dsimp only [S.save]
    have : intGo ('"' :: (escape s ++ '"' :: tail)) []
        = ([], '"' :: (escape s ++ '"' :: tail)) := by
      rw [intGo, if_neg (by decide)]
    rw [this]
    rfl
  rw [simple_number hx (by decide), hf]
  dsimp only
  rw [hi]
  dsimp only
  have hs : (stringLiteral ⟨'"' :: (escape s ++ '"' :: tail), st⟩ : Except PErr (Expr P F) × S)
      = (.ok (.str s), ⟨tail, st⟩) := by
    rw [stringLiteral]
    simp only [S.save]
    rw [strGo_escape tail s ' ' (fun _ => by decide) h]
    dsimp only
    rw [unescape_escape]
    rfl
  rw [hs]

/-! ## Paths -/

omit hx in
theorem pathGo_text {b : Bool} {t : List Char} (h : PathText b t) {d : Char} {r : List Char}
    (hd : d = ',' ∨ d = ')') : pathGo (t ++ d :: r) false b = (t, d :: r) := by
  induction h with
  | nil =>
    rw [List.nil_append, pathGo]
    rcases hd with hd | hd <;> subst hd <;> rfl
  | @plain b c t hc _ ih =>
    simp only [List.mem_cons, List.not_mem_nil, or_false, not_or] at hc
    rw [List.cons_append, pathGo, if_neg hc.2.2.1, if_neg hc.2.2.2.1, if_neg hc.2.2.2.2,
      if_neg (by simp [hc.1, hc.2.1]), ih]
  | @inner c t hc _ ih =>
    have h1 : c ≠ '\'' ∧ c ≠ '[' ∧ c ≠ ']' := by
      simp only [List.mem_cons, List.not_mem_nil, or_false] at hc
      rcases hc with hc | hc <;> subst hc <;> decide
    rw [List.cons_append, pathGo, if_neg h1.1, if_neg h1.2.1, if_neg h1.2.2, if_neg (by simp), ih]
  | @quoted b q t hq _ ih =>
    have key : ∀ q : List Char, (∀ c ∈ q, c ∉ ['\'', '[', ']']) →
        pathGo (q ++ '\'' :: (t ++ d :: r)) true b = (q ++ '\'' :: t, d :: r) := by
      intro q
      induction q with
      | nil =>
        intro _
        rw [List.nil_append, pathGo, if_pos rfl]
        rw [Bool.not_true, ih]
        rfl
      | cons c q ihq =>
        intro h
        have hc := h c (by simp)
        simp only [List.mem_cons, List.not_mem_nil, or_false, not_or] at hc
        rw [List.cons_append, pathGo, if_neg hc.1, if_neg hc.2.1, if_neg hc.2.2,
          if_neg (by simp), ihq (fun e he => h e (List.mem_cons_of_mem _ he))]
        rfl
    have e : '\'' :: q ++ '\'' :: t ++ d :: r = '\'' :: (q ++ '\'' :: (t ++ d :: r)) := by simp
    rw [e, pathGo, if_pos rfl]
    rw [Bool.not_false, key q hq]
    simp
  | @opened t _ ih =>
    rw [List.cons_append, pathGo, if_neg (by decide), if_pos rfl, ih]
  | @closed t _ ih =>
    rw [List.cons_append, pathGo, if_neg (by decide), if_neg (by decide), if_pos rfl, ih]

omit hx in
theorem jsonPath_ok {t : List Char} {p : P} (st : List (List Char)) (h : PathText false t)
    (h1 : x.path t = some p) {d : Char} {r : List Char} (hd : d = ',' ∨ d = ')') :
    simpleArg x ⟨t ++ d :: r, st⟩ = (.ok (.path p), ⟨d :: r, st⟩) := by
  have : jsonPathExpr x ⟨t ++ d :: r, st⟩ = (.ok (.path p), ⟨d :: r, st⟩) := by
    rw [jsonPathExpr]
    dsimp only [S.save]
    rw [pathGo_text h hd]
    dsimp only
    rw [h1]
    rfl
  rw [simpleArg, this]

/-! ## Calls -/

omit hx in
theorem argsLoop_blank {w : List Char} (hw : Blank x w) (r : List Char) (st : List (List Char))
    (acc : List (Expr P F)) (fuel : Nat) :
    argsLoop x (fuel + w.length) ⟨w ++ r, st⟩ acc = argsLoop x fuel ⟨r, st⟩ acc := by
  induction w with
  | nil => rfl
  | cons c w ih =>
    rw [List.length_cons, ← Nat.add_assoc, argsLoop]
    dsimp only [List.cons_append]
    rw [if_pos (hw c (by simp))]
    exact ih (fun e he => hw e (List.mem_cons_of_mem _ he))

theorem written_start {e : Expr P F} {t : List Char} (h : Written x e t) :
    ∃ c r, t = c :: r ∧ x.white c = false ∧ c ≠ ')' := by
  cases h with
  | str s h => exact ⟨'"', escape s ++ ['"'], rfl, ascii_white hx (by decide) (by decide), by decide⟩
  | int i t h h1 h2 =>
    obtain ⟨c, r, h3, h4⟩ := intText_start h
    exact ⟨c, r, h3, (number_start hx h4).1, (number_start hx h4).2.2.2.2⟩
  | float f t h h1 =>
    obtain ⟨c, r, h3, h4⟩ := floatText_start h
    exact ⟨c, r, h3, (number_start hx h4).1, (number_start hx h4).2.2.2.2⟩
  | true => exact ⟨'t', _, rfl, ascii_white hx (by decide) (by decide), by decide⟩
  | false => exact ⟨'f', _, rfl, ascii_white hx (by decide) (by decide), by decide⟩
  | null => exact ⟨'n', _, rfl, ascii_white hx (by decide) (by decide), by decide⟩
  | path p t h h1 =>
    have := hx.dollar t p h1
    cases t with
    | nil => cases this
    | cons c r =>
      simp only [List.head?_cons, Option.some.injEq] at this
      subst this
      exact ⟨'$', r, rfl, ascii_white hx (by decide) (by decide), by decide⟩
  | call name w t args hn hw ha =>
    obtain ⟨c, cs, h1, h2, h3⟩ := hn
    refine ⟨c, cs ++ w ++ '(' :: t, by rw [h1]; simp, not_white_of_alpha hx h2, ?_⟩
    intro hc
    subst hc
    rcases h2 with h2 | h2
    · rw [hx.alphaAscii _ (by decide)] at h2
      exact absurd h2 (by decide)
    · exact absurd h2 (by decide)

theorem word_name {w : List Char} (h : w ∈ [['t', 'r', 'u', 'e'], ['f', 'a', 'l', 's', 'e'],
    ['n', 'u', 'l', 'l']]) : Name x w := by
  have key : ∀ c : Char, c.toNat < 128 → c.isAlpha = true → x.alpha c = true := by
    intro c h1 h2
    rw [hx.alphaAscii c h1, h2]
  simp only [List.mem_cons, List.not_mem_nil, or_false] at h
  rcases h with h | h | h <;> subst h
  · refine ⟨'t', _, rfl, Or.inl (key _ (by decide) (by decide)), ?_⟩
    intro d hd
    left
    simp only [List.mem_cons, List.not_mem_nil, or_false] at hd
    rcases hd with hd | hd | hd <;> subst hd <;> exact key _ (by decide) (by decide)
  · refine ⟨'f', _, rfl, Or.inl (key _ (by decide) (by decide)), ?_⟩
    intro d hd
    left
    simp only [List.mem_cons, List.not_mem_nil, or_false] at hd
    rcases hd with hd | hd | hd | hd <;> subst hd <;> exact key _ (by decide) (by decide)
  · refine ⟨'n', _, rfl, Or.inl (key _ (by decide) (by decide)), ?_⟩
    intro d hd
    left
    simp only [List.mem_cons, List.not_mem_nil, or_false] at hd
    rcases hd with hd | hd | hd <;> subst hd <;> exact key _ (by decide) (by decide)

omit hx in
/-- An argument that is no call. -/
theorem funcArg_simple {s : S} {fuel : Nat} {e : PErr}
    (h : funcCall x (fuel + 1) s = some (.error e, s)) :
    funcArg x (fuel + 2) s = some (simpleArg x s) := by
  rw [funcArg, h]

/-- A call whose arguments are read. -/
theorem funcCall_ok {w0 name w r tail : List Char} {st : List (List Char)}
    {args : List (Expr P F)} {fuel : Nat} (h0 : Blank x w0) (hn : Name x name) (hw : Blank x w)
    (h : argsLoop x fuel ⟨r, (w0 ++ name ++ (w ++ '(' :: r)) :: st⟩ []
      = some (.ok args, ⟨tail, (w0 ++ name ++ (w ++ '(' :: r)) :: st⟩)) :
    funcCall x (fuel + 1) ⟨w0 ++ name ++ (w ++ '(' :: r), st⟩
      = some (.ok (.call name args), ⟨tail, st⟩) := by
  have hp : x.white '(' = false := ascii_white hx (by decide) (by decide)
  have hname : funcName x (w0 ++ name ++ (w ++ '(' :: r)) = (.ok name, w ++ '(' :: r) := by
    cases w with
    | nil => exact funcName_name hx h0 hn (ascii_not_ident hx (by decide) (by decide))
    | cons c w => exact funcName_name hx h0 hn (white_not_ident hx (hw c (by simp)))
  rw [funcCall]
  dsimp only [S.save]
  rw [hname]
  dsimp only
  rw [skipWhite_blank hw hp]
  simp only
  rw [h]
  rfl

/-- One argument is read and the loop goes on. -/
theorem argsLoop_step {w t v r : List Char} {d : Char} {e : Expr P F} {st : List (List Char)}
    {acc : List (Expr P F)} {fuel : Nat} (hw : Blank x w) (ht : Written x e t) (hv : Blank x v)
    (hd : d = ',' ∨ d = ')')
    (ha : funcArg x fuel ⟨t ++ (v ++ d :: r), st⟩ = some (.ok e, ⟨v ++ d :: r, st⟩)) :
    argsLoop x (fuel + 1 + w.length) ⟨w ++ (t ++ (v ++ d :: r)), st⟩ acc
      = argsLoop x fuel ⟨if d = ',' then r else d :: r, st⟩ (acc ++ [e]) := by
  rw [argsLoop_blank hw]
  obtain ⟨c, q, h1, h2, h3⟩ := written_start hx ht
  subst h1
  rw [argsLoop]
  dsimp only [List.cons_append]
  rw [if_neg (by simp [h2]), if_neg h3]
  have ha' : funcArg x fuel ⟨c :: (q ++ (v ++ d :: r)), st⟩ = some (.ok e, ⟨v ++ d :: r, st⟩) := ha
  rw [ha']
  simp only
  rw [skipWhite_blank hv (delim_not_white hx hd)]
  dsimp only
  rcases hd with hd | hd <;> subst hd <;> rfl

end parse

mutual
/-- Reading back a written argument. -/
theorem arg_parses {x : Ext P F} (hx : Sane x) : ∀ {e : Expr P F} {t : List Char}, Written x e t →
    ∀ (v r : List Char) (d : Char) (st : List (List Char)) (fuel : Nat), Blank x v →
    Stop x v d → (e.isPath → v = []) → 3 * (t ++ (v ++ d :: r)).length + 2 ≤ fuel →
    funcArg x fuel ⟨t ++ (v ++ d :: r), st⟩ = some (.ok e, ⟨v ++ d :: r, st⟩)
  | _, _, .str s h, v, r, d, st, fuel, hv, hd, hp, hf => by
    obtain ⟨f, rfl⟩ : ∃ f, fuel = f + 2 := ⟨fuel - 2, by omega⟩
    have := simple_str hx s (v ++ d :: r) st h
    rw [funcArg_simple (e := .character), this]
    exact funcCall_start f (ascii_white hx (by decide) (by decide))
      (by rw [hx.alphaAscii _ (by decide)]; decide) (by decide)
  | _, _, .int i t h h1 h2, v, r, d, st, fuel, hv, hd, hp, hf => by
    obtain ⟨f, rfl⟩ : ∃ f, fuel = f + 2 := ⟨fuel - 2, by omega⟩
    have := simple_int hx st h h1 h2 (tail := v ++ d :: r) ⟨v, d, r, rfl, hv, hd⟩
    rw [funcArg_simple (e := .character), this]
    obtain ⟨c, q, h3, h4⟩ := intText_start h
    subst h3
    have hn := number_start hx h4
    exact funcCall_start f hn.1 hn.2.1 hn.2.2.1
  | _, _, .float g t h h1, v, r, d, st, fuel, hv, hd, hp, hf => by
    obtain ⟨f, rfl⟩ : ∃ f, fuel = f + 2 := ⟨fuel - 2, by omega⟩
    have := simple_float hx st h h1 (tail := v ++ d :: r) ⟨v, d, r, rfl, hv, hd⟩
    rw [funcArg_simple (e := .character), this]
    obtain ⟨c, q, h3, h4⟩ := floatText_start h
    subst h3
    have hn := number_start hx h4
    exact funcCall_start f hn.1 hn.2.1 hn.2.2.1
  | _, _, .true, v, r, d, st, fuel, hv, hd, hp, hf => by
    obtain ⟨f, rfl⟩ : ∃ f, fuel = f + 2 := ⟨fuel - 2, by omega⟩
    rw [funcArg_simple (e := .character), simple_true hx]
    exact funcCall_word hx f (word_name hx (by simp)) ⟨v, d, r, rfl, hv, hd⟩
  | _, _, .false, v, r, d, st, fuel, hv, hd, hp, hf => by
    obtain ⟨f, rfl⟩ : ∃ f, fuel = f + 2 := ⟨fuel - 2, by omega⟩
    rw [funcArg_simple (e := .character), simple_false hx]
    exact funcCall_word hx f (word_name hx (by simp)) ⟨v, d, r, rfl, hv, hd⟩
  | _, _, .null, v, r, d, st, fuel, hv, hd, hp, hf => by
    obtain ⟨f, rfl⟩ : ∃ f, fuel = f + 2 := ⟨fuel - 2, by omega⟩
    rw [funcArg_simple (e := .character), simple_null hx]
    exact funcCall_word hx f (word_name hx (by simp)) ⟨v, d, r, rfl, hv, hd⟩
  | _, _, .path p t h h1, v, r, d, st, fuel, hv, hd, hp, hf => by
    obtain ⟨f, rfl⟩ : ∃ f, fuel = f + 2 := ⟨fuel - 2, by omega⟩
    have hv0 := hp trivial
    subst hv0
    rw [List.nil_append]
    rw [funcArg_simple (e := .character), jsonPath_ok st h h1 (hd.2.2 rfl)]
    have := hx.dollar t p h1
    cases t with
    | nil => cases this
    | cons c q =>
      simp only [List.head?_cons, Option.some.injEq] at this
      subst this
      exact funcCall_start f (ascii_white hx (by decide) (by decide))
        (by rw [hx.alphaAscii _ (by decide)]; decide) (by decide)
  | _, _, .call name w t args hn hw ha, v, r, d, st, fuel, hv, hd, hp, hf => by
    obtain ⟨f, rfl⟩ : ∃ f, fuel = f + 2 := ⟨fuel - 2, by omega⟩
    have e : name ++ w ++ '(' :: t ++ (v ++ d :: r)
        = [] ++ name ++ (w ++ '(' :: (t ++ (v ++ d :: r))) := by simp
    rw [e]
    rw [e] at hf
    simp only [List.length_append, List.length_cons, List.length_nil] at hf
    have hl := args_parse hx ha (v ++ d :: r)
      (([] ++ name ++ (w ++ '(' :: (t ++ (v ++ d :: r)))) :: st) [] f
      (by simp only [List.length_append, List.length_cons]; omega)
    rw [funcArg, funcCall_ok hx (by simp [Blank]) hn hw hl]
    rfl

/-- Reading back written arguments. -/
theorem args_parse {x : Ext P F} (hx : Sane x) : ∀ {es : List (Expr P F)} {t : List Char},
    WrittenArgs x es t → ∀ (tail : List Char) (st : List (List Char)) (acc : List (Expr P F))
    (fuel : Nat), 3 * (t ++ tail).length + 3 ≤ fuel →
    argsLoop x fuel ⟨t ++ tail, st⟩ acc = some (.ok (acc ++ es), ⟨tail, st⟩)
  | _, _, .none w hw, tail, st, acc, fuel, hf => by
    simp only [List.length_append, List.length_cons, List.length_nil] at hf
    obtain ⟨f, rfl⟩ : ∃ f, fuel = f + 1 + w.length := ⟨fuel - 1 - w.length, by omega⟩
    rw [List.append_assoc, argsLoop_blank hw, argsLoop]
    dsimp only [List.cons_append, List.nil_append]
    rw [if_neg (by rw [delim_not_white hx (Or.inr rfl)]; simp), if_pos rfl, List.append_nil]
  | _, _, .last w t v e hw he hv hp, tail, st, acc, fuel, hf => by
    simp only [List.length_append, List.length_cons, List.length_nil] at hf
    obtain ⟨f, rfl⟩ : ∃ f, fuel = f + 1 + w.length := ⟨fuel - 1 - w.length, by omega⟩
    have ha := arg_parses hx he v tail ')' st f hv (stop_of hx v (Or.inr rfl)) hp
      (by simp only [List.length_append, List.length_cons]; omega)
    have e1 : w ++ t ++ v ++ [')'] ++ tail = w ++ (t ++ (v ++ ')' :: tail)) := by simp
    rw [e1, argsLoop_step hx hw he hv (Or.inr rfl) ha, if_neg (by decide)]
    obtain ⟨g, rfl⟩ : ∃ g, f = g + 1 := ⟨f - 1, by omega⟩
    rw [argsLoop]
    dsimp only
    rw [if_neg (by rw [delim_not_white hx (Or.inr rfl)]; simp), if_pos rfl]
  | _, _, .more w t v u e f es hw he hv hp hu, tail, st, acc, fuel, hf => by
    simp only [List.length_append, List.length_cons] at hf
    obtain ⟨g, rfl⟩ : ∃ g, fuel = g + 1 + w.length := ⟨fuel - 1 - w.length, by omega⟩
    have ha := arg_parses hx he v (u ++ tail) ',' st g hv (stop_of hx v (Or.inl rfl)) hp
      (by simp only [List.length_append, List.length_cons]; omega)
    have e1 : w ++ t ++ v ++ ',' :: u ++ tail = w ++ (t ++ (v ++ ',' :: (u ++ tail))) := by simp
    rw [e1, argsLoop_step hx hw he hv (Or.inl rfl) ha, if_pos rfl]
    have hl := args_parse hx hu tail st (acc ++ [e]) g
      (by simp only [List.length_append]; omega)
    rw [hl]
    simp
end

/-! ## Every tree can be written -/

theorem int_text (i : Int) : ∃ t, IntText t i := by
  have key : ∀ n : Nat, Nat.toDigits 10 n ≠ [] ∧
      (∀ d ∈ Nat.toDigits 10 n, d.isDigit = true) ∧
      Nat.ofDigitChars 10 (Nat.toDigits 10 n) 0 = n := by
    intro n
    exact ⟨Nat.toDigits_ne_nil, fun d hd => Nat.isDigit_of_mem_toDigits (by decide) (by decide) hd,
      Nat.ofDigitChars_ten_toDigits⟩
  by_cases h : 0 ≤ i
  · obtain ⟨h1, h2, h3⟩ := key i.toNat
    exact ⟨_, _, h1, h2, Or.inl ⟨rfl, by rw [h3]; omega⟩⟩
  · obtain ⟨h1, h2, h3⟩ := key (-i).toNat
    exact ⟨_, _, h1, h2, Or.inr ⟨rfl, by rw [h3]; omega⟩⟩

theorem args_writable (x : Ext P F) : ∀ args : List (Expr P F),
    (∀ a ∈ args, ∃ t, Written x a t) → ∃ t, WrittenArgs x args t := by
  intro args
  induction args with
  | nil => intro _; exact ⟨_, .none [] (by simp [Blank])⟩
  | cons a args ih =>
    intro h
    obtain ⟨t, ht⟩ := h a (by simp)
    obtain ⟨u, hu⟩ := ih (fun b hb => h b (List.mem_cons_of_mem _ hb))
    cases args with
    | nil => exact ⟨_, .last [] t [] a (by simp [Blank]) ht (by simp [Blank]) (fun _ => rfl)⟩
    | cons b args =>
      exact ⟨_, .more [] t [] u a b args (by simp [Blank]) ht (by simp [Blank]) (fun _ => rfl) hu⟩

theorem tree_writable {x : Ext P F} {e : Expr P F}
    (h : Tree x (fun s => s.getLast? ≠ some '\\') e) : ∃ t, Written x e t := by
  induction h with
  | str s hs => exact ⟨_, .str s hs⟩
  | int i h1 h2 =>
    obtain ⟨t, ht⟩ := int_text i
    exact ⟨t, .int i t ht h1 h2⟩
  | float f t h1 h2 => exact ⟨t, .float f t h1 h2⟩
  | bool b => cases b with
    | false => exact ⟨_, .false⟩
    | true => exact ⟨_, .true⟩
  | null => exact ⟨_, .null⟩
  | path p t h1 h2 => exact ⟨t, .path p t h1 h2⟩
  | call name args hn _ ih =>
    obtain ⟨t, ht⟩ := args_writable x args ih
    exact ⟨_, .call name [] t args hn (by simp [Blank]) ht⟩

/-! ## Strings ending in a backslash -/

theorem strGo_last : ∀ (rest : List Char) (prev : Char) (t r : List Char),
    strGo rest prev = some (t, r) → (t = [] → prev ≠ '\\') ∧ t.getLast? ≠ some '\\' := by
  intro rest
  induction rest with
  | nil => intro prev t r h; simp [strGo] at h
  | cons c rest ih =>
    intro prev t r h
    rw [strGo] at h
    split at h
    next hc =>
      simp only [Option.some.injEq, Prod.mk.injEq] at h
      obtain ⟨h1, h2⟩ := h
      subst h1
      exact ⟨fun _ => hc.2, by simp⟩
    next hc =>
      split at h
      next u q heq =>
        simp only [Option.some.injEq, Prod.mk.injEq] at h
        obtain ⟨h1, h2⟩ := h
        subst h1
        obtain ⟨h3, h4⟩ := ih c u q heq
        refine ⟨by simp, ?_⟩
        cases u with
        | nil => simpa using h3 rfl
        | cons d u => rw [List.getLast?_cons_cons]; exact h4
      next => cases h

theorem unescape_last (t : List Char) : (unescape t).getLast? = t.getLast? := by
  induction t using unescape.induct with
  | case1 r ih => rw [unescape]; simp [List.getLast?_cons, ih]
  | case2 c r h ih => rw [unescape]; simp [List.getLast?_cons, ih]; exact h
  | case3 => rfl

theorem scanGo_val {T : Type} (p : T → Prop) (cb : List Char → Option (Action T))
    (hcb : ∀ seq t, cb seq = some (.ret t) ∨ cb seq = some (.request t) → p t) :
    ∀ (rest seq : List Char) (require : Bool) (request : Option T) (t : T) (r : List Char),
    (∀ u, request = some u → p u) → scanGo cb rest seq require request = (.ok (some t), r) → p t := by
  intro rest
  induction rest with
  | nil =>
    intro seq require request t r hr h
    rw [scanGo] at h
    split at h
    · cases h
    · simp only [Prod.mk.injEq, Except.ok.injEq] at h
      exact hr t h.1
  | cons c rest ih =>
    intro seq require request t r hr h
    rw [scanGo] at h
    split at h
    next u hu =>
      simp only [Prod.mk.injEq, Except.ok.injEq, Option.some.injEq] at h
      rw [← h.1]
      exact hcb _ _ (Or.inl hu)
    next u hu =>
      refine ih _ _ _ _ _ ?_ h
      intro v hv
      simp only [Option.some.injEq] at hv
      rw [← hv]
      exact hcb _ _ (Or.inr hu)
    next => exact ih _ _ _ _ _ hr h
    next =>
      split at h
      · cases h
      · simp only [Prod.mk.injEq, Except.ok.injEq] at h
        exact hr t h.1

/-- Not a string that ends in a backslash. -/
def NoSlash (e : Expr P F) : Prop := ∀ s, e = .str s → s.getLast? ≠ some '\\'

theorem literal_noSlash (cb : List Char → Option (Action (Expr P F)))
    (hcb : ∀ seq t, cb seq = some (.ret t) ∨ cb seq = some (.request t) → NoSlash t) {s s' : S}
    {e : Expr P F} (h : literal cb s = (.ok e, s')) : NoSlash e := by
  rw [literal] at h
  split at h
  next e' r heq =>
    simp only [Prod.mk.injEq, Except.ok.injEq] at h
    rw [← h.1]
    exact scanGo_val NoSlash cb hcb _ _ _ _ _ _ (by simp) heq
  next => simp at h
  next => simp at h

theorem bool_noSlash (seq : List Char) (t : Expr P F)
    (h : boolCb seq = some (.ret t) ∨ boolCb seq = some (.request t)) : NoSlash t := by
  unfold boolCb at h
  intro s hs
  subst hs
  split at h <;> simp at h

theorem null_noSlash (seq : List Char) (t : Expr P F)
    (h : nullCb seq = some (.ret t) ∨ nullCb seq = some (.request t)) : NoSlash t := by
  unfold nullCb at h
  intro s hs
  subst hs
  split at h <;> simp at h

theorem jsonPath_noSlash {x : Ext P F} {s s' : S} {e : Expr P F}
    (h : jsonPathExpr x s = (.ok e, s')) : NoSlash e := by
  rw [jsonPathExpr] at h
  intro t ht
  subst ht
  split at h <;> simp at h

theorem float_noSlash {x : Ext P F} {s s' : S} {e : Expr P F}
    (h : floatLiteral x s = (.ok e, s')) : NoSlash e := by
  rw [floatLiteral] at h
  generalize floatGo s.save.rest [] false = g at h
  obtain ⟨⟨a, b⟩, r⟩ := g
  dsimp only at h
  intro t ht
  subst ht
  split at h
  · simp at h
  · split at h <;> simp at h

theorem int_noSlash {s s' : S} {e : Expr P F} (h : intLiteral s = (.ok e, s')) : NoSlash e := by
  rw [intLiteral] at h
  generalize intGo s.save.rest [] = g at h
  obtain ⟨a, r⟩ := g
  dsimp only at h
  intro t ht
  subst ht
  split at h
  · simp at h
  · split at h <;> simp at h

theorem string_noSlash {s s' : S} {e : Expr P F} (h : stringLiteral s = (.ok e, s')) :
    NoSlash e := by
  rw [stringLiteral] at h
  intro t ht
  subst ht
  split at h
  next r heq =>
    split at h
    next u r' heq2 =>
      simp only [Prod.mk.injEq, Except.ok.injEq, Expr.str.injEq] at h
      rw [← h.1, unescape_last]
      exact (strGo_last _ _ _ _ heq2).2
    next => simp at h
  next => simp at h

theorem simple_noSlash {x : Ext P F} {s s' : S} {e : Expr P F}
    (h : simpleArg x s = (.ok e, s')) : NoSlash e := by
  rw [simpleArg] at h
  split at h
  next e1 s1 h1 =>
    cases h
    exact jsonPath_noSlash h1
  next e1 s1 h1 =>
    split at h
    · cases h
    · split at h
      next e2 s2 h2 =>
        cases h
        exact literal_noSlash _ bool_noSlash h2
      next e2 s2 h2 =>
        split at h
        next e3 s3 h3 =>
          cases h
          exact literal_noSlash _ null_noSlash h3
        next e3 s3 h3 =>
          split at h
          next e4 s4 h4 =>
            cases h
            exact float_noSlash h4
          next e4 s4 h4 =>
            split at h
            next e5 s5 h5 =>
              cases h
              exact int_noSlash h5
            next e5 s5 h5 =>
              split at h
              next e6 s6 h6 =>
                cases h
                exact string_noSlash h6
              next e6 s6 h6 =>
                split at h
                · cases h
                · split at h <;> cases h

theorem funcCall_call {x : Ext P F} {fuel : Nat} {s s' : S} {e : Expr P F}
    (h : funcCall x fuel s = some (.ok e, s')) : ∃ name r r1 s2 args,
      funcName x s.rest = (.ok name, r) ∧ skipWhite x r = '(' :: r1 ∧ e = .call name args ∧
      ∃ f, argsLoop x f ⟨r1, s.save.stack⟩ [] = some (.ok args, s2) := by
  cases fuel with
  | zero => rw [funcCall] at h; cases h
  | succ fuel =>
    rw [funcCall] at h
    split at h
    next => simp at h
    next name r hn =>
      split at h
      next r1 hr =>
        split at h
        next => cases h
        next args s2 ha =>
          simp only [Option.some.injEq, Prod.mk.injEq, Except.ok.injEq] at h
          exact ⟨name, r, r1, s2, args, hn, hr, h.1.symm, fuel, ha⟩
        next => simp at h
      next => simp at h

theorem argsLoop_noSlash {x : Ext P F} : ∀ (fuel : Nat) (s s' : S) (acc args : List (Expr P F)),
    argsLoop x fuel s acc = some (.ok args, s') → (∀ a ∈ acc, NoSlash a) →
    ∀ a ∈ args, NoSlash a := by
  intro fuel
  induction fuel with
  | zero => intro s s' acc args h; rw [argsLoop] at h; cases h
  | succ fuel ih =>
    intro s s' acc args h ha
    rw [argsLoop] at h
    split at h
    next =>
      simp only [Option.some.injEq, Prod.mk.injEq, Except.ok.injEq] at h
      rw [← h.1]; exact ha
    next c r _ =>
      split at h
      · exact ih _ _ _ _ h ha
      · split at h
        · simp only [Option.some.injEq, Prod.mk.injEq, Except.ok.injEq] at h
          rw [← h.1]; exact ha
        · split at h
          next => cases h
          next => simp at h
          next a s1 he =>
            have hn : NoSlash a := by
              cases fuel with
              | zero => rw [funcArg] at he; cases he
              | succ fuel =>
                rw [funcArg] at he
                split at he
                next => cases he
                next e s2 hc =>
                  obtain ⟨name, _, _, _, args', _, _, hcall, _⟩ := funcCall_call hc
                  simp only [Option.some.injEq, Prod.mk.injEq, Except.ok.injEq] at he
                  rw [← he.1, hcall]
                  intro t ht
                  cases ht
                next =>
                  simp only [Option.some.injEq] at he
                  exact simple_noSlash he
            have ha' : ∀ b ∈ acc ++ [a], NoSlash b := by
              intro b hb
              rcases List.mem_append.1 hb with hb | hb
              · exact ha b hb
              · rw [List.mem_singleton.1 hb]; exact hn
            split at h
            · exact ih _ _ _ _ h ha'
            · split at h
              · exact ih _ _ _ _ h ha'
              · split at h
                · exact ih _ _ _ _ h ha'
                · simp at h

/-! ## The beginning of an accepted text -/

theorem nameGo_rest_inv {x : Ext P F} : ∀ (rest acc n r : List Char), acc ≠ [] →
    nameGo x rest acc = (some n, r) → ∃ cs, n = acc ++ cs ∧ rest = cs ++ r ∧
      ∀ d ∈ cs, x.alpha d = true ∨ d.isDigit = true ∨ d = '_' := by
  intro rest
  induction rest with
  | nil =>
    intro acc n r _ h
    simp only [nameGo, Prod.mk.injEq, Option.some.injEq] at h
    exact ⟨[], by simp [h.1], by simp [← h.2], by simp⟩
  | cons c rest ih =>
    intro acc n r ha h
    rw [nameGo] at h
    · split at h
      next hc =>
        obtain ⟨cs, h1, h2, h3⟩ := ih (acc ++ [c]) n r (by simp) h
        refine ⟨c :: cs, by simp [h1], by simp [h2], ?_⟩
        intro d hd
        rcases List.mem_cons.1 hd with hd | hd
        · subst hd
          simp only [Bool.or_eq_true, beq_iff_eq] at hc
          rcases hc with (hc | hc) | hc
          · exact Or.inl hc
          · exact Or.inr (Or.inl hc)
          · exact Or.inr (Or.inr hc)
        · exact h3 d hd
      next hc =>
        simp only [Prod.mk.injEq, Option.some.injEq] at h
        exact ⟨[], by simp [h.1], by simp [h.2], by simp⟩
    · exact ha

theorem nameGo_inv {x : Ext P F} : ∀ (rest n r : List Char), n ≠ [] →
    nameGo x rest [] = (some n, r) → ∃ w, Blank x w ∧ Name x n ∧ rest = w ++ n ++ r := by
  intro rest
  induction rest with
  | nil =>
    intro n r hn h
    simp only [nameGo, Prod.mk.injEq, Option.some.injEq] at h
    exact absurd h.1.symm hn
  | cons c rest ih =>
    intro n r hn h
    rw [nameGo] at h
    split at h
    next hw =>
      obtain ⟨w, h1, h2, h3⟩ := ih n r hn h
      refine ⟨c :: w, ?_, h2, by simp [h3]⟩
      intro d hd
      rcases List.mem_cons.1 hd with hd | hd
      · rw [hd]; exact hw
      · exact h1 d hd
    next hw =>
      split at h
      next hc =>
        obtain ⟨cs, h1, h2, h3⟩ := nameGo_rest_inv rest [c] n r (by simp) h
        refine ⟨[], by simp [Blank], ⟨c, cs, h1, ?_, h3⟩, by simp [h1, h2]⟩
        simpa using hc
      next => simp at h

theorem funcName_inv {x : Ext P F} {rest n r : List Char} (h : funcName x rest = (.ok n, r)) :
    ∃ w, Blank x w ∧ Name x n ∧ rest = w ++ n ++ r := by
  rw [funcName] at h
  split at h
  next => simp at h
  next name r' hne heq =>
    simp only [Prod.mk.injEq, Except.ok.injEq] at h
    obtain ⟨h1, h2⟩ := h
    subst h1 h2
    exact nameGo_inv rest name r' (fun e => hne e) heq
  next => simp at h

theorem skipWhite_inv {x : Ext P F} {rest r : List Char} (h : skipWhite x rest = r) :
    ∃ w, Blank x w ∧ rest = w ++ r := by
  refine ⟨rest.takeWhile x.white, ?_, ?_⟩
  · intro c hc
    exact List.all_eq_true.1 List.all_takeWhile c hc
  · rw [← h, skipWhite, List.takeWhile_append_dropWhile]

/-! ## Calls of which some arguments are read -/

theorem started_parse {x : Ext P F} (hx : Sane x) {es : List (Expr P F)} {t : List Char}
    (h : Started x es t) : ∀ (rest : List Char) (st : List (List Char)) (acc : List (Expr P F))
    (fuel : Nat), 3 * (t ++ rest).length + 3 ≤ fuel →
    ∃ f, 3 * rest.length + 3 ≤ f ∧
      argsLoop x fuel ⟨t ++ rest, st⟩ acc = argsLoop x f ⟨rest, st⟩ (acc ++ es) := by
  induction h with
  | none => intro rest st acc fuel hf; exact ⟨fuel, by simpa using hf, by simp⟩
  | more w t v u e es hw he hv hp _ ih =>
    intro rest st acc fuel hf
    simp only [List.length_append, List.length_cons] at hf
    obtain ⟨g, rfl⟩ : ∃ g, fuel = g + 1 + w.length := ⟨fuel - 1 - w.length, by omega⟩
    have ha := arg_parses hx he v (u ++ rest) ',' st g hv (stop_of hx v (Or.inl rfl)) hp
      (by simp only [List.length_append, List.length_cons]; omega)
    have e1 : w ++ t ++ v ++ ',' :: u ++ rest = w ++ (t ++ (v ++ ',' :: (u ++ rest))) := by simp
    rw [e1, argsLoop_step hx hw he hv (Or.inl rfl) ha, if_pos rfl]
    obtain ⟨f, h1, h2⟩ := ih rest st (acc ++ [e]) g (by simp only [List.length_append]; omega)
    exact ⟨f, h1, by rw [h2]; simp⟩

/-- An error in the arguments is an error of the call. -/
theorem call_error {x : Ext P F} (hx : Sane x) {w0 name w u rest : List Char}
    {es : List (Expr P F)} {e : PErr} (h0 : Blank x w0) (hn : Name x name) (hw : Blank x w)
    (hu : Started x es u)
    (h : ∀ st acc f, 3 * rest.length + 3 ≤ f →
      ∃ s, argsLoop x f ⟨rest, st⟩ acc = some (.error e, s)) :
    parseFunc x (w0 ++ name ++ (w ++ '(' :: (u ++ rest))) = some (.error e) := by
  have hp : x.white '(' = false := ascii_white hx (by decide) (by decide)
  have hname : funcName x (w0 ++ name ++ (w ++ '(' :: (u ++ rest)))
      = (.ok name, w ++ '(' :: (u ++ rest)) := by
    cases w with
    | nil => exact funcName_name hx h0 hn (ascii_not_ident hx (by decide) (by decide))
    | cons c w => exact funcName_name hx h0 hn (white_not_ident hx (hw c (by simp)))
  rw [parseFunc, funcCall]
  dsimp only [S.save]
  rw [hname]
  dsimp only
  rw [skipWhite_blank hw hp]
  simp only
  obtain ⟨f, h1, h2⟩ := started_parse hx hu rest
    [w0 ++ name ++ (w ++ '(' :: (u ++ rest))] []
    (3 * (w0 ++ name ++ (w ++ '(' :: (u ++ rest))).length + 2)
    (by simp only [List.length_append, List.length_cons]; omega)
  rw [h2]
  obtain ⟨s, hs⟩ := h [w0 ++ name ++ (w ++ '(' :: (u ++ rest))] ([] ++ es) f h1
  rw [hs]
  rfl

/-- An argument that is an error. -/
theorem argsLoop_error {x : Ext P F} {w r : List Char} {c : Char} {e : PErr}
    {st : List (List Char)} {acc : List (Expr P F)} {fuel : Nat} (hw : Blank x w)
    (h1 : x.white c = false) (h2 : c ≠ ')') {s : S}
    (h : funcArg x fuel ⟨c :: r, st⟩ = some (.error e, s)) :
    argsLoop x (fuel + 1 + w.length) ⟨w ++ c :: r, st⟩ acc = some (.error e, s) := by
  rw [argsLoop_blank hw, argsLoop]
  dsimp only
  rw [if_neg (by simp [h1]), if_neg h2, h]

theorem strGo_unclosed : ∀ (s : List Char) (prev : Char), strGo (escape s) prev = none := by
  intro s
  induction s with
  | nil => intro prev; rfl
  | cons c s ih =>
    intro prev
    rw [escape]
    split
    · rw [strGo, if_neg (by simp), strGo, if_neg (by simp), ih]
    next hc => rw [strGo, if_neg (by simp [hc]), ih]

theorem simple_unclosed {x : Ext P F} (hx : Sane x) (s : List Char) (st : List (List Char)) :
    simpleArg x ⟨'"' :: escape s, st⟩ = (.error .endOfInput, ⟨'"' :: escape s, st⟩) := by
  have hf : floatLiteral x ⟨'"' :: escape s, st⟩ = (.error .character, ⟨'"' :: escape s, st⟩) := by
    rw [floatLiteral]
    dsimp only [S.save]
    have : floatGo ('"' :: escape s) [] false = (([], false), '"' :: escape s) := by
      rw [floatGo, if_neg (by decide), if_neg (by decide), if_neg (by decide)]
    rw [this]
    rfl
  have hi : (intLiteral ⟨'"' :: escape s, st⟩ : Except PErr (Expr P F) × S)
      = (.error .character, ⟨'"' :: escape s, st⟩) := by
    rw [intLiteral]
    dsimp only [S.save]
    have : intGo ('"' :: escape s) [] = ([], '"' :: escape s) := by
      rw [intGo, if_neg (by decide)]
    rw [this]
    rfl
  have hs : (stringLiteral ⟨'"' :: escape s, st⟩ : Except PErr (Expr P F) × S)
      = (.error .endOfInput, ⟨'"' :: escape s, st⟩) := by
    rw [stringLiteral]
    simp only [S.save]
    rw [strGo_unclosed s ' ']
    rfl
  rw [simple_number hx (by decide), hf]
  dsimp only
  rw [hi]
  dsimp only
  rw [hs]
  rfl

theorem parse_overflow {t : List Char} {i : Int} (h : IntText t i)
    (hi : ¬ (-2 ^ 63 ≤ i ∧ i < 2 ^ 63)) : Text.parseSigned 64 t = none := by
  cases hp : Text.parseSigned 64 t with
  | none => rfl
  | some n =>
    exfalso
    obtain ⟨h1, h2, h3⟩ := (Text.parseSigned_iff _ _ _).1 hp
    have hs : Text.SignedText t i := by
      obtain ⟨ds, h4, h5, h6⟩ := h
      rcases h6 with ⟨h6, h7⟩ | ⟨h6, h7⟩
      · exact ⟨[], ds, by simpa using h6, h4, h5, Or.inl ⟨Or.inl rfl, h7⟩⟩
      · exact ⟨['-'], ds, by simpa using h6, h4, h5, Or.inr ⟨rfl, h7⟩⟩
    have key : ∀ m : Int, m.natAbs ≤ i.natAbs + n.natAbs →
        -(2 ^ (i.natAbs + n.natAbs + 1 - 1) : Nat) ≤ m ∧
          m < (2 ^ (i.natAbs + n.natAbs + 1 - 1) : Nat) := by
      intro m hm
      have : i.natAbs + n.natAbs < 2 ^ (i.natAbs + n.natAbs + 1 - 1) := Nat.lt_two_pow_self
      omega
    have e1 := (Text.parseSigned_iff (i.natAbs + n.natAbs + 1) t i).2
      ⟨hs, key i (Nat.le_add_right _ _)⟩
    have e2 := (Text.parseSigned_iff (i.natAbs + n.natAbs + 1) t n).2
      ⟨h1, key n (Nat.le_add_left _ _)⟩
    rw [e1] at e2
    simp only [Option.some.injEq] at e2
    subst e2
    exact hi ⟨by simpa using h2, by simpa using h3⟩

theorem simple_overflow {x : Ext P F} (hx : Sane x) {t tail : List Char} {i : Int}
    (st : List (List Char)) (h : IntText t i) (hi : ¬ (-2 ^ 63 ≤ i ∧ i < 2 ^ 63))
    (ht : Delim x tail) :
    simpleArg x ⟨t ++ tail, st⟩ = (.error .character, ⟨t ++ tail, st⟩) := by
  obtain ⟨c, r, h3, h4⟩ := intText_start h
  have hc := (number_start hx h4).2.2.2.1
  have hq : c ≠ '"' := by
    rcases h4 with h4 | h4 | h4
    · intro h5; subst h5; exact absurd h4 (by decide)
    · subst h4; decide
    · subst h4; decide
  have hf : floatLiteral x ⟨t ++ tail, st⟩ = (.error .character, ⟨t ++ tail, st⟩) := by
    rw [floatLiteral]
    dsimp only [S.save]
    rw [floatGo_int hx h ht]
    dsimp only
    rw [if_pos (Or.inr rfl)]
    rfl
  have hi : (intLiteral ⟨t ++ tail, st⟩ : Except PErr (Expr P F) × S)
      = (.error .character, ⟨t ++ tail, st⟩) := by
    rw [intLiteral]
    dsimp only [S.save]
    rw [intGo_int hx h ht]
    dsimp only
    rw [if_neg (by rw [h3]; simp), parse_overflow h hi]
    rfl
  have e : t ++ tail = c :: (r ++ tail) := by rw [h3]; rfl
  have hs : (stringLiteral ⟨t ++ tail, st⟩ : Except PErr (Expr P F) × S)
      = (.error .character, ⟨t ++ tail, st⟩) := by
    rw [stringLiteral]
    simp only [S.save]
    split
    next r' heq =>
      rw [e] at heq
      exact absurd (List.cons.inj heq).1 hq
    next => rfl
  rw [e, simple_number hx hc, ← e, hf]
  dsimp only
  rw [hi]
  dsimp only
  rw [hs, e]
  simp [hq]

end Verif.TmplParser
