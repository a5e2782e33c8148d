import Verif.TmplParser.Lemmas

/-!
# Properties of the parser of template function calls: C34, C35 and C75
-/

namespace Verif.TmplParser

variable {P F : Type}

/-! ## Examples are over libraries that know ASCII only -/

theorem ascii_sane : Sane ascii where
  alphaAscii _ _ := rfl
  whiteAscii _ _ := rfl
  apart c h := by
    simp only [ascii, decide_eq_true_eq] at h ⊢
    rcases h with h | h
    · subst h; decide
    · simp only [Char.isAlpha, Char.isUpper, Char.isLower, Bool.or_eq_false_iff,
        Bool.and_eq_false_iff, decide_eq_false_iff_not]
      constructor
      · intro h3
        have h3 : 65 ≤ c.toNat := h3.1
        omega
      · left
        intro h3
        have h3 : 97 ≤ c.toNat := h3
        omega
  dollar t p h := by
    simp only [ascii] at h
    split at h
    next h1 => exact h1
    next => cases h

/-- `list` -/
def nList : List Char := ['l', 'i', 's', 't']

theorem nList_name {x : Ext P F} (hx : Sane x) : Name x nList := by
  have key : ∀ c : Char, c.toNat < 128 → c.isAlpha = true → x.alpha c = true := by
    intro c h1 h2
    rw [hx.alphaAscii c h1, h2]
  refine ⟨'l', ['i', 's', 't'], rfl, Or.inl (key _ (by decide) (by decide)), ?_⟩
  intro d hd
  left
  simp only [List.mem_cons, List.not_mem_nil, or_false] at hd
  rcases hd with hd | hd | hd <;> subst hd <;> exact key _ (by decide) (by decide)

/-! ## C75: parsing terminates -/

/-- C75. The parser terminates on every text: its recursion is never deeper than three times the
length of the text and three. -/
theorem terminates (x : Ext P F) (hx : Sane x) (text : List Char) : ∃ r, parseFunc x text = some r := by
  obtain ⟨r, h, _⟩ := (enough_fuel x hx (3 * text.length + 3)).1 ⟨text, []⟩ (by simp)
  exact ⟨r.1, by rw [parseFunc, h]; rfl⟩

/-! ## C34: calls parse to what was written -/

/-- C34. A call written according to the grammar parses to that call, with any white space before it
and any text after it. -/
theorem parse_written {x : Ext P F} (hx : Sane x) {w0 t : List Char} {name : List Char}
    {args : List (Expr P F)} (h0 : Blank x w0) (h : Written x (.call name args) t)
    (tail : List Char) : parseFunc x (w0 ++ t ++ tail) = some (.ok (.call name args)) := by
  cases h with
  | call _ w t _ hn hw ha =>
    have e : w0 ++ (name ++ w ++ '(' :: t) ++ tail = w0 ++ name ++ (w ++ '(' :: (t ++ tail)) := by
      simp
    rw [e, parseFunc]
    have hl := args_parse hx ha tail [w0 ++ name ++ (w ++ '(' :: (t ++ tail))] []
      (3 * (w0 ++ name ++ (w ++ '(' :: (t ++ tail))).length + 2)
      (by simp only [List.length_append, List.length_cons]; omega)
    rw [funcCall_ok hx h0 hn hw hl]
    rfl

/-- C34. No text is a way to write two different calls. -/
theorem written_unambiguous {x : Ext P F} (hx : Sane x) {t n n' : List Char}
    {args args' : List (Expr P F)} (h : Written x (.call n args) t)
    (h' : Written x (.call n' args') t) : n = n' ∧ args = args' := by
  have e := parse_written (w0 := []) hx (by simp [Blank]) h []
  rw [parse_written (w0 := []) hx (by simp [Blank]) h' []] at e
  simp only [Option.some.injEq, Except.ok.injEq, Expr.call.injEq] at e
  exact ⟨e.1.symm, e.2.symm⟩

/-- C34, in full: every tree is the meaning of some text. -/
def FullTrees (x : Ext P F) : Prop :=
  ∀ name args, Tree x (fun _ => True) (.call name args) →
    ∃ text, parseFunc x text = some (.ok (.call name args))

/-- C34 fails: no text means a call with the string `\` as an argument. -/
theorem trees_violated {x : Ext P F} (hx : Sane x) : ¬ FullTrees x := by
  intro h
  obtain ⟨text, ht⟩ := h nList [.str ['\\']] (.call _ _ (nList_name hx) (by
    intro a ha
    rw [List.mem_singleton.1 ha]
    exact .str _ trivial))
  rw [parseFunc] at ht
  cases hc : funcCall x (3 * text.length + 3) ⟨text, []⟩ with
  | none => rw [hc] at ht; cases ht
  | some r =>
    obtain ⟨r, s⟩ := r
    rw [hc] at ht
    simp only [Option.map_some, Option.some.injEq] at ht
    subst ht
    obtain ⟨_, _, _, s2, args, _, _, h3, f, h4⟩ := funcCall_call hc
    simp only [Expr.call.injEq] at h3
    obtain ⟨_, h3⟩ := h3
    subst h3
    exact argsLoop_noSlash f _ _ _ _ h4 (by simp) _ (by simp) ['\\'] rfl rfl

/-- C34 for trees in which no string ends in a backslash. Missing: strings that do. -/
theorem trees_partial {x : Ext P F} (hx : Sane x) (name : List Char) (args : List (Expr P F))
    (h : Tree x (fun s => s.getLast? ≠ some '\\') (.call name args)) :
    ∃ text, parseFunc x text = some (.ok (.call name args)) := by
  obtain ⟨t, ht⟩ := tree_writable h
  exact ⟨_, parse_written (w0 := []) hx (by simp [Blank]) ht []⟩

/-- ` list ( "a\"b" ,-12, $.c['d,)'] , f(true,null) )` -/
def sample : List Char :=
  [' ', 'l', 'i', 's', 't', ' ', '(', ' ', '"', 'a', '\\', '"', 'b', '"', ' ', ',', '-', '1', '2',
   ',', ' ', '$', '.', 'c', '[', '\'', 'd', ',', ')', '\'', ']', ',', 'f', '(', 't', 'r', 'u', 'e',
   ',', 'n', 'u', 'l', 'l', ')', ' ', ')']

/-- The tree of the sample. -/
def sampleTree : List (Expr (List Char) Nat) :=
  [.str ['a', '"', 'b'], .int (-12), .path ['$', '.', 'c', '[', '\'', 'd', ',', ')', '\'', ']'],
   .call ['f'] [.bool true, .null]]

-- The sample is written according to the grammar, and parses accordingly.
example : ∃ t, sample = [' '] ++ t ∧ Written ascii (.call nList sampleTree) t := by
  have hb : Blank ascii [' '] := by intro c hc; rw [List.mem_singleton.1 hc]; rfl
  have hn : Blank ascii [] := by simp [Blank]
  refine ⟨_, rfl, .call nList [' '] _ _ (nList_name ascii_sane) hb
    (.more [' '] ('"' :: escape ['a', '"', 'b'] ++ ['"']) [' '] _ _ _ _ hb
      (.str ['a', '"', 'b'] (by decide)) hb (by simp [Expr.isPath])
    (.more [] ['-', '1', '2'] [] _ _ _ _ hn (.int _ _ ⟨['1', '2'], by simp, by decide,
      Or.inr ⟨rfl, by decide⟩⟩ (by decide) (by decide)) hn (by simp)
    (.more [' '] ['$', '.', 'c', '[', '\'', 'd', ',', ')', '\'', ']'] [] _ _ _ _ hb
      (.path _ _ ?_ rfl) hn (by simp)
    (.last [] (['f'] ++ [] ++ '(' :: _) [' '] _ hn (.call ['f'] [] _ _
      ⟨'f', [], rfl, Or.inl rfl, by simp⟩ hn
      (.more [] ['t', 'r', 'u', 'e'] [] _ _ _ _ hn .true hn (by simp)
        (.last [] ['n', 'u', 'l', 'l'] [] _ hn .null hn (by simp)))) hb (by simp [Expr.isPath])))))⟩
  exact .plain (by decide) (.plain (by decide) (.plain (by decide) (.opened
    (.quoted (q := ['d', ',', ')']) (by decide) (.closed .nil)))))

example : parseFunc ascii sample = some (.ok (.call nList sampleTree)) := rfl

/-! ## C35: malformed calls -/

/-- C35, in full: only calls written according to the grammar, with white space around, are
accepted. -/
def Strict (x : Ext P F) : Prop :=
  ∀ text e, parseFunc x text = some (.ok e) →
    ∃ w0 t w1, Blank x w0 ∧ Blank x w1 ∧ Written x e t ∧ text = w0 ++ t ++ w1

theorem args_close {x : Ext P F} {es : List (Expr P F)} {t : List Char} (h : WrittenArgs x es t) :
    t.getLast? = some ')' := by
  cases h with
  | none w _ => simp
  | last w t v e _ _ _ _ => simp
  | more w t v u e f es _ _ _ _ hu =>
    have := args_close hu
    rw [List.getLast?_append, List.getLast?_cons, this]
    rfl
termination_by t.length
decreasing_by
  subst_vars
  simp only [List.length_append, List.length_cons]
  omega

theorem call_close {x : Ext P F} {n : List Char} {es : List (Expr P F)} {t : List Char}
    (h : Written x (.call n es) t) : t.getLast? = some ')' := by
  cases h with
  | call _ w t _ _ _ ha =>
    rw [List.getLast?_append, List.getLast?_cons, args_close ha]
    rfl

/-- C35 fails, whatever the libraries do: text after a call is ignored. -/
theorem trailing_text_accepted {x : Ext P F} (hx : Sane x) {t name : List Char}
    {args : List (Expr P F)} (h : Written x (.call name args) t) (garbage : List Char) :
    parseFunc x (t ++ garbage) = some (.ok (.call name args)) :=
  parse_written (w0 := []) hx (by simp [Blank]) h garbage

/-- C35 fails. -/
theorem strict_violated {x : Ext P F} (hx : Sane x) : ¬ Strict x := by
  intro h
  have hw : Written x (.call nList ([] : List (Expr P F))) (nList ++ [] ++ '(' :: ([] ++ [')'])) :=
    .call nList [] _ [] (nList_name hx) (by simp [Blank]) (.none [] (by simp [Blank]))
  have ht := trailing_text_accepted hx hw ['x']
  obtain ⟨w0, t, w1, h0, h1, h2, h3⟩ := h _ _ ht
  have hl : (w0 ++ t ++ w1).getLast? = some 'x' := by rw [← h3]; rfl
  rw [List.getLast?_append] at hl
  cases hw1 : w1.getLast? with
  | some c =>
    rw [hw1] at hl
    simp only [Option.some_or, Option.some.injEq] at hl
    subst hl
    have := h1 'x' (List.mem_of_getLast? hw1)
    rw [ascii_white hx (by decide) (by decide)] at this
    cases this
  | none =>
    rw [hw1, List.getLast?_append, call_close h2] at hl
    simp at hl

/-- `list(1` -/
def unclosed : List Char := nList ++ ['(', '1']

/-- `list(t5)` -/
def misspelt : List Char := nList ++ ['(', 't', '5', ')']

/-- `list(1,)` -/
def trailingComma : List Char := nList ++ ['(', '1', ',', ')']

/-- C35 fails also inside calls: a missing closing parenthesis and a comma without an argument are
accepted, and a misspelt `true` or `null` loses its first letters. -/
theorem malformed_accepted :
    parseFunc ascii unclosed = some (.ok (.call nList [.int 1])) ∧
    parseFunc ascii misspelt = some (.ok (.call nList [.int 5])) ∧
    parseFunc ascii trailingComma = some (.ok (.call nList [.int 1])) := ⟨rfl, rfl, rfl⟩

-- None of the three texts is written according to the grammar.
example : ¬ ∃ t, Written ascii (.call nList [.int 1]) t ∧ t = unclosed := by
  rintro ⟨t, h, rfl⟩
  exact absurd (call_close h) (by decide)

/-- C35, what is accepted: a text that is accepted starts, after white space, with the name of the
resulting call, white space and an opening parenthesis. Everything else is rejected. -/
theorem accepted_head_partial {x : Ext P F} {text : List Char} {e : Expr P F}
    (h : parseFunc x text = some (.ok e)) : ∃ w0 name w r args, Blank x w0 ∧ Name x name ∧
      Blank x w ∧ text = w0 ++ name ++ w ++ '(' :: r ∧ e = .call name args := by
  rw [parseFunc] at h
  cases hc : funcCall x (3 * text.length + 3) ⟨text, []⟩ with
  | none => rw [hc] at h; cases h
  | some r =>
    obtain ⟨r, s⟩ := r
    rw [hc] at h
    simp only [Option.map_some, Option.some.injEq] at h
    subst h
    obtain ⟨name, r, r1, _, args, h1, h2, h3, _⟩ := funcCall_call hc
    obtain ⟨w0, h4, h5, h6⟩ := funcName_inv h1
    obtain ⟨w, h7, h8⟩ := skipWhite_inv h2
    refine ⟨w0, name, w, r1, args, h4, h5, h7, ?_, h3⟩
    have h6 : text = w0 ++ name ++ r := h6
    rw [h6, h8]
    simp

/-- C35, a rejected kind: after any arguments, an argument followed by white space and anything but
a comma or a parenthesis. -/
theorem missing_separator_partial {x : Ext P F} (hx : Sane x)
    {w0 name w u w1 t v r : List Char} {d : Char} {es : List (Expr P F)} {e : Expr P F}
    (h0 : Blank x w0) (hn : Name x name) (hw : Blank x w) (hu : Started x es u) (h1 : Blank x w1)
    (ht : Written x e t) (he : ¬ e.isPath) (hv : Blank x v) (hne : v ≠ [])
    (hd : x.white d = false) (hd' : d ∉ ['(', ',', ')']) :
    parseFunc x (w0 ++ name ++ (w ++ '(' :: (u ++ (w1 ++ (t ++ (v ++ d :: r))))))
      = some (.error .character) := by
  simp only [List.mem_cons, List.not_mem_nil, or_false, not_or] at hd'
  refine call_error hx h0 hn hw hu ?_
  intro st acc f hf
  simp only [List.length_append, List.length_cons] at hf
  obtain ⟨g, rfl⟩ : ∃ g, f = g + 1 + w1.length := ⟨f - 1 - w1.length, by omega⟩
  have ha := arg_parses hx ht v r d st g hv ⟨hd, hd'.1, fun h => absurd h hne⟩
    (fun h => absurd h he) (by simp only [List.length_append, List.length_cons]; omega)
  rw [argsLoop_blank h1]
  obtain ⟨c, q, h3, h4, h5⟩ := written_start hx ht
  subst h3
  rw [argsLoop]
  dsimp only [List.cons_append]
  rw [if_neg (by simp [h4]), if_neg h5]
  have ha' : funcArg x g ⟨c :: (q ++ (v ++ d :: r)), st⟩ = some (.ok e, ⟨v ++ d :: r, st⟩) := ha
  rw [ha']
  simp only
  rw [skipWhite_blank hv hd]
  simp only
  rw [if_neg hd'.2.1, if_neg hd'.2.2]
  exact ⟨_, rfl⟩

/-- C35, a rejected kind: after any arguments, a string without a closing quote. -/
theorem unclosed_string_partial {x : Ext P F} (hx : Sane x) {w0 name w u w1 s : List Char}
    {es : List (Expr P F)} (h0 : Blank x w0) (hn : Name x name) (hw : Blank x w)
    (hu : Started x es u) (h1 : Blank x w1) :
    parseFunc x (w0 ++ name ++ (w ++ '(' :: (u ++ (w1 ++ '"' :: escape s))))
      = some (.error .endOfInput) := by
  refine call_error hx h0 hn hw hu ?_
  intro st acc f hf
  simp only [List.length_append, List.length_cons] at hf
  obtain ⟨g, rfl⟩ : ∃ g, f = g + 2 + 1 + w1.length := ⟨f - 3 - w1.length, by omega⟩
  have ha : funcArg x (g + 2) ⟨'"' :: escape s, st⟩
      = some (.error .endOfInput, ⟨'"' :: escape s, st⟩) := by
    rw [funcArg_simple (e := .character), simple_unclosed hx]
    exact funcCall_start g (ascii_white hx (by decide) (by decide))
      (by rw [hx.alphaAscii _ (by decide)]; decide) (by decide)
  exact ⟨_, argsLoop_error h1 (ascii_white hx (by decide) (by decide)) (by decide) ha⟩

/-- C35, a rejected kind: after any arguments, an integer that does not fit 64 bits. -/
theorem overflow_partial {x : Ext P F} (hx : Sane x) {w0 name w u w1 t v r : List Char} {d : Char}
    {i : Int} {es : List (Expr P F)} (h0 : Blank x w0) (hn : Name x name) (hw : Blank x w)
    (hu : Started x es u) (h1 : Blank x w1) (ht : IntText t i)
    (hi : ¬ (-2 ^ 63 ≤ i ∧ i < 2 ^ 63)) (hv : Blank x v) (hd : d = ',' ∨ d = ')') :
    parseFunc x (w0 ++ name ++ (w ++ '(' :: (u ++ (w1 ++ (t ++ (v ++ d :: r))))))
      = some (.error .character) := by
  refine call_error hx h0 hn hw hu ?_
  intro st acc f hf
  simp only [List.length_append, List.length_cons] at hf
  obtain ⟨g, rfl⟩ : ∃ g, f = g + 2 + 1 + w1.length := ⟨f - 3 - w1.length, by omega⟩
  obtain ⟨c, q, h3, h4⟩ := intText_start ht
  have hs := number_start hx h4
  have ha := simple_overflow hx st ht hi (tail := v ++ d :: r) ⟨v, d, r, rfl, hv, stop_of hx v hd⟩
  subst h3
  have hb : funcArg x (g + 2) ⟨c :: (q ++ (v ++ d :: r)), st⟩
      = some (.error .character, ⟨c :: (q ++ (v ++ d :: r)), st⟩) := by
    rw [funcArg_simple (e := .character)]
    · exact congrArg some ha
    · exact funcCall_start g hs.1 hs.2.1 hs.2.2.1
  exact ⟨_, argsLoop_error h1 hs.1 hs.2.2.2.2 hb⟩

-- `list(1, 2 3)` is rejected, and so are `list(1, "a` and `list(9223372036854775808)`.
example : parseFunc ascii (nList ++ ['(', '1', ',', ' ', '2', ' ', '3', ')'])
    = some (.error .character) := rfl
example : parseFunc ascii (nList ++ ['(', '1', ',', ' ', '"', 'a']) = some (.error .endOfInput) := rfl
example : ¬ (-2 ^ 63 ≤ (9223372036854775808 : Int) ∧ (9223372036854775808 : Int) < 2 ^ 63) := by
  decide
example : Started ascii [.int 1] ([] ++ ['1'] ++ [] ++ ',' :: []) :=
  .more [] ['1'] [] [] _ _ (by simp [Blank]) (.int 1 _ ⟨['1'], by simp, by decide,
    Or.inl ⟨rfl, by decide⟩⟩ (by decide) (by decide)) (by simp [Blank]) (by simp [Expr.isPath]) .none

end Verif.TmplParser
