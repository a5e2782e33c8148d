import Verif.Subst.Lemmas

/-!
# Property theorems about substitutions (C01-C06)
-/

namespace Verif.Subst

open Verif

/-- A concrete character class, for the examples and witnesses: ASCII letters and digits. -/
def asciiClass : CharClass where
  alphabetic c := c.isAlpha
  alphanumeric c := c.isAlphanum
  whitespace c := c.isWhitespace
  alphabetic_alphanumeric c h := by simp [Char.isAlphanum, h]
  quote_not := by decide
  backslash_not := by decide
  close_not := by decide
  open_not := by decide
  v_not_space := by decide

/-- A template used in the examples: `pre ${variables.a_1} mid ${variables["b.c"]}`. -/
def exampleTemplate : List Spec.Tmpl :=
  [.lit "pre ".toList, .dot "a_1".toList, .lit " mid ".toList, .idx "b.c".toList]

theorem exampleTemplate_wf : Spec.WF asciiClass exampleTemplate := by
  refine ⟨?_, ?_, ?_⟩
  · intro n hn
    simp [exampleTemplate] at hn
    subst hn
    exact ⟨'a', ['_', '1'], rfl, by decide, by decide⟩
  · intro n hn
    simp [exampleTemplate] at hn
    subst hn
    show ∀ d ∈ ['b', '.', 'c'], _
    decide
  · intro pre mid post h hl
    have key : ∀ i < 5, ∀ j < 5,
        ((((exampleTemplate.drop i).take j).all Spec.Tmpl.isLit) = true →
          containsOpener (Spec.render ((exampleTemplate.drop i).take j)) = false) := by
      decide
    rw [← containsOpener_iff]
    have hlen : pre.length + (mid.length + post.length) = 4 := by
      have := congrArg List.length h
      simp [exampleTemplate] at this
      omega
    have hm : (exampleTemplate.drop pre.length).take mid.length = mid := by
      rw [h]; simp
    have := key pre.length (by omega) mid.length (by omega)
    rw [hm] at this
    rw [this (by simpa [List.all_eq_true] using hl)]
    simp

/-! ## C01 -/

/-- C01: parsing the written form of any well-formed template gives exactly its pieces. -/
theorem parse_render_roundtrip (cls : CharClass) (t : List Spec.Tmpl) (h : Spec.WF cls t) :
    parseSubstitutions cls (Spec.render t) = .ok (Spec.expected t) :=
  parse_render cls t h

example : parseSubstitutions asciiClass "pre ${variables.a_1} mid ${variables[\"b.c\"]}".toList =
    .ok [.str "pre ".toList, .sub ⟨"a_1".toList⟩, .str " mid ".toList, .sub ⟨"b.c".toList⟩] :=
  parse_render_roundtrip asciiClass exampleTemplate exampleTemplate_wf

/-! ## C02 -/

/-- C02, plain text: text without the opener is one literal, verbatim. -/
theorem parse_plain_text (cls : CharClass) (s : Str) (h : ¬ Spec.HasOpener s) :
    parseSubstitutions cls s = .ok [.str s] := by
  have : containsOpener s = false := by
    rw [← Bool.not_eq_true, containsOpener_iff]; exact h
  simp [parseSubstitutions, this]

/-- C02, any text: parsing never panics and never gives an empty list of pieces. -/
theorem parse_never_empty (cls : CharClass) (s : Str) :
    parseSubstitutions cls s ≠ .panic ∧ parseSubstitutions cls s ≠ .ok [] := by
  rcases parse_total cls s with ⟨e, h⟩ | ⟨ps, h, hne⟩
  · rw [h]; simp
  · rw [h]; simp [hne]

/-- C02, consequence: resolving a parsed value to a scalar never panics. -/
theorem resolve_parsed_no_panic {F : Type} (cls : CharClass) (parseF : Str → Option F) (env : Env)
    (s : Str) (ps : List Piece) (h : parseSubstitutions cls s = .ok ps) :
    resolveScalar parseF env ps ≠ .panic := by
  apply resolveScalar_no_panic
  rintro rfl
  exact (parse_never_empty cls s).2 h

example : ¬ Spec.HasOpener "costs $5 {really}".toList := by
  rw [← containsOpener_iff]; decide
example : parseSubstitutions asciiClass "${".toList = .ok [.str "${".toList] := by decide

/-! ## C03 -/

/-- C03: a string field written as a template resolves to the literals and variable values in
place; it fails exactly when a named variable is not set. -/
theorem resolve_template (cls : CharClass) (env : Env) (t : List Spec.Tmpl) (h : Spec.WF cls t) :
    ∃ ps, parseSubstitutions cls (Spec.render t) = .ok ps ∧
      (∀ s, resolveToString env [] ps = .ok s ↔ Spec.expand env t = some s) ∧
      (resolveToString env [] ps = .err .missingVariable ↔
        ∃ n ∈ Spec.names t, env (Spec.varEnvName n) = none) ∧
      resolveToString env [] ps ≠ .panic := by
  refine ⟨_, parse_render cls t h, ?_⟩
  rw [resolve_expected, ← expand_none]
  cases Spec.expand env t <;> simp

/-- An environment whose values look like substitutions. -/
def exampleEnv : Env := fun k =>
  if k = "CELERITY_VARIABLE_a_1".toList then some "${variables.z}".toList
  else if k = "CELERITY_VARIABLE_b.c".toList then some "9".toList
  else none

example : Spec.expand exampleEnv exampleTemplate =
    some "pre ${variables.z} mid 9".toList := by decide
example : ∃ n ∈ Spec.names (exampleTemplate ++ [.dot "z".toList]),
    exampleEnv (Spec.varEnvName n) = none := ⟨"z".toList, by decide, by decide⟩

/-! ## C04 -/

/-- C04: the typed value of a scalar is determined by the documented ladder, and nothing else. -/
theorem scalar_typing {F : Type} (parseF : Str → Option F) (env : Env) (ps : List Piece)
    (x : Scalar F) :
    resolveScalar parseF env ps = .ok x ↔ Spec.ScalarOf parseF env ps x :=
  resolveScalar_iff parseF env ps x

/-- C04, integers: the decimal text of a 64-bit integer is delivered as that integer. -/
theorem scalar_int_roundtrip {F : Type} (parseF : Str → Option F) (env : Env) (r : VarRef)
    (n : Int) (h1 : -9223372036854775808 ≤ n) (h2 : n ≤ 9223372036854775807)
    (hv : env (Spec.varEnvName r.name) = some (toString n).toList) :
    resolveScalar parseF env [.sub r] = .ok (.int n) :=
  (resolveScalar_iff parseF env _ _).mpr (.ref r _ _ hv (.int n (i64_text_of_int n h1 h2)))

/-- C04, strings: literals and mixed values are always strings. -/
theorem scalar_not_single_ref_is_string {F : Type} (parseF : Str → Option F) (env : Env)
    (ps : List Piece) (x : Scalar F) (hp : ∀ r, ps ≠ [.sub r])
    (h : resolveScalar parseF env ps = .ok x) :
    ∃ ts, Spec.PiecesText env ps ts ∧ x = .str ts.flatten := by
  rw [resolveScalar_iff] at h
  cases h with
  | lit s => exact ⟨[s], .cons rfl .nil, by simp⟩
  | ref r v x => exact absurd rfl (hp r)
  | mixed p q ps ts h => exact ⟨ts, h, rfl⟩

/-- C04: text delivered as a string is unaltered. -/
theorem scalar_string_verbatim {F : Type} (parseF : Str → Option F) (env : Env) (r : VarRef)
    (s v : Str) (hv : env (Spec.varEnvName r.name) = some v)
    (h : resolveScalar parseF env [.sub r] = .ok (.str s)) : s = v := by
  rw [resolveScalar_iff] at h
  cases h with
  | ref _ v' _ h1 h2 =>
    rw [hv] at h1
    cases h1
    cases h2 with
    | str => rfl

example : resolveScalar (F := Nat) (fun _ => none)
    (fun k => if k = "CELERITY_VARIABLE_p".toList then some "-42".toList else none)
    [.sub ⟨"p".toList⟩] = .ok (.int (-42)) := by decide

/-! ## C05 -/

/-- C05: resolving a tree gives a tree of the same structure, and nothing else. -/
theorem resolve_node_structure {F : Type} (parseF : Str → Option F) (env : Env) (n : Node F)
    (r : RNode F) :
    resolveNode parseF env 0 n = .ok r ↔ (Spec.Corr parseF env n r ∧ Spec.height n ≤ 20) := by
  have := resolveNode_iff parseF env 0 n r (by omega)
  simpa using this

/-- C05: resolution succeeds exactly when the nesting is within the limit and every variable is
set. -/
theorem resolve_node_succeeds {F : Type} (parseF : Str → Option F) (env : Env) (n : Node F) :
    (∃ r, resolveNode parseF env 0 n = .ok r) ↔
      (Spec.Resolvable env n ∧ Spec.height n ≤ 20) := by
  constructor
  · rintro ⟨r, h⟩
    rw [resolve_node_structure] at h
    exact ⟨(corr_exists parseF env n).mp ⟨r, h.1⟩, h.2⟩
  · rintro ⟨h1, h2⟩
    obtain ⟨r, hr⟩ := (corr_exists parseF env n).mpr h1
    exact ⟨r, (resolve_node_structure parseF env n r).mpr ⟨hr, h2⟩⟩

/-- A nested configuration value. -/
def exampleNode : Node Nat :=
  .mapping [("a".toList, .sequence [.null, .subst [.sub ⟨"b.c".toList⟩]]),
    ("k".toList, .scalar (.bool true))]

example : Spec.Resolvable exampleEnv exampleNode ∧ Spec.height exampleNode = 2 := by
  constructor
  · simp [exampleNode, Spec.Resolvable, Spec.ResolvableEntries, Spec.ResolvableList]
    decide
  · simp [exampleNode, Spec.height, Spec.heightEntries, Spec.heightList]

/-! ## C06 -/

/-- C06, full statement, first half: the pieces of any parsed text spell that text. -/
def FullTextPreserved : Prop :=
  ∀ (cls : CharClass) (s : Str) (ps : List Piece), parseSubstitutions cls s = .ok ps →
    ∃ t, Spec.render t = s ∧ (ps = Spec.expected t ∨ ps = Spec.pieces [] t)

/-- C06, full statement, second half: every reference is recognised. -/
def FullRefsRecognised : Prop :=
  ∀ (cls : CharClass) (a b n : Str) (ps : List Piece), Spec.DotName cls n →
    parseSubstitutions cls (a ++ (Spec.Tmpl.dot n).text ++ b) = .ok ps → .sub ⟨n⟩ ∈ ps

/-- Length of the shortest text that the pieces could stand for. -/
def minLength : List Piece → Nat
  | [] => 0
  | .str s :: ps => s.length + minLength ps
  | .sub r :: ps => r.name.length + minLength ps

theorem minLength_append (a b : List Piece) :
    minLength (a ++ b) = minLength a + minLength b := by
  induction a with
  | nil => simp [minLength]
  | cons p a ih => cases p <;> simp [minLength, ih] <;> omega

theorem minLength_pieces (acc : Str) (t : List Spec.Tmpl) :
    minLength (Spec.pieces acc t) ≤ acc.length + (Spec.render t).length := by
  have hopt : ∀ a : Str, minLength (if a = [] then [] else [.str a]) = a.length := by
    intro a; by_cases h : a = [] <;> simp [h, minLength]
  induction t generalizing acc with
  | nil => simp only [Spec.pieces, hopt]; omega
  | cons x t ih =>
    cases x with
    | lit s =>
      have := ih (acc ++ s)
      simp only [Spec.pieces]
      simp [Spec.render, lit_text] at this ⊢
      omega
    | dot n =>
      have := ih []
      simp only [Spec.pieces, minLength_append, hopt, minLength]
      simp [Spec.render, dot_text] at this ⊢
      omega
    | idx n =>
      have := ih []
      simp only [Spec.pieces, minLength_append, hopt, minLength]
      simp [Spec.render, idx_text] at this ⊢
      omega

/-- C06 is false: an unclosed reference duplicates the text before it. -/
theorem text_preserved_violated : ¬ FullTextPreserved := by
  intro h
  have hp : parseSubstitutions asciiClass "abc ${variables.x".toList =
      .ok [.str "abc abc ${variables.x".toList] := by decide
  obtain ⟨t, ht, hps⟩ := h asciiClass _ _ hp
  have hlen : (Spec.render t).length = 17 := by rw [ht]; decide
  have hm := minLength_pieces [] t
  have he : minLength (Spec.expected t) ≤ (Spec.render t).length := by
    unfold Spec.expected
    split
    · simp [minLength]
    · simpa using hm
  have h21 : minLength [.str "abc abc ${variables.x".toList] = 21 := by decide
  rcases hps with hps | hps
  · rw [← hps] at he; omega
  · rw [← hps] at hm; simp only [List.length_nil] at hm; omega

/-- C06 is false: after an unsupported reference, later references are not recognised. -/
theorem refs_recognised_violated : ¬ FullRefsRecognised := by
  intro h
  have hp : parseSubstitutions asciiClass
      ("${values.a} ".toList ++ (Spec.Tmpl.dot "b".toList).text ++ []) =
      .ok [.str "${values.a} ${variables.b}".toList] := by decide
  have := h asciiClass _ _ _ _ ⟨'b', [], rfl, by decide, by simp⟩ hp
  simp at this

/-- C06, what holds: in a well-formed template followed by at most one unsupported reference
`${body}` and plain text, no text is lost or moved, every supported reference is recognised and
the unsupported one is kept verbatim. Missing: text after an unsupported reference that itself
contains braces or quotes, and unclosed references. -/
theorem text_preserved_partial (cls : CharClass) (t : List Spec.Tmpl) (h : Spec.WF cls t)
    (body tail : Str) (hb : ∀ c ∈ body, c ≠ '{' ∧ c ≠ '"' ∧ c ≠ '}')
    (hv : "variables".toList.isPrefixOf body = false)
    (ht : ∀ c ∈ tail, c ≠ '{' ∧ c ≠ '"' ∧ c ≠ '}') :
    (∃ ps, parseSubstitutions cls (Spec.render t) = .ok ps ∧
      (ps = Spec.expected t ∨ ps = Spec.pieces [] t)) ∧
    parseSubstitutions cls (Spec.render t ++ ('$' :: '{' :: body ++ '}' :: tail)) =
      .ok (Spec.pieces [] (t ++ [.lit ('$' :: '{' :: body ++ '}' :: tail)])) ∧
    Spec.render (t ++ [.lit ('$' :: '{' :: body ++ '}' :: tail)]) =
      Spec.render t ++ ('$' :: '{' :: body ++ '}' :: tail) := by
  refine ⟨⟨_, parse_render cls t h, .inl rfl⟩, parse_unsupported cls t body tail h hb hv ht, ?_⟩
  simp [Spec.render, lit_text]

example : parseSubstitutions asciiClass
    "pre ${variables.a_1} mid ${variables[\"b.c\"]}${values.x} end".toList =
    .ok [.str "pre ".toList, .sub ⟨"a_1".toList⟩, .str " mid ".toList, .sub ⟨"b.c".toList⟩,
      .str "${values.x} end".toList] :=
  (text_preserved_partial asciiClass exampleTemplate exampleTemplate_wf "values.x".toList
    " end".toList (by decide) (by decide) (by decide)).2.1

end Verif.Subst
