import Verif.Subst.Lemmas

/-!
# Several unsupported references

Helper lemmas for the part of C06 about texts with any number of unsupported references.
-/

namespace Verif.Subst.Spec

open Verif.Subst

/-- Reading a text with quoted parts, `prev` being the character before it and `quoted` telling
whether it begins inside quotes: whether it ends inside quotes, `none` when a closing brace or the
opener occurs outside quotes. A quote after a backslash is an ordinary character. -/
def quotes (quoted : Bool) (prev : Char) : Str → Option Bool
  | [] => some quoted
  | c :: cs =>
    if c = '"' ∧ prev ≠ '\\' then quotes (!quoted) c cs
    else if quoted = false ∧ (c = '}' ∨ (c = '{' ∧ prev = '$')) then none
    else quotes quoted c cs

/-- An unsupported reference and the text before it. -/
structure Gap where
  before : Str
  body : Str
  deriving Repr, DecidableEq

/-- The written form. -/
def Gap.text (g : Gap) : Str := g.before ++ '$' :: '{' :: g.body ++ ['}']

/-- The text before the reference is not empty, and quotes are closed in it and in the body. -/
structure Gap.Fine (g : Gap) : Prop where
  some_text : g.before ≠ []
  before_closed : quotes false '}' g.before = some false
  body_closed : quotes false '{' g.body = some false

end Verif.Subst.Spec

namespace Verif.Subst

variable (cls : CharClass)

/-- Inside a possible reference a text without closing brace and opener goes to both buffers. -/
theorem run_quotes (parsed : List Piece) (sub buf : Str) (lit : Bool) (prev : Char) (s : Str)
    (q : Bool) (h : Spec.quotes lit prev s = some q) :
    run cls (inner parsed sub buf lit prev) s =
      .ok (inner parsed (sub ++ s) (buf ++ s) q (s.getLast?.getD prev)) := by
  induction s generalizing sub buf lit prev with
  | nil =>
    simp only [Spec.quotes, Option.some.injEq] at h
    subst h
    simp [run]
  | cons c s ih =>
    have hstep : ∃ l, step cls (inner parsed sub buf lit prev) c =
        .ok (inner parsed (sub ++ [c]) (buf ++ [c]) l c) ∧ Spec.quotes l c s = some q := by
      unfold Spec.quotes at h
      by_cases h1 : c = '"' ∧ prev ≠ '\\'
      · rw [if_pos h1] at h
        obtain ⟨rfl, h1⟩ := h1
        exact ⟨!lit, step_quote cls parsed sub buf lit prev h1, h⟩
      · rw [if_neg h1] at h
        by_cases h2 : lit = false ∧ (c = '}' ∨ (c = '{' ∧ prev = '$'))
        · rw [if_pos h2] at h; cases h
        · rw [if_neg h2] at h
          refine ⟨lit, ?_, h⟩
          have hlit : ∀ l, checkStringLiteral (inner parsed sub buf l prev) c =
              inner parsed sub buf l prev := by
            intro l
            unfold checkStringLiteral
            rw [if_neg]
            simp only [inner, Bool.and_true, Bool.and_eq_true, beq_iff_eq, bne_iff_ne]
            exact h1
          have ho : checkOpenSubBracket (inner parsed sub buf lit prev) c =
              .ok (false, inner parsed sub buf lit prev) := by
            unfold checkOpenSubBracket
            rw [if_neg]
            simp only [inner, Bool.and_eq_true, beq_iff_eq, Bool.not_eq_true']
            rintro ⟨⟨a, b⟩, d⟩
            exact h2 ⟨d, .inr ⟨b, a⟩⟩
          have hc : (c == '}' && (inner parsed sub buf lit prev).inPossibleSub &&
              !(inner parsed sub buf lit prev).inStringLiteral) = false := by
            apply Classical.byContradiction
            simp only [inner, Bool.not_eq_false, Bool.and_eq_true, beq_iff_eq, Bool.not_eq_true']
            rintro ⟨⟨a, _⟩, d⟩
            exact h2 ⟨d, .inl a⟩
          have hcl : checkCloseSubBracket cls (inner parsed sub buf lit prev) c =
              .ok (.not, inner parsed sub buf lit prev) := by
            unfold checkCloseSubBracket
            rw [hc]
            rfl
          simp only [step, ho, Outcome.bind_ok, hlit, hcl]
          rfl
    obtain ⟨l, hs, hq⟩ := hstep
    simp only [run, hs, Outcome.bind_ok]
    rw [ih (sub ++ [c]) (buf ++ [c]) l c hq]
    simp [List.getLast?_cons]

/-- A further opener inside a possible reference. -/
theorem step_reopen (parsed : List Piece) (sub buf : Str) :
    step cls (inner parsed sub (buf ++ ['$']) false '$') '{' =
      .ok (inner (parsed ++ if buf = [] then [] else [.str buf]) sub (buf ++ ['$', '{']) false
        '{') := by
  by_cases hb : buf = []
  · subst hb
    simp [step, inner, checkOpenSubBracket, checkStringLiteral, checkCloseSubBracket, afterClose]
  · simp [step, inner, checkOpenSubBracket, checkStringLiteral, checkCloseSubBracket, afterClose,
      hb]

theorem keyword_prefix (p s : Str) (hp : '}' ∈ p) (h : "variables".toList.isPrefixOf p = false) :
    "variables".toList.isPrefixOf (p ++ s) = false := by
  apply Classical.byContradiction
  intro hn
  rw [Bool.not_eq_false, List.isPrefixOf_iff_prefix] at hn
  have h2 : p <+: p ++ s := List.prefix_append p s
  rcases List.prefix_or_prefix_of_prefix hn h2 with h3 | h3
  · rw [← List.isPrefixOf_iff_prefix, h] at h3; cases h3
  · have := h3.subset hp
    revert this
    decide

/-- An opener, a body and a closing brace after an unsupported reference. -/
theorem run_again (parsed : List Piece) (sub buf : Str) (prev : Char) (g : Spec.Gap)
    (hsub : '}' ∈ sub) (hv : "variables".toList.isPrefixOf sub = false)
    (hg1 : Spec.quotes false prev g.before = some false)
    (hg2 : Spec.quotes false '{' g.body = some false) :
    ∃ sub', '}' ∈ sub' ∧ "variables".toList.isPrefixOf sub' = false ∧
      run cls (inner parsed sub buf false prev) g.text =
        .ok (if buf ++ g.before = [] then
          (match parsed.getLast? with
          | some (.str _) => inner (parsed.dropLast ++ [.str g.text]) sub' [] false '}'
          | _ => inner parsed sub' g.text false '}')
        else inner (parsed ++ [.str (buf ++ g.text)]) sub' [] false '}') := by
  have hd : Spec.quotes false (g.before.getLast?.getD prev) ['$'] = some false := by
    simp [Spec.quotes]
  refine ⟨sub ++ (g.before ++ ['$'] ++ g.body ++ ['}']), by simp, keyword_prefix _ _ hsub hv, ?_⟩
  have e : g.text = g.before ++ (['$'] ++ ('{' :: (g.body ++ ['}']))) := by
    simp [Spec.Gap.text]
  rw [e, run_append, run_quotes cls parsed sub buf false prev g.before false hg1]
  simp only [Outcome.bind]
  rw [run_append, run_quotes cls _ _ _ _ _ ['$'] false hd]
  simp only [Outcome.bind, List.getLast?_singleton, Option.getD_some]
  rw [run, step_reopen]
  simp only [Outcome.bind_ok]
  rw [run_append, run_quotes cls _ _ _ _ _ g.body false hg2]
  simp only [Outcome.bind, run]
  rw [step_unsupported cls _ _ _ _ (by
    rw [List.append_assoc, List.append_assoc]; exact keyword_prefix _ _ hsub hv)]
  by_cases hb : buf ++ g.before = []
  · have h1 : buf = [] := (List.append_eq_nil_iff.1 hb).1
    have h2 : g.before = [] := (List.append_eq_nil_iff.1 hb).2
    rw [h1, h2]
    simp only [List.append_nil, List.nil_append, if_true]
    split <;> simp_all
  · rw [if_neg hb, if_neg hb]
    simp

/-- Adjacent literals spell their texts. -/
theorem concat_strs (ps : List Piece) (ss : List Str) (last : Str) :
    concatAdjacent last (ps ++ ss.map .str) =
      concatAdjacent last (ps ++ [.str ss.flatten]) := by
  induction ps generalizing last with
  | nil =>
    induction ss generalizing last with
    | nil => simp [concatAdjacent]
    | cons s ss ih =>
      simp only [List.nil_append, List.map_cons, concatAdjacent, List.flatten_cons] at ih ⊢
      rw [ih]
      simp
  | cons p ps ih =>
    cases p with
    | str s => simp only [List.cons_append, concatAdjacent, ih]
    | sub r => simp only [List.cons_append, concatAdjacent, ih]

/-- The texts of several references. -/
def gapsText (gs : List Spec.Gap) : Str := (gs.map Spec.Gap.text).flatten

/-- After an unsupported reference the pieces begin with `q`; the rest of the text is spelt by
literals and the buffer. -/
def After (q : List Piece) (text : Str) (st : State) : Prop :=
  ∃ (ss : List Str) (sub buf : Str), st = inner (q ++ ss.map .str) sub buf false '}' ∧
    '}' ∈ sub ∧ "variables".toList.isPrefixOf sub = false ∧
    ss.flatten ++ buf = text ∧ (∀ r, q.getLast? = some r → ∀ s, r ≠ .str s)

theorem run_gaps (q : List Piece) (gs : List Spec.Gap) (text : Str) (st : State)
    (h : After q text st) (hg : ∀ g ∈ gs, g.Fine) :
    ∃ st', run cls st (gapsText gs) = .ok st' ∧ After q (text ++ gapsText gs) st' := by
  induction gs generalizing text st with
  | nil => exact ⟨st, by simp [gapsText, run], by simpa [gapsText] using h⟩
  | cons g gs ih =>
    obtain ⟨ss, sub, buf, rfl, hm, hv, ht, hq⟩ := h
    have hf := hg g (by simp)
    obtain ⟨sub', hm', hv', hr⟩ := run_again cls (q ++ ss.map .str) sub buf '}' g hm hv
      hf.before_closed hf.body_closed
    have hne : buf ++ g.before ≠ [] := by
      intro e
      exact hf.some_text (List.append_eq_nil_iff.1 e).2
    rw [if_neg hne] at hr
    obtain ⟨st', h1, h2⟩ := ih (text ++ g.text)
      (inner (q ++ ss.map .str ++ [.str (buf ++ g.text)]) sub' [] false '}')
      ⟨ss ++ [buf ++ g.text], sub', [], by simp, hm', hv', by simp [← ht], hq⟩
      (fun x hx => hg x (by simp [hx]))
    refine ⟨st', ?_, ?_⟩
    · have e : gapsText (g :: gs) = g.text ++ gapsText gs := by simp [gapsText]
      rw [e, run_append, hr]
      exact h1
    · have e : text ++ gapsText (g :: gs) = text ++ g.text ++ gapsText gs := by simp [gapsText]
      rw [e]
      exact h2

/-- The first unsupported reference after a well-formed template. -/
theorem run_first (t : List Spec.Tmpl) (body : Str) (h : Spec.WF cls t)
    (hb : Spec.quotes false '{' body = some false)
    (hv : "variables".toList.isPrefixOf (body ++ ['}']) = false) :
    ∃ q b st, (∀ t2, Spec.pieces [] (t ++ t2) = q ++ Spec.pieces b t2) ∧
      run cls State.init (Spec.render t ++ ('$' :: '{' :: body ++ ['}'])) = .ok st ∧
      After q (b ++ ('$' :: '{' :: body ++ ['}'])) st ∧
      (b ≠ [] → st = inner (q ++ [.str (b ++ ('$' :: '{' :: body ++ ['}']))]) (body ++ ['}']) []
        false '}') := by
  obtain ⟨q, b, pr, r1, r2, r3, _⟩ := run_template cls t [] [] ' ' (by simp) (by simp) h.dots h.idxs
    (fun mid post he hm => h.lits [] mid post (by simp [he]) hm) h.lits
  have hq : ∀ r, q.getLast? = some r → ∀ s, r ≠ .str s := by
    intro r hr s
    rcases r3 with rfl | ⟨x, hx⟩
    · simp at hr
    · rw [hx] at hr; cases hr; simp
  have hv' : "variables".toList.isPrefixOf body = false := by
    apply Classical.byContradiction
    intro hn
    rw [Bool.not_eq_false, List.isPrefixOf_iff_prefix] at hn
    have := hn.trans (List.prefix_append body ['}'])
    rw [← List.isPrefixOf_iff_prefix, hv] at this
    cases this
  have hrun : run cls State.init (Spec.render t ++ ('$' :: '{' :: body ++ ['}'])) =
      .ok (match (q ++ if b = [] then [] else [Piece.str b]).getLast? with
        | some (.str _) =>
          inner ((q ++ if b = [] then [] else [Piece.str b]).dropLast ++
            [Piece.str (b ++ ['$', '{'] ++ body ++ ['}'])]) (body ++ ['}']) [] false '}'
        | _ => inner (q ++ if b = [] then [] else [Piece.str b]) (body ++ ['}'])
            (b ++ ['$', '{'] ++ body ++ ['}']) false '}') := by
    rw [init_eq, run_append, r1]
    simp only [Outcome.bind, List.nil_append]
    rw [show ('$' :: '{' :: body ++ ['}']) = '$' :: '{' :: (body ++ ['}']) from rfl]
    simp only [run]
    rw [step_outer cls _ _ _ _ (by simp)]
    simp only [Outcome.bind_ok]
    rw [step_open]
    simp only [Outcome.bind_ok]
    rw [run_append, run_quotes cls _ _ _ _ _ body false hb]
    simp only [Outcome.bind, run, List.nil_append]
    rw [step_unsupported cls _ _ _ _ hv']
    rfl
  refine ⟨q, b, _, r2, hrun, ?_, ?_⟩
  · by_cases hbe : b = []
    · subst hbe
      simp only [if_true, List.append_nil]
      split
      · rename_i s hs; exact absurd rfl (hq _ hs s)
      · exact ⟨[], body ++ ['}'], _, by simp; rfl, by simp, hv, by simp, hq⟩
    · simp only [hbe, if_false] at hrun ⊢
      split
      · exact ⟨[b ++ ('$' :: '{' :: body ++ ['}'])], body ++ ['}'], [], by simp, by simp, hv,
          by simp, hq⟩
      · rename_i hno
        simp at hno
  · intro hbe
    simp [hbe]

/-- The end of the text. -/
theorem finish_after (q : List Piece) (text : Str) (st : State) (tail : Str) (e : Bool)
    (h : After q text st) (ht : Spec.quotes false '}' tail = some e) :
    ∃ st', run cls st tail = .ok st' ∧
      finish st' = concatAdjacent [] (q ++ [.str (text ++ tail)]) := by
  obtain ⟨ss, sub, buf, rfl, _, _, hx, _⟩ := h
  refine ⟨_, run_quotes cls _ _ _ _ _ tail e ht, ?_⟩
  have hc : ∀ z : List Str, concatAdjacent [] (q ++ (ss ++ z).map .str) =
      concatAdjacent [] (q ++ [.str (ss ++ z).flatten]) := fun z => concat_strs q (ss ++ z) []
  by_cases hb : buf ++ tail = []
  · have h1 : buf = [] := (List.append_eq_nil_iff.1 hb).1
    have h2 : tail = [] := (List.append_eq_nil_iff.1 hb).2
    have := hc []
    simp [finish, inner, h1, h2] at this hx ⊢
    rw [this, hx]
  · have := hc [buf ++ tail]
    simp only [List.append_eq_nil_iff, not_and] at hb
    have hb' : (buf ++ tail).isEmpty = false := by
      simp; exact hb
    simp [finish, inner, hb, ← hx] at this ⊢
    rw [if_neg (by intro hh; exact hb hh.1 hh.2), this]

end Verif.Subst
