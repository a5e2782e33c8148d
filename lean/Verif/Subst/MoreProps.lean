import Verif.Subst.MoreLemmas
import Verif.Subst.Props

/-!
# C06 for texts with several unsupported references
-/

namespace Verif.Subst

/-- C06, what holds for any number of unsupported references: a well-formed template, then a
reference that is not one to a variable, then any number of further references (of any kind) each
with some text before it, then more text. Quotes may occur when they are closed in each part.
All references of the template are recognised and everything after is kept verbatim as one literal.
Missing: a reference directly after another one, a closing brace that closes nothing, unclosed
quotes and unclosed references; the first two lose text by the theorems below. -/
theorem text_preserved_many_partial (cls : CharClass) (t : List Spec.Tmpl) (h : Spec.WF cls t)
    (body : Str) (gs : List Spec.Gap) (tail : Str) (e : Bool)
    (hb : Spec.quotes false '{' body = some false)
    (hv : ¬ "variables".toList <+: body)
    (hg : ∀ g ∈ gs, g.Fine)
    (ht : Spec.quotes false '}' tail = some e) :
    parseSubstitutions cls (Spec.render t ++ (('$' :: '{' :: body ++ ['}']) ++
        (gs.map Spec.Gap.text).flatten ++ tail)) =
      .ok (Spec.pieces [] (t ++ [.lit (('$' :: '{' :: body ++ ['}']) ++
        (gs.map Spec.Gap.text).flatten ++ tail)])) := by
  have hv' : "variables".toList.isPrefixOf (body ++ ['}']) = false := by
    apply Classical.byContradiction
    intro hn
    rw [Bool.not_eq_false, List.isPrefixOf_iff_prefix] at hn
    rcases List.prefix_or_prefix_of_prefix hn (List.prefix_append body ['}']) with h1 | h1
    · exact hv h1
    · obtain ⟨z, hz⟩ := h1
      cases z with
      | nil => rw [List.append_nil] at hz; exact hv (by rw [hz]; exact List.prefix_refl _)
      | cons c z =>
        rw [← hz, List.prefix_append_right_inj] at hn
        have hc : c = '}' := by
          obtain ⟨w, hw⟩ := hn
          simp at hw
          exact hw.1
        have : '}' ∈ "variables".toList := by rw [← hz, hc]; simp
        revert this
        decide
  obtain ⟨q, b, st, h1, h2, h3, _⟩ := run_first cls t body h hb hv'
  obtain ⟨st2, h4, h5⟩ := run_gaps cls q gs _ st h3 hg
  obtain ⟨st3, h6, h7⟩ := finish_after cls q _ st2 tail e h5 ht
  have ho : containsOpener (Spec.render t ++ (('$' :: '{' :: body ++ ['}']) ++
        (gs.map Spec.Gap.text).flatten ++ tail)) = true := by
    rw [containsOpener_iff]
    exact ⟨Spec.render t, body ++ ['}'] ++ (gs.map Spec.Gap.text).flatten ++ tail, by simp⟩
  have hr : run cls State.init (Spec.render t ++ (('$' :: '{' :: body ++ ['}']) ++
        (gs.map Spec.Gap.text).flatten ++ tail)) = .ok st3 := by
    rw [← List.append_assoc, ← List.append_assoc, run_append, run_append, h2]
    simp only [Outcome.bind]
    have h4' : run cls st (gs.map Spec.Gap.text).flatten = .ok st2 := h4
    rw [h4']
    exact h6
  simp only [parseSubstitutions, ho, hr, Bool.not_true, Bool.false_eq_true, if_false,
    Outcome.bind_ok, Outcome.pure_eq]
  rw [h7]
  congr 1
  rw [← concat_pieces (t ++ _) [], h1]
  have hne : ∀ z : Str, b ++ (('$' :: '{' :: body ++ ['}']) ++ z) ≠ [] := by simp
  simp only [Spec.pieces]
  rw [if_neg (by rw [List.append_assoc]; exact hne _)]
  simp [gapsText]

example : parseSubstitutions asciiClass
    ("pre ${variables.a_1} mid ${variables[\"b.c\"]}${values.x} and " ++
      "${f(\"}\")} or ${variables.y}.").toList =
    .ok [.str "pre ".toList, .sub ⟨"a_1".toList⟩, .str " mid ".toList, .sub ⟨"b.c".toList⟩,
      .str "${values.x} and ${f(\"}\")} or ${variables.y}.".toList] :=
  text_preserved_many_partial asciiClass exampleTemplate exampleTemplate_wf "values.x".toList
    [⟨" and ".toList, "f(\"}\")".toList⟩, ⟨" or ".toList, "variables.y".toList⟩] ".".toList false
    (by decide) (by decide)
    (by
      intro g hg
      simp at hg
      rcases hg with rfl | rfl
      · exact ⟨by decide, by decide, by decide⟩
      · exact ⟨by decide, by decide, by decide⟩)
    (by decide)

/-- The state after some text and one unsupported reference. -/
theorem run_text_ref (cls : CharClass) (a x : Str) (ha : a ≠ []) (hn : ¬ Spec.HasOpener a)
    (hx : Spec.quotes false '{' x = some false)
    (hv : "variables".toList.isPrefixOf (x ++ ['}']) = false) :
    run cls State.init (a ++ ('$' :: '{' :: x ++ ['}'])) =
      .ok (inner [.str (a ++ ('$' :: '{' :: x ++ ['}']))] (x ++ ['}']) [] false '}') := by
  have hwf : Spec.WF cls [.lit a] := by
    refine ⟨by simp, by simp, ?_⟩
    intro pre mid post he _ ho
    apply hn
    obtain ⟨u, v, huv⟩ := ho
    have hr : a = Spec.render pre ++ (Spec.render mid ++ Spec.render post) := by
      have : Spec.render [.lit a] = Spec.render (pre ++ mid ++ post) := by rw [he]
      simpa [Spec.render] using this
    exact ⟨Spec.render pre ++ u, v ++ Spec.render post, by rw [hr, huv]; simp⟩
  obtain ⟨q, b, st, h1, h2, ⟨_, _, _, _, _, _, _, hq⟩, h4⟩ := run_first cls [.lit a] x hwf hx hv
  have hp := h1 []
  have e0 : Spec.render [Spec.Tmpl.lit a] = a := by simp [Spec.render]
  rw [e0] at h2
  have hqn : q = [] ∧ b = a := by
    simp only [List.append_nil, Spec.pieces, List.nil_append, if_neg ha] at hp
    by_cases hb : b = []
    · subst hb
      simp at hp
      exact absurd rfl (hq (.str a) (by rw [← hp]; rfl) a)
    · rw [if_neg hb] at hp
      have := List.append_inj' (s₁ := []) (t₁ := [Piece.str a]) hp rfl
      exact ⟨this.1.symm, by have := this.2; simp at this; exact this.symm⟩
  obtain ⟨rfl, rfl⟩ := hqn
  rw [h2, h4 ha]
  rfl

/-- C06 fails for every text followed by two adjacent unsupported references: the text and the
first reference are gone. -/
theorem adjacent_lost (cls : CharClass) (a x y : Str) (ha : a ≠ []) (hn : ¬ Spec.HasOpener a)
    (hx : Spec.quotes false '{' x = some false) (hy : Spec.quotes false '{' y = some false)
    (hv : "variables".toList.isPrefixOf (x ++ ['}']) = false) :
    parseSubstitutions cls (a ++ ('$' :: '{' :: x ++ ['}']) ++ ('$' :: '{' :: y ++ ['}'])) =
      .ok [.str ('$' :: '{' :: y ++ ['}'])] := by
  have h1 := run_text_ref cls a x ha hn hx hv
  obtain ⟨sub, _, _, h2⟩ := run_again cls [.str (a ++ ('$' :: '{' :: x ++ ['}']))] (x ++ ['}']) []
    '}' ⟨[], y⟩ (by simp) hv rfl hy
  have ho : containsOpener (a ++ ('$' :: '{' :: x ++ ['}']) ++ ('$' :: '{' :: y ++ ['}'])) =
      true := by
    rw [containsOpener_iff]
    exact ⟨a, x ++ ['}'] ++ ('$' :: '{' :: y ++ ['}']), by simp⟩
  have hr : run cls State.init (a ++ ('$' :: '{' :: x ++ ['}']) ++ ('$' :: '{' :: y ++ ['}'])) =
      .ok (inner [.str ('$' :: '{' :: y ++ ['}'])] sub [] false '}') := by
    rw [run_append, h1]
    exact h2
  simp only [parseSubstitutions, ho, hr, Bool.not_true, Bool.false_eq_true, if_false,
    Outcome.bind_ok, Outcome.pure_eq]
  simp [finish, inner, concatAdjacent]

example : parseSubstitutions asciiClass "id-${values.a}${values.b}".toList =
    .ok [.str "${values.b}".toList] :=
  adjacent_lost asciiClass "id-".toList "values.a".toList "values.b".toList (by decide)
    (by rw [← containsOpener_iff]; decide) (by decide) (by decide) (by decide)

/-- C06 fails for every text followed by an unsupported reference and, later, a closing brace: only
what follows the reference is left. -/
theorem stray_brace_lost (cls : CharClass) (a x m : Str) (ha : a ≠ []) (hn : ¬ Spec.HasOpener a)
    (hx : Spec.quotes false '{' x = some false) (hm : Spec.quotes false '}' m = some false)
    (hv : "variables".toList.isPrefixOf (x ++ ['}']) = false) :
    parseSubstitutions cls (a ++ ('$' :: '{' :: x ++ ['}']) ++ (m ++ ['}'])) =
      .ok [.str (m ++ ['}'])] := by
  have h1 := run_text_ref cls a x ha hn hx hv
  have ho : containsOpener (a ++ ('$' :: '{' :: x ++ ['}']) ++ (m ++ ['}'])) = true := by
    rw [containsOpener_iff]
    exact ⟨a, x ++ ['}'] ++ (m ++ ['}']), by simp⟩
  have hr : run cls State.init (a ++ ('$' :: '{' :: x ++ ['}']) ++ (m ++ ['}'])) =
      .ok (inner [.str (m ++ ['}'])] (x ++ ['}'] ++ m ++ ['}']) [] false '}') := by
    rw [run_append, h1]
    simp only [Outcome.bind]
    rw [run_append, run_quotes cls _ _ _ _ _ m false hm]
    simp only [Outcome.bind, run, List.nil_append]
    rw [step_unsupported cls _ _ _ _ (keyword_prefix _ _ (by simp) hv)]
    simp
  simp only [parseSubstitutions, ho, hr, Bool.not_true, Bool.false_eq_true, if_false,
    Outcome.bind_ok, Outcome.pure_eq]
  simp [finish, inner, concatAdjacent]

example : parseSubstitutions asciiClass "{\"id\": ${values.a}, \"n\": 1}".toList =
    .ok [.str ", \"n\": 1}".toList] :=
  stray_brace_lost asciiClass "{\"id\": ".toList "values.a".toList ", \"n\": 1".toList (by decide)
    (by rw [← containsOpener_iff]; decide) (by decide) (by decide) (by decide)

end Verif.Subst
