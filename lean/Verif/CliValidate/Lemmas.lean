import Verif.CliValidate.Spec

/-!
# Lemmas about the `validate` command
-/

namespace Verif.CliValidate

open Spec

theorem simplifyError_iff (e e' : Err) : simplifyError e = e' ↔ Explained e e' := by
  constructor
  · intro h
    subst h
    cases e with
    | authPrep t => exact .auth t
    | other t => exact .other _ (by simp)
    | noAuthMethod => exact .other _ (by simp)
    | cancelled => exact .other _ (by simp)
  · intro h
    cases h with
    | auth => rfl
    | other _ h =>
      cases e with
      | authPrep t => exact absurd rfl (h t)
      | other => rfl
      | noAuthMethod => rfl
      | cancelled => rfl

/-- The loop passes over harmless signals and prints their events. -/
theorem loop_append {ε : Type} (pre post : List (Signal ε)) (h : ∀ s ∈ pre, Harmless s) :
    loop (pre ++ post) =
      ((eventsOf pre).map .received ++ (loop post).1, (loop post).2) := by
  induction pre with
  | nil => simp [eventsOf]
  | cons s pre ih =>
    have hs := h s (by simp)
    have ih := ih (fun t ht => h t (by simp [ht]))
    match s with
    | .event e => simp [loop, eventsOf, ih]
    | .err none => simp [loop, eventsOf, ih]
    | .err (some e) => exact absurd hs (by simp [Harmless])
    | .done => exact absurd hs (by simp [Harmless])
    | .closed => exact absurd hs (by simp [Harmless])

/-- Every sequence of signals is harmless or has a first signal that is not. -/
theorem split_signals {ε : Type} (sigs : List (Signal ε)) :
    (∀ s ∈ sigs, Harmless s) ∨
    ∃ pre d r post, sigs = pre ++ d :: post ∧ (∀ s ∈ pre, Harmless s) ∧ Ends d r := by
  induction sigs with
  | nil => left; simp
  | cons s rest ih =>
    have key : Harmless s ∨ ∃ r, Ends s r := by
      match s with
      | .event _ => left; trivial
      | .err none => left; trivial
      | .err (some e) => exact .inr ⟨_, .err e⟩
      | .done => exact .inr ⟨_, .done⟩
      | .closed => exact .inr ⟨_, .closed⟩
    rcases key with hs | ⟨r, hr⟩
    · rcases ih with h | ⟨pre, d, r, post, h1, h2, h3⟩
      · left; intro t ht; rcases List.mem_cons.mp ht with rfl | ht
        · exact hs
        · exact h t ht
      · right
        refine ⟨s :: pre, d, r, post, by simp [h1], ?_, h3⟩
        intro t ht; rcases List.mem_cons.mp ht with rfl | ht
        · exact hs
        · exact h2 t ht
    · exact .inr ⟨[], s, r, rest, rfl, by simp, hr⟩

theorem results_append {ε : Type} (p q : List (Msg ε)) : results (p ++ q) = results p ++ results q := by
  induction p with
  | nil => rfl
  | cons m p ih =>
    match m with
    | .result (some e) => simp [results, ih]
    | .result none => simp [results, ih]
    | .select _ => simp [results, ih]
    | .clear => simp [results, ih]
    | .err _ => simp [results, ih]
    | .interrupt => simp [results, ih]

/-- What holds in all reachable worlds. -/
structure Inv {ε : Type} [Inhabited ε] (events : List ε) (w : World ε) : Prop where
  stream : w.taken ++ w.todo = events
  ended : w.closedReads ≠ 0 → w.todo = []
  single : w.pending.count .wait + (results w.inbox).length ≤ 1
  idle : w.app.view.streaming = false → w.pending.count .wait = 0 ∧
    (∀ f, Cmd.start f ∉ w.pending) ∧ results w.inbox = [] ∧ w.app.view.collected = [] ∧
    w.taken = [] ∧ w.closedReads = 0 ∧ w.requests = []
  shown : w.cleared = false → w.app.view.collected ++ results w.inbox =
    w.taken ++ List.replicate w.closedReads default
  sub : (w.app.view.collected ++ results w.inbox).Sublist
    (w.taken ++ List.replicate w.closedReads default)
  viewing : w.cleared = false → w.app.view.streaming = true → w.app.selecting = false
  unfinished : w.app.view.finished = false ∧ Msg.result none ∉ w.inbox
  once : w.requests.length + (w.pending.filter fun c => match c with | .start _ => true | _ => false).length ≤ 1
  quits : (Cmd.quit ∈ w.pending ∨ w.done = true) → w.app.error ≠ none ∨ w.app.quitting = true
  viewErr : w.app.view.err = none ∨ w.app.error ≠ none

theorem inv_init {ε : Type} [Inhabited ε] (file : String) (d : Bool) (events : List ε) (c : Bool)
    (errs : List Err) : Inv events (World.init file d events c errs) := by
  cases d with
  | true => constructor <;> simp [World.init, results]
  | false =>
    by_cases h : file = ""
    · constructor <;> simp [World.init, results, h]
    · constructor <;> simp [World.init, results, h]

/-- How delivering a message changes what the invariant is about. -/
theorem update_cases {ε : Type} (a : App ε) (m : Msg ε) :
    ((∃ f, m = .select f ∧ (a.update m).1 =
          { a with selecting := false, file := f, error := a.view.err.or a.error
                   view := { a.view with file := f, streaming := true } } ∧
        (a.update m).2 = if a.view.streaming then [] else [.start f, .wait, .check]) ∨
     (m = .clear ∧ (a.update m).1 = { a with selecting := true, file := "" } ∧ (a.update m).2 = []) ∨
     (m = .interrupt ∧ (a.update m).1 = { a with quitting := true } ∧ (a.update m).2 = [.quit]) ∨
     (a.selecting = true ∧ (a.update m) = (a, []) ∧ m ≠ .clear ∧ (∀ f, m ≠ .select f) ∧ m ≠ .interrupt) ∨
     (a.selecting = false ∧ m = .result none) ∨
     (a.selecting = false ∧ ∃ e, m = .result (some e) ∧ (a.update m).1 =
          { a with error := a.view.err.or a.error
                   view := { a.view with collected := a.view.collected ++ [e] } } ∧
        (a.update m).2 = [.wait, .check]) ∨
     (a.selecting = false ∧ ∃ e, m = .err (some e) ∧ (a.update m).1 =
          { a with view := { a.view with err := some e }, error := some e } ∧
        (a.update m).2 = [.quit]) ∨
     (a.selecting = false ∧ m = .err none ∧ (a.update m).1 =
          { a with error := a.view.err.or a.error } ∧
        (a.update m).2 = [])) := by
  cases hs : a.selecting with
  | true =>
    match m with
    | .select f => left; refine ⟨f, rfl, ?_, ?_⟩ <;> simp [App.update, App.delegate, View.update]
    | .clear => right; left; simp [App.update, App.delegate]
    | .interrupt => right; right; left; simp [App.update, hs]
    | .result r => right; right; right; left; simp [App.update, App.delegate, hs]
    | .err r => right; right; right; left; simp [App.update, App.delegate, hs]
  | false =>
    match m with
    | .select f => left; refine ⟨f, rfl, ?_, ?_⟩ <;> simp [App.update, App.delegate, View.update]
    | .clear => right; left; simp [App.update, App.delegate]
    | .interrupt => right; right; left; simp [App.update, hs]
    | .result none => simp
    | .result (some e) =>
      right; right; right; right; right; left
      simp [App.update, App.delegate, View.update, hs]
    | .err none =>
      right; right; right; right; right; right; right
      simp [App.update, App.delegate, View.update, hs]
    | .err (some e) =>
      right; right; right; right; right; right; left
      simp [App.update, App.delegate, View.update, hs]

theorem inv_step {ε : Type} [Inhabited ε] {events : List ε} {w w' : World ε} (h : Inv events w)
    (hs : Step w w') : Inv events w' := by
  obtain ⟨h1, h2, h3, h4, h5, h6, h7, h8, h9, h10, h11⟩ := h
  have hstream : Cmd.wait ∈ w.pending ∨ (∃ f, Cmd.start f ∈ w.pending) →
      w.app.view.streaming = true := by
    intro hw
    cases hst : w.app.view.streaming with
    | true => rfl
    | false =>
      obtain ⟨g1, g2, _⟩ := h4 hst
      rcases hw with hw | ⟨f, hw⟩
      · exact absurd hw (List.count_eq_zero.mp g1)
      · exact absurd hw (g2 f)
  cases hs with
  | pick f _ _ => constructor <;> simp_all
  | pickDisabled _ _ => constructor <;> simp_all
  | interrupt _ => constructor <;> simp_all [results]
  | runSelect p q f hp =>
    rw [hp] at h3 h4 h9 h10
    constructor <;> simp_all [results, List.count_append, List.filter_append]
  | runClear p q hp =>
    rw [hp] at h3 h4 h9 h10
    constructor <;> simp_all [results, List.count_append, List.filter_append]
  | startOk p q f hp =>
    have hst := hstream (.inr ⟨f, by rw [hp]; simp⟩)
    rw [hp] at h3 h4 h9 h10
    simp only [List.count_append, List.filter_append, List.count_cons, List.filter_cons,
      List.length_append, if_true, List.length_cons] at h3 h9
    refine ⟨h1, h2, ?_, ?_, h5, h6, h7, h8, ?_, ?_, h11⟩
    · simp only [List.count_append]; simpa using h3
    · intro h; rw [hst] at h; simp at h
    · simp only [List.filter_append, List.length_append, List.length_singleton]; omega
    · intro h; apply h10; simpa using h
  | startErr p q f e hp =>
    have hst := hstream (.inr ⟨f, by rw [hp]; simp⟩)
    rw [hp] at h3 h4 h9 h10
    simp only [List.count_append, List.filter_append, List.count_cons, List.filter_cons,
      List.length_append, if_true, List.length_cons] at h3 h9
    refine ⟨h1, h2, ?_, ?_, h5, h6, h7, ⟨h8.1, by simpa using h8.2⟩, ?_, ?_, h11⟩
    · simp only [List.count_append, results]; simpa using h3
    · intro h; rw [hst] at h; simp at h
    · simp only [List.filter_append, List.length_append, List.length_singleton]; omega
    · intro h; apply h10; simpa using h
  | waitEvent p q e t hp ho ht =>
    have hst := hstream (.inl (by rw [hp]; simp))
    rw [hp] at h3 h4 h9 h10
    simp only [List.count_append, List.count_cons, beq_self_eq_true, if_true] at h3
    have hr : results w.inbox = [] := List.eq_nil_of_length_eq_zero (by omega)
    have hz : w.closedReads = 0 := by
      apply Classical.byContradiction
      intro hne
      have := h2 hne
      rw [ht] at this; simp at this
    refine ⟨?_, fun h => absurd hz h, ?_, ?_, ?_, ?_, h7, ⟨h8.1, by simpa using h8.2⟩, ?_, ?_, h11⟩
    · rw [← h1, ht]; simp
    · simp only [List.count_append, results, hr, List.length_cons, List.length_nil]; omega
    · intro h; rw [hst] at h; simp at h
    · intro h
      have := h5 h
      rw [hr, hz] at this
      simp only [results, hr, hz]
      simp at this ⊢; exact this
    · rw [hr, hz] at h6
      simp only [results, hr, hz]
      simp only [List.append_nil, List.replicate_zero] at h6 ⊢
      exact h6.append (List.Sublist.refl _)
    · simpa [List.filter_append] using h9
    · intro h; apply h10; simpa using h
  | waitClosed p q hp ho ht hc =>
    have hst := hstream (.inl (by rw [hp]; simp))
    rw [hp] at h3 h4 h9 h10
    simp only [List.count_append, List.count_cons, beq_self_eq_true, if_true] at h3
    have hr : results w.inbox = [] := List.eq_nil_of_length_eq_zero (by omega)
    refine ⟨h1, fun _ => ht, ?_, ?_, ?_, ?_, h7, ⟨h8.1, by simpa using h8.2⟩, ?_, ?_, h11⟩
    · simp only [List.count_append, results, hr, List.length_cons, List.length_nil]; omega
    · intro h; rw [hst] at h; simp at h
    · intro h
      have := h5 h
      rw [hr, List.append_nil] at this
      simp only [results, hr, this, List.replicate_succ', List.append_assoc]
    · rw [hr, List.append_nil] at h6
      simp only [results, hr, List.replicate_succ']
      rw [← List.append_assoc]
      exact h6.append (List.Sublist.refl _)
    · simpa [List.filter_append] using h9
    · intro h; apply h10; simpa using h
  | checkTimeout p q hp =>
    rw [hp] at h3 h4 h9 h10
    constructor <;> simp_all [results, List.count_append, List.filter_append]
  | checkErr p q e t hp ho he =>
    rw [hp] at h3 h4 h9 h10
    constructor <;> simp_all [results, List.count_append, List.filter_append]
  | runQuit p q hp =>
    rw [hp] at h3 h4 h9 h10
    constructor <;> simp_all [List.count_append, List.filter_append]
  | deliver p q m hd hi =>
    rw [hi] at h3 h4 h5 h6 h8
    have hor : ∀ x : Option Err, x.or w.app.error = none → w.app.error = none := by
      intro x hx; cases x <;> simp_all
    have hor' : w.app.view.err = none ∨ w.app.view.err.or w.app.error ≠ none := by
      cases w.app.view.err <;> simp
    have hq : ∀ x : Option Err, (Cmd.quit ∈ w.pending ∨ w.done = true) →
        x.or w.app.error ≠ none ∨ w.app.quitting = true := by
      intro x h
      rcases h10 h with h | h
      · exact .inl fun hx => h (hor x hx)
      · exact .inr h
    rcases update_cases w.app m with ⟨f, rfl, ha, hc⟩ | ⟨rfl, ha, hc⟩ | ⟨rfl, ha, hc⟩ |
      ⟨hsel, ha, hm1, hm2, hm3⟩ | ⟨hsel, rfl⟩ | ⟨hsel, e, rfl, ha, hc⟩ | ⟨hsel, e, rfl, ha, hc⟩ |
      ⟨hsel, rfl, ha, hc⟩
    · simp only [results_append, results] at h3 h4 h5 h6
      rw [← results_append] at h3 h4 h5 h6
      have hres : Msg.result none ∉ p ++ q := by simpa using h8.2
      cases hst : w.app.view.streaming with
      | true =>
        rw [hst] at hc
        simp only [if_true] at hc
        constructor
        all_goals simp only [ha, hc, List.append_nil, Bool.or_false]
        · exact h1
        · exact h2
        · exact h3
        · intro h; simp at h
        · exact h5
        · exact h6
        · intros; trivial
        · exact ⟨h8.1, hres⟩
        · exact h9
        · exact hq _
        · exact hor'
      | false =>
        rw [hst] at hc
        simp only [Bool.false_eq_true, if_false] at hc
        obtain ⟨g1, g2, g3, g4, g5, g6, g7⟩ := h4 hst
        have hf : (w.pending.filter fun c => match c with | .start _ => true | _ => false) = [] := by
          rw [List.filter_eq_nil_iff]
          intro c hc'
          cases c <;> simp
          exact g2 _ hc'
        constructor
        all_goals simp only [ha, hc, Bool.or_false]
        · exact h1
        · exact h2
        · rw [List.count_append, g1, g3]; simp
        · intro h; simp at h
        · exact h5
        · exact h6
        · intros; trivial
        · exact ⟨h8.1, hres⟩
        · rw [List.filter_append, hf, g7]; simp
        · intro h; apply hq; simpa using h
        · exact hor'
    · simp only [results_append, results] at h3 h4 h5 h6
      rw [← results_append] at h3 h4 h5 h6
      constructor
      all_goals simp only [ha, hc, List.append_nil, Bool.or_true]
      · exact h1
      · exact h2
      · exact h3
      · exact h4
      · intro h; simp at h
      · exact h6
      · intro h; simp at h
      · exact ⟨h8.1, by simpa using h8.2⟩
      · exact h9
      · exact h10
      · exact h11
    · simp only [results_append, results] at h3 h4 h5 h6
      rw [← results_append] at h3 h4 h5 h6
      constructor
      all_goals simp only [ha, hc, Bool.or_false]
      · exact h1
      · exact h2
      · simpa [List.count_append] using h3
      · simpa [List.count_append] using h4
      · exact h5
      · exact h6
      · exact h7
      · exact ⟨h8.1, by simpa using h8.2⟩
      · simpa [List.filter_append] using h9
      · intro _; exact .inr trivial
      · exact h11
    · have hsub : (results (p ++ q)).Sublist (results (p ++ m :: q)) := by
        rw [results_append, results_append]
        refine (List.Sublist.refl _).append ?_
        match m with
        | .result (some e) => simp [results]
        | .result none => simp [results]
        | .select _ => simp [results]
        | .clear => simp [results]
        | .err _ => simp [results]
        | .interrupt => simp [results]
      have hcl : (match m with | .clear => true | _ => false) = false := by
        cases m with
        | clear => exact absurd rfl hm1
        | _ => rfl
      constructor
      all_goals simp only [ha, List.append_nil]
      · exact h1
      · exact h2
      · have := hsub.length_le; omega
      · intro h
        obtain ⟨g1, g2, g3, g4⟩ := h4 h
        exact ⟨g1, g2, by rw [g3] at hsub; exact List.sublist_nil.mp hsub, g4⟩
      · intro h
        have h' : w.cleared = false := by revert h; cases w.cleared <;> simp
        have hnst : w.app.view.streaming = false := by
          cases hst : w.app.view.streaming with
          | false => rfl
          | true => rw [h7 h' hst] at hsel; simp at hsel
        obtain ⟨g1, g2, g3, g4, g5, g6, g7⟩ := h4 hnst
        rw [g3] at hsub
        rw [List.sublist_nil.mp hsub, g4, g5, g6]; rfl
      · exact ((List.Sublist.refl _).append hsub).trans h6
      · intro h; apply h7; revert h; cases w.cleared <;> simp
      · refine ⟨h8.1, fun h => h8.2 ?_⟩
        rw [List.mem_append] at h ⊢
        exact h.imp id (List.mem_cons_of_mem _)
      · exact h9
      · exact h10
      · exact h11
    · exact absurd (by simp) h8.2
    · simp only [results_append, results, List.length_append, List.length_cons] at h3
      have hp0 : results p = [] := List.eq_nil_of_length_eq_zero (by omega)
      have hq0 : results q = [] := List.eq_nil_of_length_eq_zero (by omega)
      simp only [results_append, results, hp0, hq0, List.nil_append] at h4 h5 h6
      constructor
      all_goals simp only [ha, hc, Bool.or_false, results_append, hp0, hq0, List.append_nil]
      · exact h1
      · exact h2
      · rw [List.count_append]
        have : List.count Cmd.wait [Cmd.wait, Cmd.check] = 1 := by decide
        rw [this]; simp; omega
      · intro h
        have := (h4 h).2.2.1
        simp at this
      · exact h5
      · exact h6
      · exact h7
      · exact ⟨h8.1, by simpa using h8.2⟩
      · simpa [List.filter_append] using h9
      · intro h; apply hq; simpa using h
      · exact hor'
    · simp only [results_append, results] at h3 h4 h5 h6
      rw [← results_append] at h3 h4 h5 h6
      constructor
      all_goals simp only [ha, hc, Bool.or_false]
      · exact h1
      · exact h2
      · simpa [List.count_append] using h3
      · simpa [List.count_append] using h4
      · exact h5
      · exact h6
      · exact h7
      · exact ⟨h8.1, by simpa using h8.2⟩
      · simpa [List.filter_append] using h9
      · intro _; exact .inl (by simp)
      · exact .inr (by simp)
    · simp only [results_append, results] at h3 h4 h5 h6
      rw [← results_append] at h3 h4 h5 h6
      constructor
      all_goals simp only [ha, hc, List.append_nil, Bool.or_false]
      · exact h1
      · exact h2
      · exact h3
      · exact h4
      · exact h5
      · exact h6
      · exact h7
      · exact ⟨h8.1, by simpa using h8.2⟩
      · exact h9
      · exact hq _
      · exact hor'

theorem inv_reach {ε : Type} [Inhabited ε] {file : String} {d : Bool} {events : List ε} {c : Bool}
    {errs : List Err} {w : World ε} (h : Reach file d events c errs w) : Inv events w := by
  induction h with
  | init => exact inv_init _ _ _ _ _
  | step _ hs ih => exact inv_step ih hs

end Verif.CliValidate
