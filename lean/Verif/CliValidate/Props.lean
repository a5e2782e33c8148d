import Verif.CliValidate.Lemmas

/-!
# Properties of the `validate` command (C45, C46, C64, C65)
-/

namespace Verif.CliValidate

open Spec

variable {ε : Type}

/-! ## C45: without a terminal -/

/-- **C45.** For every interleaving of events, errors, the end of the stream and cancellation:
once a signal ends the command its result is that signal's, and the output is the file, every event
received before in order and, if the stream ended, a note. -/
theorem prints_and_ends (file : String) (pre post : List (Signal ε)) (d : Signal ε)
    (r : Except Err Unit) (h : ∀ s ∈ pre, Harmless s) (hd : Ends d r) :
    handle file ⟨.ok (), .ok ()⟩ (pre ++ d :: post) =
      (.validating file :: ((eventsOf pre).map .received ++
        (match r with | .ok _ => [.streamClosed] | .error _ => [])), some r) := by
  simp only [handle, loop_append pre (d :: post) h]
  cases hd <;> rfl

/-- **C45.** Until then it keeps running and has printed every event received so far. -/
theorem prints_while_running (file : String) (sigs : List (Signal ε)) (h : ∀ s ∈ sigs, Harmless s) :
    handle file ⟨.ok (), .ok ()⟩ sigs =
      (.validating file :: (eventsOf sigs).map .received, none) := by
  have := loop_append sigs [] h
  rw [List.append_nil] at this
  simp [handle, this, loop]

/-- **C45.** The command succeeds exactly when the stream was closed with nothing else ending it
before. -/
theorem succeeds_iff (file : String) (a : Answers) (sigs : List (Signal ε)) :
    (handle file a sigs).2 = some (.ok ()) ↔
      a.create = .ok () ∧ a.stream = .ok () ∧
      ∃ pre post, sigs = pre ++ .closed :: post ∧ ∀ s ∈ pre, Harmless s := by
  obtain ⟨create, stream⟩ := a
  cases create with
  | error e => simp [handle]
  | ok _ =>
    cases stream with
    | error e => simp [handle]
    | ok _ =>
      rcases split_signals sigs with h | ⟨pre, d, r, post, rfl, h1, h2⟩
      · rw [prints_while_running file sigs h]
        simp only [reduceCtorEq, true_and, false_iff, not_exists, not_and]
        rintro pre post rfl
        exact absurd (h .closed (by simp)) (by simp [Harmless])
      · rw [prints_and_ends file pre post d r h1 h2]
        constructor
        · intro h
          injection h with h
          subst h
          cases h2
          exact ⟨rfl, rfl, pre, post, rfl, h1⟩
        · rintro ⟨_, _, pre', post', h3, h4⟩
          have hn : ∀ {s : Signal ε} {r}, Ends s r → ¬ Harmless s := by
            intro s r hs; cases hs <;> simp [Harmless]
          have key : ∀ (pre pre' : List (Signal ε)) (d : Signal ε) (post post' : List (Signal ε)),
              pre ++ d :: post = pre' ++ .closed :: post' → (∀ s ∈ pre, Harmless s) →
              (∀ s ∈ pre', Harmless s) → ¬ Harmless d → d = .closed := by
            intro pre
            induction pre with
            | nil =>
              intro pre' d post post' h _ h4 hd
              cases pre' with
              | nil => simp at h; exact h.1
              | cons x xs =>
                simp at h
                exact absurd (h.1 ▸ h4 x (by simp)) hd
            | cons y ys ih =>
              intro pre' d post post' h h1 h4 hd
              cases pre' with
              | nil =>
                simp at h
                exact absurd (h.1 ▸ h1 y (by simp)) (by simp [Harmless])
              | cons x xs =>
                simp at h
                exact ih xs d post post' h.2 (fun s hs => h1 s (by simp [hs]))
                  (fun s hs => h4 s (by simp [hs])) hd
          have := key pre pre' d post post' h3 h1 h4 (hn h2)
          subst this
          cases h2
          rfl

/-- **C45.** When the engine refuses the validation the command ends with the error, explained to
the user. -/
theorem refused (file : String) (e : Err) (stream : Except Err Unit) (sigs : List (Signal ε)) :
    ∃ e', Explained e e' ∧
      handle file ⟨.error e, stream⟩ sigs = ([.validating file], some (.error e')) :=
  ⟨simplifyError e, (simplifyError_iff _ _).mp rfl, rfl⟩

/-- The hypotheses of C45 are met. -/
example : handle "app.yaml" ⟨.ok (), .ok ()⟩ [.event 1, .err none, .event 2, .closed, .event 3] =
    ([.validating "app.yaml", .received 1, .received 2, .streamClosed], some (.ok ())) := rfl

/-! ## C46: in a terminal -/

variable [Inhabited ε]

/-- **C46, full statement.** -/
def FullInteractive : Prop :=
  ∀ (file : String) (d : Bool) (events : List Nat) (closes : Bool) (errs : List Err) (w : World Nat),
    Reach file d events closes errs w →
    -- results are shown in order, exactly once
    (w.app.view.collected ++ results w.inbox = w.taken) ∧
    -- the end of the stream ends the program
    (w.closedReads ≠ 0 → w.inbox = [] → w.done = true ∨ Cmd.quit ∈ w.pending) ∧
    -- an error the engine reports can still be received
    (w.streams = true → w.errs ≠ [] → w.done = false → w.inbox = [] → Cmd.check ∈ w.pending)

/-- **C46.** At any time at most one consumer reads the stream, and at most one result is on its
way. -/
theorem single_consumer {file : String} {d : Bool} {events : List ε} {c : Bool} {errs : List Err}
    {w : World ε} (h : Reach file d events c errs w) :
    w.pending.count .wait + (results w.inbox).length ≤ 1 := (inv_reach h).single

/-- **C46.** The engine is asked for a validation at most once. -/
theorem requested_once {file : String} {d : Bool} {events : List ε} {c : Bool} {errs : List Err}
    {w : World ε} (h : Reach file d events c errs w) : w.requests.length ≤ 1 := by
  have := (inv_reach h).once; omega

/-- **C46, partial.** Unless the selection was cleared, the results shown and the one on its way are
those taken from the stream, in order and each once, until the stream is closed. Missing: what is
read from the closed stream, which is also shown. -/
theorem shown_in_order_partial {file : String} {d : Bool} {events : List ε} {c : Bool}
    {errs : List Err} {w : World ε} (h : Reach file d events c errs w) (hc : w.cleared = false)
    (hr : w.closedReads = 0) :
    w.app.view.collected ++ results w.inbox = w.taken ∧ w.taken ++ w.todo = events := by
  refine ⟨?_, (inv_reach h).stream⟩
  have := (inv_reach h).shown hc
  rw [hr] at this
  simpa using this

/-- **C46, partial.** In every run, even with cleared selections, nothing is shown twice or out of
order: the results shown are a subsequence of the events and, after them, the values read from the
closed stream. -/
theorem shown_subsequence {file : String} {d : Bool} {events : List ε} {c : Bool}
    {errs : List Err} {w : World ε} (h : Reach file d events c errs w) :
    w.app.view.collected.Sublist (events ++ List.replicate w.closedReads default) := by
  have h1 := (inv_reach h).sub
  have h2 := (List.sublist_append_left _ _).trans h1
  refine h2.trans ?_
  rw [← (inv_reach h).stream]
  exact ((List.sublist_append_left _ _)).append (List.Sublist.refl _)

omit [Inhabited ε] in
/-- **C46, partial.** Delivering an error in the view of the results records it and asks the program
to quit, and the command then returns an error. -/
theorem error_quits (a : App ε) (e : Err) (h : a.selecting = false) :
    (a.update (.err (some e))).1.error = some e ∧ Cmd.quit ∈ (a.update (.err (some e))).2 := by
  simp [App.update, App.delegate, View.update, h]

/-- The program ends by itself only with an error. -/
theorem ends_only_with_error {file : String} {d : Bool} {events : List ε} {c : Bool}
    {errs : List Err} {w : World ε} (h : Reach file d events c errs w) (hd : w.done = true) :
    w.exit ≠ none ∨ w.app.quitting = true := (inv_reach h).quits (.inr hd)

/-- **C46 is false of the code.** The view never finishes: when the engine has closed the stream the
program goes on reading it. -/
theorem never_finishes {file : String} {d : Bool} {events : List ε} {c : Bool} {errs : List Err}
    {w : World ε} (h : Reach file d events c errs w) : w.app.view.finished = false :=
  (inv_reach h).unfinished.1

/-- The world after the closed stream was read `n` times. -/
def closedWorld (n : Nat) (checks : List Cmd) : World Nat where
  app := { selecting := false, file := "a", view := { file := "a", collected := List.replicate n 0, streaming := true } }
  pending := checks ++ [.wait, .check]
  inbox := []
  requests := ["a"]
  streams := true
  taken := []
  todo := []
  closes := true
  closedReads := n
  errs := []
  cleared := false
  done := false

/-- **C46 is false of the code.** After the end of the stream an empty result appears again and
again, without any limit. -/
theorem phantom_results (n : Nat) : ∃ checks, Reach "a" false ([] : List Nat) true []
    (closedWorld n checks) := by
  induction n with
  | zero =>
    refine ⟨[], ?_⟩
    have h0 : Reach "a" false ([] : List Nat) true [] _ := .init
    have h1 := Reach.step h0 (Step.runSelect _ [] [] "a" rfl)
    have h2 := Reach.step h1 (Step.deliver _ [] [] (.select "a") rfl rfl)
    have h3 := Reach.step h2 (Step.startOk _ [] [.wait, .check] "a" rfl)
    exact h3
  | succ n ih =>
    obtain ⟨checks, h⟩ := ih
    refine ⟨checks ++ [.check], ?_⟩
    have h1 := Reach.step h (Step.waitClosed _ checks [.check] rfl rfl rfl rfl)
    have h2 := Reach.step h1 (Step.deliver _ [] [] (.result (some 0)) rfl rfl)
    have he : closedWorld (n + 1) (checks ++ [.check]) =
        { closedWorld (n + 1) [] with pending := (checks ++ [.check]) ++ [.wait, .check] } := rfl
    rw [he]
    have hrep : List.replicate n 0 ++ [0] = List.replicate (n + 1) (0 : Nat) :=
      List.replicate_succ'.symm
    simp only [closedWorld, List.nil_append]
    rw [← hrep]
    exact h2

/-- The world in which an error of the engine waits for a reader that is gone. -/
def stuckWorld : World Nat where
  app := { selecting := false, file := "a", view := { file := "a", streaming := true } }
  pending := [.wait]
  inbox := []
  requests := ["a"]
  streams := true
  taken := []
  todo := []
  closes := false
  closedReads := 0
  errs := [.other "boom"]
  cleared := false
  done := false

/-- **C46 is false of the code.** One second after the last result no one listens for errors any
more: the engine reports an error and the program can do nothing but wait for the user. -/
theorem error_missed : Reach "a" false ([] : List Nat) false [.other "boom"] stuckWorld ∧
    ∀ w', Step stuckWorld w' → w' = { stuckWorld with inbox := [.interrupt] } := by
  constructor
  · have h0 : Reach "a" false ([] : List Nat) false [.other "boom"] _ := .init
    have h1 := Reach.step h0 (Step.runSelect _ [] [] "a" rfl)
    have h2 := Reach.step h1 (Step.deliver _ [] [] (.select "a") rfl rfl)
    have h3 := Reach.step h2 (Step.startOk _ [] [.wait, .check] "a" rfl)
    have h4 := Reach.step h3 (Step.checkTimeout _ [.wait] [] rfl)
    have h5 := Reach.step h4 (Step.deliver _ [] [] (.err none) rfl rfl)
    exact h5
  · intro w' h
    have one : ∀ {p q : List Cmd} {c : Cmd}, ([.wait] : List Cmd) = p ++ c :: q → c = .wait := by
      intro p q c h
      cases p with
      | nil => simp at h; exact h.1.symm
      | cons x xs => simp at h
    have none' : ∀ {p q : List (Msg Nat)} {c : Msg Nat}, ([] : List (Msg Nat)) ≠ p ++ c :: q := by
      intro p q c h
      cases p <;> simp at h
    generalize hw : stuckWorld = w at h
    cases h with
    | pick f hd hs => subst hw; simp [stuckWorld] at hs
    | pickDisabled hd hs => subst hw; simp [stuckWorld] at hs
    | interrupt hd => subst hw; rfl
    | runSelect p q f hp => subst hw; exact absurd (one hp) (by simp)
    | runClear p q hp => subst hw; exact absurd (one hp) (by simp)
    | startOk p q f hp => subst hw; exact absurd (one hp) (by simp)
    | startErr p q f e hp => subst hw; exact absurd (one hp) (by simp)
    | waitEvent p q e t hp ho ht => subst hw; simp [stuckWorld] at ht
    | waitClosed p q hp ho ht hc => subst hw; simp [stuckWorld] at hc
    | checkTimeout p q hp => subst hw; exact absurd (one hp) (by simp)
    | checkErr p q e t hp => subst hw; exact absurd (one hp) (by simp)
    | runQuit p q hp => subst hw; exact absurd (one hp) (by simp)
    | deliver p q m hd hi => subst hw; exact absurd hi none'

theorem interactive_violated : ¬ FullInteractive := by
  intro h
  have := (h _ _ _ _ _ _ error_missed.1).2.2 rfl (by simp [stuckWorld]) rfl rfl
  simp [stuckWorld] at this

/-- A run that meets the hypotheses of `shown_in_order_partial` with a result. -/
example : ∃ w, Reach "a" false [7, 8] true [] w ∧ w.cleared = false ∧ w.closedReads = 0 ∧
    w.app.view.collected = [7] ∧ w.todo = [8] := by
  have h0 : Reach "a" false [7, 8] true [] _ := .init
  have h1 := Reach.step h0 (Step.runSelect _ [] [] "a" rfl)
  have h2 := Reach.step h1 (Step.deliver _ [] [] (.select "a") rfl rfl)
  have h3 := Reach.step h2 (Step.startOk _ [] [.wait, .check] "a" rfl)
  have h4 := Reach.step h3 (Step.waitEvent _ [] [.check] 7 [8] rfl rfl rfl)
  have h5 := Reach.step h4 (Step.deliver _ [] [] (.result (some 7)) rfl rfl)
  exact ⟨_, h5, rfl, rfl, rfl, rfl⟩

/-! ## C64: the file that is validated -/

/-- **C64, full statement.** In both modes the engine is asked to validate the file the user
named. -/
def FullFile : Prop :=
  ∀ (cwd : List Char) (file : String), file ≠ "" →
    LocalFile (handlerRequest file) (absolute cwd file.toList) ∧
    LocalFile (interactiveRequest file) (absolute cwd file.toList)

/-- Without a terminal the request is the same for all files. -/
theorem request_ignores_file (f g : String) : handlerRequest f = handlerRequest g := rfl

/-- **C64 is false of the code.** -/
theorem file_violated : ¬ FullFile := by
  intro h
  have := (h "/home/u".toList "app.yaml" (by decide)).1.2
  revert this
  decide

/-- It is false in both modes separately: in a terminal a relative name is looked up in `/`. -/
theorem relative_file_in_root : designated (interactiveRequest "app.yaml") = "/app.yaml".toList ∧
    absolute "/home/u".toList "app.yaml".toList = "/home/u/app.yaml".toList := by decide

/-- **C64, partial.** In a terminal the engine is asked for the file if its name is absolute or the
working directory is the root. Missing: relative names elsewhere, and the mode without a
terminal. -/
theorem file_partial (cwd : List Char) (file : String)
    (h : file.toList.head? = some '/' ∨ cwd = []) :
    LocalFile (interactiveRequest file) (absolute cwd file.toList) := by
  refine ⟨rfl, ?_⟩
  simp only [designated, interactiveRequest, absolute]
  cases hl : file.toList with
  | nil =>
    rw [hl] at h
    rcases h with h | h
    · simp at h
    · subst h; rfl
  | cons c rest =>
    rw [hl] at h
    by_cases hc : c = '/'
    · subst hc; rfl
    · rcases h with h | h
      · simp at h; exact absurd h hc
      · subst h
        split
        · rename_i heq; injection heq with h1 h2; exact absurd h1 hc
        · simp

example : ("/srv/app.yaml").toList.head? = some '/' := by decide

/-! ## C65: the results shown are those of the file shown -/

/-- **C65, full statement.** -/
def FullShownFile : Prop :=
  ∀ (file : String) (d : Bool) (events : List Nat) (closes : Bool) (errs : List Err) (w : World Nat),
    Reach file d events closes errs w → w.app.selecting = false → ∀ f ∈ w.requests, f = w.app.file

/-- **C65 is false of the code.** A second selection replaces the name that is shown but not the
validation. -/
theorem shown_file_violated : ¬ FullShownFile := by
  intro h
  have h0 : Reach "" false ([] : List Nat) true [] _ := .init
  have h1 := Reach.step h0 (Step.pick _ "a" rfl rfl)
  have h2 := Reach.step h1 (Step.pick _ "b" rfl rfl)
  have h3 := Reach.step h2 (Step.runSelect _ [.select "b"] [] "a" rfl)
  have h4 := Reach.step h3 (Step.deliver _ [] [] (.select "a") rfl rfl)
  have h5 := Reach.step h4 (Step.startOk _ [.select "b"] [.wait, .check] "a" rfl)
  have h6 := Reach.step h5 (Step.runSelect _ [] [.wait, .check] "b" rfl)
  have h7 := Reach.step h6 (Step.deliver _ [] [] (.select "b") rfl rfl)
  have := h _ _ _ _ _ _ h7 rfl "a" (by simp [World.init])
  revert this
  decide

/-- **C65, partial.** It holds for a file given with the command. Missing: files picked in the
program. -/
theorem shown_file_partial {file : String} {events : List ε} {c : Bool} {errs : List Err}
    {w : World ε} (hf : file ≠ "") (h : Reach file false events c errs w) :
    w.app.selecting = false ∧ w.app.file = file ∧ ∀ f ∈ w.requests, f = file := by
  suffices key : w.app.selecting = false ∧ w.app.file = file ∧ (∀ f ∈ w.requests, f = file) ∧
      (∀ f, Cmd.select f ∈ w.pending → f = file) ∧ (∀ f, Cmd.start f ∈ w.pending → f = file) ∧
      Cmd.clear ∉ w.pending ∧ (∀ f, Msg.select f ∈ w.inbox → f = file) ∧ Msg.clear ∉ w.inbox from
    ⟨key.1, key.2.1, key.2.2.1⟩
  induction h with
  | init => simp [World.init, hf]
  | @step w0 w1 _ hs ih =>
    obtain ⟨g1, g2, g3, g4, g5, g6, g7, g8⟩ := ih
    have skip : ∀ {α : Type} {x c : α} {p q : List α}, x ∈ p ++ q → x ∈ p ++ c :: q := by
      intro α x c p q h
      rw [List.mem_append] at h ⊢
      exact h.imp id (List.mem_cons_of_mem _)
    cases hs with
    | pick f _ h => rw [g1] at h; simp at h
    | pickDisabled _ h => rw [g1] at h; simp at h
    | interrupt _ => exact ⟨g1, g2, g3, g4, g5, g6, by simpa using g7, by simpa using g8⟩
    | runClear p q hp => rw [hp] at g6; simp at g6
    | runSelect p q f hp =>
      have hff := g4 f (by rw [hp]; simp)
      rw [hp] at g4 g5 g6
      refine ⟨g1, g2, g3, ?_, ?_, by simpa using g6, ?_, by simpa using g8⟩
      · intro f' h'; exact g4 f' (skip h')
      · intro f' h'; apply g5; simpa using h'
      · intro f' h'
        rcases List.mem_cons.mp h' with h' | h'
        · injection h' with h'; rw [h', hff]
        · exact g7 f' h'
    | startOk p q f hp =>
      have hff := g5 f (by rw [hp]; simp)
      rw [hp] at g4 g5 g6
      refine ⟨g1, g2, ?_, ?_, ?_, by simpa using g6, g7, g8⟩
      · intro f' h'
        rcases List.mem_append.mp h' with h' | h'
        · exact g3 f' h'
        · simp at h'; rw [h', hff]
      · intro f' h'; apply g4; simpa using h'
      · intro f' h'; exact g5 f' (skip h')
    | startErr p q f e hp =>
      have hff := g5 f (by rw [hp]; simp)
      rw [hp] at g4 g5 g6
      refine ⟨g1, g2, ?_, ?_, ?_, by simpa using g6, by simpa using g7, by simpa using g8⟩
      · intro f' h'
        rcases List.mem_append.mp h' with h' | h'
        · exact g3 f' h'
        · simp at h'; rw [h', hff]
      · intro f' h'; apply g4; simpa using h'
      · intro f' h'; exact g5 f' (skip h')
    | waitEvent p q e t hp _ _ =>
      rw [hp] at g4 g5 g6
      exact ⟨g1, g2, g3, by simpa using g4, by simpa using g5, by simpa using g6, by simpa using g7,
        by simpa using g8⟩
    | waitClosed p q hp _ _ _ =>
      rw [hp] at g4 g5 g6
      exact ⟨g1, g2, g3, by simpa using g4, by simpa using g5, by simpa using g6, by simpa using g7,
        by simpa using g8⟩
    | checkTimeout p q hp =>
      rw [hp] at g4 g5 g6
      exact ⟨g1, g2, g3, by simpa using g4, by simpa using g5, by simpa using g6, by simpa using g7,
        by simpa using g8⟩
    | checkErr p q e t hp _ _ =>
      rw [hp] at g4 g5 g6
      exact ⟨g1, g2, g3, by simpa using g4, by simpa using g5, by simpa using g6, by simpa using g7,
        by simpa using g8⟩
    | runQuit p q hp =>
      rw [hp] at g4 g5 g6
      exact ⟨g1, g2, g3, by simpa using g4, by simpa using g5, by simpa using g6, g7, g8⟩
    | deliver p q m hd hi =>
      rw [hi] at g7 g8
      have hin : ∀ f, Msg.select f ∈ p ++ q → f = file := by
        intro f h; exact g7 f (skip h)
      have hcl : Msg.clear ∉ p ++ q := by
        intro h; exact g8 (skip h)
      rcases update_cases w0.app m with ⟨f, rfl, ha, hc⟩ | ⟨rfl, ha, hc⟩ | ⟨rfl, ha, hc⟩ |
        ⟨hsel, ha, hm1, hm2, hm3⟩ | ⟨hsel, rfl⟩ | ⟨hsel, e, rfl, ha, hc⟩ | ⟨hsel, e, rfl, ha, hc⟩ |
        ⟨hsel, rfl, ha, hc⟩
      · have hff := g7 f (by simp)
        subst hff
        simp only [ha, hc]
        refine ⟨trivial, trivial, g3, ?_, ?_, ?_, hin, hcl⟩
        · intro f' h'
          apply g4
          split at h' <;> simpa using h'
        · intro f' h'
          split at h'
          · exact g5 f' (by simpa using h')
          · simp at h'
            rcases h' with h' | h'
            · exact g5 f' h'
            · exact h'
        · split <;> simpa using g6
      · simp at g8
      · simp only [ha, hc]
        exact ⟨g1, g2, g3, by simpa using g4, by simpa using g5, by simpa using g6, hin, hcl⟩
      · rw [g1] at hsel; simp at hsel
      · have ha : w0.app.update (.result none) = ((w0.app.update (.result none)).1, [.quit]) ∧
            (w0.app.update (.result none)).1.selecting = w0.app.selecting ∧
            (w0.app.update (.result none)).1.file = w0.app.file := by
          simp [App.update, App.delegate, View.update, hsel]
        rw [ha.1]
        dsimp only
        rw [ha.2.1, ha.2.2]
        exact ⟨g1, g2, g3, by simpa using g4, by simpa using g5, by simpa using g6, hin, hcl⟩
      · simp only [ha, hc]
        exact ⟨g1, g2, g3, by simpa using g4, by simpa using g5, by simpa using g6, hin, hcl⟩
      · simp only [ha, hc]
        exact ⟨g1, g2, g3, by simpa using g4, by simpa using g5, by simpa using g6, hin, hcl⟩
      · simp only [ha, hc]
        exact ⟨g1, g2, g3, by simpa using g4, by simpa using g5, by simpa using g6, hin, hcl⟩

end Verif.CliValidate
