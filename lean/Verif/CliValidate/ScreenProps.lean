import Verif.CliValidate.Screen
import Verif.CliValidate.Props

/-!
# C154, C155: what is told of the diagnostics
-/

namespace Verif.CliValidate

open Spec

/-! ## Specification -/

/-- How the levels are called. -/
inductive Called : Level → String → Prop
  | error : Called .error "error"
  | warning : Called .warning "warning"
  | info : Called .info "info"

/-- An item that tells all about a diagnostic: its message, its level, and the line it is about. -/
structure Tells (item : List Part) (d : Diag) : Prop where
  message : ∀ m, .message m ∈ item ↔ m = d.message
  level : ∃ n, .level n ∈ item ∧ Called d.level n
  levels : ∀ n, .level n ∈ item → Called d.level n
  line : ∀ a s, d.range = some (a, s) → s.line > 0 → ∃ c, .location s.line c ∈ item

/-- **C154, full statement.** While the program runs, everything received is on the screen, one item
for each diagnostic and in order; and without a terminal the printed lines tell diagnostics
apart. -/
structure FullShown : Prop where
  screen : ∀ (file : String) (d : Bool) (events : List Diag) (closes : Bool) (errs : List Err)
    (w : World Diag) (_ : Inhabited Diag), Reach file d events closes errs w →
    w.app.view.collected ≠ [] →
    ∃ items rest, w.app.screen = [.selected w.app.file] :: items ++ rest ∧
      items.length = w.app.view.collected.length ∧
      ∀ (i : Nat) (d : Diag), w.app.view.collected[i]? = some d →
        ∃ item, items[i]? = some item ∧ Tells item d
  printed : ∀ d d' : Diag, printDiag d = printDiag d' →
    d.range.map (·.2) = d'.range.map (·.2)

/-! ## C154 -/

/-- **C154, partial.** While no error was reported and the user has not interrupted the program, the
screen is the name of the file, followed by an item for each diagnostic in the order of arrival, and
the spinner. -/
theorem screen_partial (a : App Diag) (hq : a.quitting = false) (hs : a.selecting = false)
    (he : a.view.err = none) :
    ∃ rest, a.screen = [.selected a.file] :: a.view.collected.map showDiag ++ rest ∧
      (rest = [] ∨ rest = [[.busy]]) := by
  refine ⟨if a.view.finished then [] else [[.busy]], ?_, ?_⟩
  · simp [App.screen, View.screen, hq, hs, he]
  · cases a.view.finished <;> simp

/-- **C154, partial.** An item tells all about a diagnostic that has a level and, if it has a line,
also a column. -/
theorem item_partial (d : Diag) (hl : ∀ n, d.level ≠ .other n)
    (hc : ∀ a s, d.range = some (a, s) → s.line > 0 → s.column > 0) : Tells (showDiag d) d where
  message := by
    intro m
    have hn : Part.message m ∉ locationParts d := by
      unfold locationParts
      repeat' split
      all_goals simp
    simp only [showDiag, List.mem_append, List.mem_singleton, reduceCtorEq, hn, or_false,
      Part.message.injEq]
    constructor
    · rintro ((h | h) | h)
      · exact h.elim
      · split at h <;> simp at h
      · exact h
    · exact .inr
  level := by
    cases h : d.level with
    | other n => exact absurd h (hl n)
    | error => exact ⟨"error", by simp [showDiag, h, levelName], .error⟩
    | warning => exact ⟨"warning", by simp [showDiag, h, levelName], .warning⟩
    | info => exact ⟨"info", by simp [showDiag, h, levelName], .info⟩
  levels := by
    intro n hm
    have hn : Part.level n ∉ locationParts d := by
      unfold locationParts
      repeat' split
      all_goals simp
    simp only [showDiag, List.mem_append, List.mem_singleton, reduceCtorEq, hn, or_false,
      false_or] at hm
    cases h : d.level with
    | other n => exact absurd h (hl n)
    | error => simp [h, levelName] at hm; exact hm ▸ .error
    | warning => simp [h, levelName] at hm; exact hm ▸ .warning
    | info => simp [h, levelName] at hm; exact hm ▸ .info
  line := by
    intro a s hr h
    refine ⟨s.column, ?_⟩
    simp [showDiag, locationParts, hr, hasPreciseRange, h, hc a s hr h]

/-- Nothing is said of a location that is not there. -/
theorem item_location (d : Diag) (l c : Int) (h : Part.location l c ∈ showDiag d) :
    ∃ a, d.range = some (a, ⟨l, c⟩) := by
  have h : Part.location l c ∈ locationParts d := by
    simp only [showDiag, List.mem_append, List.mem_singleton, reduceCtorEq, or_false,
      false_or] at h
    rcases h with h | h
    · split at h <;> simp at h
    · exact h
  unfold locationParts at h
  split at h
  · next a s hr =>
    split at h
    · simp only [List.mem_singleton, Part.location.injEq] at h
      exact ⟨a, by rw [hr, h.1, h.2]⟩
    · simp at h
  · simp at h

/-- After an error none of the diagnostics is shown any more. -/
theorem error_hides (a : App Diag) (e : Err) (hq : a.quitting = false) (hs : a.selecting = false)
    (he : a.view.err = some e) : a.screen = [[.selected a.file], [.error e]] := by
  simp [App.screen, View.screen, hq, hs, he]

/-- Nor after the user has interrupted the program. -/
theorem interrupt_hides (a : App Diag) : (a.update .interrupt).1.screen = [[.goodbye]] := by
  simp [App.update, App.screen]

/-- A diagnostic of no known level has no level on the screen, although the list is filtered by the
level `unknown`. -/
theorem unknown_level (n : Nat) (m : String) (r : Option (Nat × Start)) :
    (∀ s, Part.level s ∉ showDiag ⟨.other n, m, r⟩) ∧
    Part.level "unknown" ∈ plainText ⟨.other n, m, r⟩ := by
  constructor
  · intro s h
    simp only [showDiag, List.mem_append, List.mem_singleton, reduceCtorEq, List.not_mem_nil,
      false_or] at h
    unfold locationParts at h
    repeat' split at h
    all_goals simp at h
  · simp [plainText, levelName]

/-- The line of a diagnostic without a column is not shown. -/
theorem line_only (l : Level) (m : String) (a : Nat) (line : Int) :
    ∀ x y, Part.location x y ∉ showDiag ⟨l, m, some (a, ⟨line, 0⟩)⟩ := by
  intro x y h
  obtain ⟨a', h'⟩ := item_location _ _ _ h
  simp only [showDiag, List.mem_append] at h
  have : locationParts ⟨l, m, some (a, ⟨line, 0⟩)⟩ = [] := by
    simp [locationParts, hasPreciseRange]
  rw [this] at h
  cases l <;> simp at h

/-- Without a terminal the position of a diagnostic is never printed: the line is the same wherever
it is. -/
theorem position_unprinted (l : Level) (m : String) (a : Nat) (s s' : Start) :
    printLine (.received ⟨l, m, some (a, s)⟩) = printLine (.received ⟨l, m, some (a, s')⟩) := rfl

/-- So the full statement is false. -/
theorem shown_violated : ¬ FullShown := fun h => by
  have := h.printed ⟨.error, "m", some (0, ⟨1, 1⟩)⟩ ⟨.error, "m", some (0, ⟨2, 1⟩)⟩ rfl
  simp at this

/-- The first part alone, for a choice of the zero value. -/
def FullScreen [Inhabited Diag] : Prop :=
  ∀ (file : String) (d : Bool) (events : List Diag) (closes : Bool) (errs : List Err)
    (w : World Diag), Reach file d events closes errs w → w.app.view.collected ≠ [] →
    ∃ items rest, w.app.screen = [.selected w.app.file] :: items ++ rest ∧
      items.length = w.app.view.collected.length ∧
      ∀ (i : Nat) (d : Diag), w.app.view.collected[i]? = some d →
        ∃ item, items[i]? = some item ∧ Tells item d

/-- It is false as well: a diagnostic arrives and then an error, and the diagnostic is gone. -/
theorem screen_violated [Inhabited Diag] : ¬ FullScreen := by
  intro h
  have h0 : Reach "a" false [(⟨.error, "m", some (0, ⟨3, 4⟩)⟩ : Diag)] true [.other "boom"] _ := .init
  have h1 := Reach.step h0 (Step.runSelect _ [] [] "a" rfl)
  have h2 := Reach.step h1 (Step.deliver _ [] [] (.select "a") rfl rfl)
  have h3 := Reach.step h2 (Step.startOk _ [] [.wait, .check] "a" rfl)
  have h4 := Reach.step h3 (Step.waitEvent _ [] [.check] _ _ rfl rfl rfl)
  have h5 := Reach.step h4 (Step.deliver _ [] [] (.result (some _)) rfl rfl)
  have h6 := Reach.step h5 (Step.checkErr _ [] [.wait, .check] _ _ rfl rfl rfl)
  have h7 := Reach.step h6 (Step.deliver _ [] [] (.err (some _)) rfl rfl)
  obtain ⟨items, rest, hs, hl, ht⟩ := h _ _ _ _ _ _ h7 (by nofun)
  obtain ⟨item, hi, hti⟩ := ht 0 ⟨.error, "m", some (0, ⟨3, 4⟩)⟩ rfl
  clear ht
  have hs : [[.selected "a"], [.error (.other "boom")]] = [.selected "a"] :: items ++ rest := hs
  cases items with
  | nil => cases hi
  | cons x xs =>
    cases hi
    simp only [List.cons_append, List.cons.injEq, true_and] at hs
    have hm := (hti.message "m").2 rfl
    rw [← hs.1] at hm
    simp at hm

/-! ## C155 -/

/-- A diagnostic that is an error. -/
def IsError (d : Diag) : Prop := d.level = .error

/-- **C155, full statement.** The command succeeds only if no error was found in the blueprint. -/
def FullFails : Prop :=
  ∀ (file : String) (a : Answers) (sigs : List (Signal Diag)),
    (handle file a sigs).2 = some (.ok ()) → ∀ d ∈ (handle file a sigs).1.filterMap
      (fun | .received d => some d | _ => none), ¬ IsError d

/-- Another event in place of each event. -/
def Signal.map {ε ε' : Type} (f : ε → ε') : Signal ε → Signal ε'
  | .done => .done
  | .err e => .err e
  | .event e => .event (f e)
  | .closed => .closed

theorem loop_map {ε ε' : Type} (f : ε → ε') (sigs : List (Signal ε)) :
    (loop (sigs.map (Signal.map f))).2 = (loop sigs).2 := by
  induction sigs with
  | nil => rfl
  | cons s sigs ih =>
    cases s with
    | done => rfl
    | closed => rfl
    | event e => exact ih
    | err e =>
      cases e with
      | none => exact ih
      | some e => rfl

/-- The result of the command does not depend on the diagnostics at all. -/
theorem result_ignores {ε ε' : Type} (f : ε → ε') (file : String) (a : Answers)
    (sigs : List (Signal ε)) :
    (handle file a (sigs.map (Signal.map f))).2 = (handle file a sigs).2 := by
  obtain ⟨create, stream⟩ := a
  cases create with
  | error e => rfl
  | ok u =>
    cases stream with
    | error e => rfl
    | ok v => exact loop_map f sigs

/-- In particular a blueprint with an error is validated successfully. -/
theorem fails_violated : ¬ FullFails := fun h =>
  h "a" ⟨.ok (), .ok ()⟩ [.event ⟨.error, "m", none⟩, .closed] rfl ⟨.error, "m", none⟩
    (by simp [handle, loop]) rfl

/-- In a terminal, too: receiving a diagnostic never changes the error the program ends with. -/
theorem exit_ignores {ε : Type} (a : App ε) (e : ε) :
    (a.update (.result (some e))).1.error = a.view.err.or a.error ∨
    (a.update (.result (some e))).1.error = a.error := by
  cases h : a.selecting with
  | true => exact .inr (by simp [App.update, App.delegate, h])
  | false => exact .inl (by simp [App.update, App.delegate, View.update, h])

/-- **C155, partial.** The command fails when the engine refuses the validation or reports an error
of its own. -/
theorem fails_partial (file : String) (e : Err) (pre post : List (Signal Diag))
    (h : ∀ s ∈ pre, Harmless s) :
    (handle file ⟨.ok (), .ok ()⟩ (pre ++ .err (some e) :: post)).2 = some (.error e) := by
  rw [prints_and_ends file pre post (.err (some e)) (.error e) h (.err e)]

/-- Its hypotheses are met. -/
example : (handle "a" ⟨.ok (), .ok ()⟩ [.event (⟨.error, "m", none⟩ : Diag), .err (some .cancelled)]).2 =
    some (.error .cancelled) := fails_partial "a" .cancelled [.event ⟨.error, "m", none⟩] [] (by simp [Harmless])

/-- A screen with two diagnostics. -/
example : App.screen { selecting := false, file := "a", view := { collected :=
      [⟨.error, "m", some (0, ⟨3, 4⟩)⟩, ⟨.warning, "n", none⟩] } } =
    [[.selected "a"], [.category, .level "error", .message "m", .location 3 4],
     [.category, .level "warning", .message "n"], [.busy]] := rfl

end Verif.CliValidate
