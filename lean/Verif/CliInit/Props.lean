import Verif.CliInit.Model

/-!
# C173: `init` uses the language that the user chose
-/

namespace Verif.CliInit

/-! ## Specification -/

namespace Spec

/-- The languages and their names, in the order of the list. -/
def languages : List (String × String) :=
  [("nodejs", "Node.js"), ("python", "Python"), ("java", "Java"), ("dotnet", ".NET"), ("go", "Go"),
    ("rust", "Rust")]

/-- A message with which the user is not done: not one of the keys that end the program, by themselves
or through the list. -/
def Stays (w : Widget) (msg : Msg) : Prop :=
  msg ≠ .key "enter" ∧ msg ≠ .key "esc" ∧ msg ≠ .key "ctrl+c" ∧
    ∀ c, (∀ n, msg ≠ .windowSize n) → (w.update msg c).2 = false

/-- The cursor of the list after some messages. -/
def cursor (w : Widget) : Nat → List Msg → Nat
  | c, [] => c
  | c, .windowSize n :: rest => cursor w (w.setWidth n c) rest
  | c, msg :: rest => cursor w (w.update msg c).1 rest

/-- The language under the cursor. -/
def pointed (w : Widget) (msgs : List Msg) : Option String :=
  (languages[cursor w 0 msgs]?).map (·.1)

end Spec

open Spec

/-- C173 in full, for a list widget. Who names a language is not asked: the command is done with that
language without any input. Who does not name one is asked, and the language is the one that is
pointed at when the enter key is pressed; whoever leaves otherwise has chosen none. -/
def FullInit (w : Widget) : Prop :=
  (∀ language ∈ languages.map (·.1), ∀ msgs,
    ∃ m, command w language msgs = .ok (m, true) ∧ m.choice = language) ∧
  (∀ before after, (∀ x ∈ before, Stays w x) → ∀ language, pointed w before = some language →
    ∃ m, command w "" (before ++ .key "enter" :: after) = .ok (m, true) ∧ m.choice = language) ∧
  (∀ before after, (∀ x ∈ before, Stays w x) →
    ∃ m, command w "" (before ++ .key "esc" :: after) = .ok (m, true) ∧ m.choice = "")

/-! ## A language that was named is asked for again -/

/-- What is accepted. -/
theorem validate_named (language : String) (h : language ∈ languages.map (·.1) ∨ language = "") :
    CliConfig.validateLanguage language = .ok () := by
  unfold CliConfig.validateLanguage
  split
  · rfl
  · rename_i hn
    exact if_pos (h.resolve_right hn)

/-- Whoever names a language has to press a key nevertheless. The screen says that the language was
chosen. -/
theorem waits (w : Widget) (language : String) (h : language ∈ languages.map (·.1)) :
    ∃ m, command w language [] = .ok (m, false) ∧ view m = .soundsGood language := by
  refine ⟨newInitApp language, ?_, ?_⟩
  · rw [command, validate_named language (.inl h)]
    rfl
  · have hn : language ≠ "" := by
      rintro rfl
      revert h
      decide
    exact if_pos hn

/-- If that is the enter key, the first language of the list replaces the one that was named. -/
theorem replaced (w : Widget) (language : String) (h : language ∈ languages.map (·.1))
    (after : List Msg) :
    ∃ m, command w language (.key "enter" :: after) = .ok (m, true) ∧ m.choice = "nodejs" := by
  refine ⟨⟨0, "nodejs", false⟩, ?_, rfl⟩
  rw [command, validate_named language (.inl h)]
  rfl

/-- C173 is false whatever the list widget does. -/
theorem init_violated (w : Widget) : ¬ FullInit w := by
  rintro ⟨h, -, -⟩
  obtain ⟨m, h1, -⟩ := h "rust" (by decide) []
  obtain ⟨m', h2, -⟩ := waits w "rust" (by decide)
  rw [h2] at h1
  cases h1

/-! ## The choice -/

/-- A message with which the user is not done moves the cursor only. -/
theorem update_stays (w : Widget) (m : Model) (msg : Msg) (h : Stays w msg) :
    update w m msg = ({ m with cursor := cursor w m.cursor [msg] }, false) := by
  obtain ⟨h1, h2, h3, h4⟩ := h
  cases msg with
  | windowSize n => rfl
  | other name =>
    have := h4 m.cursor nofun
    rw [update]
    · show _ = (({ m with cursor := (w.update (.other name) m.cursor).1 } : Model), false)
      rw [← this]
    all_goals nofun
  | key name =>
    have := h4 m.cursor nofun
    rw [update]
    · show _ = (({ m with cursor := (w.update (.key name) m.cursor).1 } : Model), false)
      rw [← this]
    · nofun
    · intro e; exact h3 e
    · intro e; exact h2 e
    · intro e; exact h1 e

theorem cursor_cons (w : Widget) (c : Nat) (msg : Msg) (rest : List Msg) :
    cursor w c (msg :: rest) = cursor w (cursor w c [msg]) rest := by
  cases msg <;> rfl

theorem run_stays (w : Widget) (m : Model) (before after : List Msg) (h : ∀ x ∈ before, Stays w x) :
    run w m (before ++ after) = run w { m with cursor := cursor w m.cursor before } after := by
  induction before generalizing m with
  | nil => rfl
  | cons msg rest ih =>
    rw [List.cons_append, run, update_stays w m msg (h msg List.mem_cons_self)]
    show run w _ (rest ++ after) = _
    rw [ih _ fun x hx => h x (List.mem_cons_of_mem _ hx), cursor_cons w m.cursor msg rest]

/-- The list offers the languages that are supported, each once, by their names. -/
theorem offered :
    items.map (fun i => (i.key, i.label)) = languages ∧
      items.map (·.key) = CliConfig.supportedLanguages ∧ (items.map (·.key)).Nodup := by
  decide

/-- C173, what holds. Whoever names no language is asked, with the cursor at the first language, and
until a key ends the program; the choice is the language that the cursor is at when the enter key is
pressed, and none after `esc` or `ctrl+c`. Whoever named a language and ends the program with one of
these keeps it. Missing: that the program ends by itself, and the enter key, for those who named one. -/
theorem init_partial (w : Widget) (before after : List Msg) (h : ∀ x ∈ before, Stays w x) :
    (∃ m, command w "" before = .ok (m, false) ∧ view m = .list (cursor w 0 before)) ∧
    (∀ language, pointed w before = some language → ∃ m,
      command w "" (before ++ .key "enter" :: after) = .ok (m, true) ∧ m.choice = language ∧
        view m = .soundsGood language) ∧
    (∀ name, name = "esc" ∨ name = "ctrl+c" → ∀ language,
      language ∈ languages.map (·.1) ∨ language = "" → ∃ m,
        command w language (before ++ .key name :: after) = .ok (m, true) ∧ m.choice = language ∧
          view m = if language = "" then .leaving else .soundsGood language) := by
  refine ⟨?_, ?_, ?_⟩
  · refine ⟨⟨cursor w 0 before, "", false⟩, ?_, rfl⟩
    rw [command, validate_named "" (.inr rfl)]
    have := run_stays w (newInitApp "") before [] h
    rw [List.append_nil] at this
    show Except.ok (run w (newInitApp "") before) = _
    rw [this]
    rfl
  · intro language hl
    have hm : language ∈ languages.map (·.1) := by
      obtain ⟨x, hx, rfl⟩ := Option.map_eq_some_iff.1 hl
      exact List.mem_map_of_mem (List.mem_of_getElem? hx)
    have hn : language ≠ "" := by
      rintro rfl
      revert hm
      decide
    refine ⟨⟨cursor w 0 before, language, false⟩, ?_, rfl, if_pos hn⟩
    rw [command, validate_named "" (.inr rfl)]
    show Except.ok (run w (newInitApp "") _) = _
    rw [run_stays w (newInitApp "") before _ h]
    have hs : selected ⟨cursor w 0 before, "", false⟩ = (items[cursor w 0 before]?) := rfl
    have hk : (items[cursor w 0 before]?).map (·.key) = some language := by
      rw [← hl, pointed, ← offered.1, List.getElem?_map, Option.map_map]
      rfl
    obtain ⟨i, hi, rfl⟩ := Option.map_eq_some_iff.1 hk
    rw [run, update]
    show Except.ok (match (match selected ⟨cursor w 0 before, "", false⟩ with
      | some i => (({ (⟨cursor w 0 before, "", false⟩ : Model) with choice := i.key } : Model), true)
      | none => (⟨cursor w 0 before, "", false⟩, true)) with
      | (m', true) => (m', true)
      | (m', false) => run w m' after) = _
    rw [hs, hi]
  · intro name hname language hl
    refine ⟨⟨cursor w 0 before, language, true⟩, ?_, rfl, ?_⟩
    · rw [command, validate_named language hl]
      show Except.ok (run w (newInitApp language) _) = _
      rw [run_stays w (newInitApp language) before _ h]
      rcases hname with rfl | rfl <;> rfl
    · by_cases he : language = ""
      · subst he
        rfl
      · rw [if_neg he]
        exact if_pos he

/-- What the command ends with, and what is shown until then, is a supported language or none,
whatever the terminal and the list do. -/
theorem choice_supported (w : Widget) (language : String) (msgs : List Msg) (r : Model × Bool)
    (h : command w language msgs = .ok r) : r.1.choice = "" ∨ r.1.choice ∈ languages.map (·.1) := by
  have hu : ∀ (m : Model) (msg : Msg), m.choice = "" ∨ m.choice ∈ languages.map (·.1) →
      (update w m msg).1.choice = "" ∨ (update w m msg).1.choice ∈ languages.map (·.1) := by
    intro m msg hm
    rw [update.eq_def]
    split
    · exact hm
    · exact hm
    · exact hm
    · split
      · rename_i i hi
        right
        have : i ∈ items := List.mem_of_getElem? hi
        have e : languages.map (·.1) = items.map (·.key) := by decide
        rw [e]
        exact List.mem_map_of_mem this
      · exact hm
    · exact hm
  have hr : ∀ (msgs : List Msg) (m : Model), m.choice = "" ∨ m.choice ∈ languages.map (·.1) →
      (run w m msgs).1.choice = "" ∨ (run w m msgs).1.choice ∈ languages.map (·.1) := by
    intro msgs
    induction msgs with
    | nil => exact fun m hm => hm
    | cons msg rest ih =>
      intro m hm
      have := hu m msg hm
      rw [run]
      split
      · rename_i m' hm'
        rw [hm'] at this
        exact this
      · rename_i m' hm'
        rw [hm'] at this
        exact ih m' this
  rw [command] at h
  split at h
  · cases h
  · rename_i hv
    injection h with h
    subst h
    refine hr msgs (newInitApp language) ?_
    unfold CliConfig.validateLanguage at hv
    split at hv
    · rename_i he
      exact .inl he
    · split at hv
      · rename_i hm
        exact .inr hm
      · cases hv

/-- A widget that moves the cursor down with `j`, and ends the program with `q`. -/
def exampleWidget : Widget where
  setWidth _ c := c
  update
    | .key "j", c => (if c < 5 then c + 1 else c, false)
    | .key "q", c => (c, true)
    | _, c => (c, false)

/-- Two steps down and enter. -/
example : pointed exampleWidget [.windowSize 80, .key "j", .key "j"] = some "java" ∧
    (run exampleWidget (newInitApp "") [.windowSize 80, .key "j", .key "j", .key "enter"]).1.choice =
      "java" := by
  decide

/-- These messages are such that the user is not done. -/
example : ∀ x ∈ [Msg.windowSize 80, .key "j", .key "j"], Stays exampleWidget x := by
  intro x hx
  simp only [List.mem_cons, List.not_mem_nil, or_false] at hx
  rcases hx with rfl | rfl | rfl
  · exact ⟨nofun, nofun, nofun, fun c h => absurd rfl (h 80)⟩
  · exact ⟨by decide, by decide, by decide, fun c _ => rfl⟩
  · exact ⟨by decide, by decide, by decide, fun c _ => rfl⟩

end Verif.CliInit
