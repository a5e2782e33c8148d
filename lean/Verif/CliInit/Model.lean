import Verif.CliConfig.Model

/-!
# Model of the `init` command of the CLI

`apps/cli/internal/tui/initui/tui.go` and `apps/cli/cmd/commands/init.go` 26-35. The list widget is a
parameter: where a message moves the cursor, and whether the widget ends the program itself (it does
for `q`). Styles are left out. `init` does nothing with the model that the program ends with
(`init.go` 33).
-/

namespace Verif.CliInit

/-- A message of the terminal: its new width, a key by its name, or another one. -/
inductive Msg where
  | windowSize (width : Nat)
  | key (name : String)
  | other (name : String)
  deriving Repr, DecidableEq

/-- `item` (`tui.go` 25-28). -/
structure Item where
  key : String
  label : String
  deriving Repr, DecidableEq

/-- The items of the list (`tui.go` 110-135), with the constants of `consts.go` 3-28. -/
def items : List Item :=
  [⟨"nodejs", "Node.js"⟩, ⟨"python", "Python"⟩, ⟨"java", "Java"⟩, ⟨"dotnet", ".NET"⟩, ⟨"go", "Go"⟩,
    ⟨"rust", "Rust"⟩]

/-- The list widget: `SetWidth` and `Update`, as changes of the cursor; the second also tells whether the
command it returns ends the program. -/
structure Widget where
  setWidth : Nat → Nat → Nat
  update : Msg → Nat → Nat × Bool

/-- `InitModel` (`tui.go` 66-70). -/
structure Model where
  cursor : Nat
  choice : String
  quitting : Bool
  deriving Repr, DecidableEq

/-- `SelectedItem` of the list and the type assertion (`tui.go` 87). -/
def selected (m : Model) : Option Item := items[m.cursor]?

/-- `Update` (`tui.go` 76-97); the second part tells whether the program ends. -/
def update (w : Widget) (m : Model) : Msg → Model × Bool
  | .windowSize width => ({ m with cursor := w.setWidth width m.cursor }, false)
  | .key "ctrl+c" => ({ m with quitting := true }, true)
  | .key "esc" => ({ m with quitting := true }, true)
  | .key "enter" =>
    match selected m with
    | some i => ({ m with choice := i.key }, true)
    | none => (m, true)
  | msg =>
    let r := w.update msg m.cursor
    ({ m with cursor := r.1 }, r.2)

/-- What is on the screen: the list with its cursor, the text for a choice, or that for leaving. -/
inductive Screen where
  | list (cursor : Nat)
  | soundsGood (choice : String)
  | leaving
  deriving Repr, DecidableEq

/-- `View` (`tui.go` 99-107). -/
def view (m : Model) : Screen :=
  if m.choice ≠ "" then .soundsGood m.choice
  else if m.quitting then .leaving
  else .list m.cursor

/-- `NewInitApp` (`tui.go` 109-150). -/
def newInitApp (language : String) : Model := ⟨0, language, false⟩

/-- The program: it takes messages until one of them ends it. `Init` has no command (`tui.go` 72-74).
The second part tells whether it has ended. -/
def run (w : Widget) : Model → List Msg → Model × Bool
  | m, [] => (m, false)
  | m, msg :: rest =>
    match update w m msg with
    | (m', true) => (m', true)
    | (m', false) => run w m' rest

/-- `RunE` of the command (`init.go` 26-35), given the language of the settings and what the terminal
sends: an error, or the model after that and whether the program has ended. -/
def command (w : Widget) (language : String) (msgs : List Msg) :
    Except CliConfig.CliError (Model × Bool) :=
  match CliConfig.validateLanguage language with
  | .error e => .error e
  | .ok () => .ok (run w (newInitApp language) msgs)

end Verif.CliInit
