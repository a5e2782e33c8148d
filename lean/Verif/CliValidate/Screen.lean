import Verif.CliValidate.Model

/-!
# Model of what the `validate` command shows

`View` of `apps/cli/internal/tui/validateui/validate_model.go` and `tui.go`, and the lines printed
by `apps/cli/internal/handlers/validate.go`. Colours, margins and widths are not modelled, nor is
the widget for choosing a file. The type of diagnostics belongs to a library; here it has the parts
the CLI looks at.
-/

namespace Verif.CliValidate

/-- A level of `bpcore.DiagnosticLevel`, or another number. -/
inductive Level
  | error | warning | info
  | other (n : Nat)
  deriving DecidableEq, Repr

/-- The start of a `bpcore.DiagnosticRange`. -/
structure Start where
  line : Int
  column : Int
  deriving DecidableEq, Repr

/-- A diagnostic. The range is a pointer (`hasPreciseRange`, `validate_model.go` 181-183): an
address, and what is there. -/
structure Diag where
  level : Level
  message : String
  range : Option (Nat × Start)
  deriving DecidableEq, Repr

/-- Parts of an item on the screen. -/
inductive Part
  | category
  | level (name : String)
  | message (text : String)
  | location (line column : Int)
  | error (e : Err)
  | busy
  | selected (file : String)
  | chooser
  | goodbye
  deriving DecidableEq, Repr

/-- `diagnosticLevelName` (`validate_model.go` 168-179). -/
def levelName : Level → String
  | .error => "error"
  | .warning => "warning"
  | .info => "info"
  | .other _ => "unknown"

/-- `hasPreciseRange` (`validate_model.go` 181-183). -/
def hasPreciseRange : Option (Nat × Start) → Bool
  | none => false
  | some (_, s) => decide (s.line > 0) && decide (s.column > 0)

/-- The location (`validate_model.go` 137-143). -/
def locationParts (d : Diag) : List Part :=
  match d.range with
  | some (a, s) => if hasPreciseRange (some (a, s)) then [.location s.line s.column] else []
  | none => []

/-- One diagnostic on the screen (`validate_model.go` 113-146). -/
def showDiag (d : Diag) : List Part :=
  [.category] ++
  (match d.level with
   | .error | .warning | .info => [.level (levelName d.level)]
   | .other _ => []) ++
  [.message d.message] ++ locationParts d

/-- `resultToPlainText` (`validate_model.go` 196-207): what the list is filtered by. -/
def plainText (d : Diag) : List Part :=
  [.category, .level (levelName d.level), .message d.message] ++ locationParts d

/-- `ValidateModel.View` (`validate_model.go` 104-152) and `renderError` (209-214). -/
def View.screen (v : View Diag) : List (List Part) :=
  match v.err with
  | some e => [[.error e]]
  | none => v.collected.map showDiag ++ (if v.finished then [] else [[.busy]])

/-- `MainModel.View` (`tui.go` 112-121). -/
def App.screen (a : App Diag) : List (List Part) :=
  if a.quitting then [[.goodbye]]
  else if a.selecting then [[.chooser]]
  else [.selected a.file] :: a.view.screen

/-- A diagnostic printed by `Received event: %+v` (`validate.go` 59): fields are printed, but of a
pointer inside a struct only the address. -/
structure Printed where
  level : Level
  message : String
  range : Option Nat
  deriving DecidableEq, Repr

/-- The verb `%+v` of a diagnostic. -/
def printDiag (d : Diag) : Printed := ⟨d.level, d.message, d.range.map (·.1)⟩

/-- A line of the output of the handler as text (`validate.go` 22, 56, 59). -/
def printLine : Line Diag → Line Printed
  | .validating f => .validating f
  | .received d => .received (printDiag d)
  | .streamClosed => .streamClosed

end Verif.CliValidate
