import Verif.Base

/-!
# Model of the `validate` command of the CLI

`apps/cli/internal/handlers/validate.go`, `apps/cli/internal/engine/errors.go` and
`apps/cli/internal/tui/validateui/*.go`. The deploy engine is a parameter: it answers the request for
a validation and then sends events and errors. What is shown is in `Screen.lean`; the list widget,
the spinner, window sizes and the log are not modelled.
-/

namespace Verif.CliValidate

/-- An error of the engine's client: one that `errors.As` recognises as `AuthPrepError`, or
another. -/
inductive Err
  | authPrep (text : String)
  | other (text : String)
  /-- The replacement text of `SimplifyError`. -/
  | noAuthMethod
  /-- `ctx.Err()`. -/
  | cancelled
  deriving DecidableEq, Repr

/-- `SimplifyError` (`errors.go` 16-26). -/
def simplifyError : Err → Err
  | .authPrep _ => .noAuthMethod
  | e => e

/-- `BlueprintDocumentInfo`, the fields that are set. -/
structure DocInfo where
  scheme : String
  directory : String
  file : String
  deriving DecidableEq, Repr

/-! ## Without a terminal -/

/-- What `select` finds ready in one iteration (`validate.go` 46-61). -/
inductive Signal (ε : Type)
  | done
  | err (e : Option Err)
  | event (e : ε)
  | closed
  deriving DecidableEq, Repr

/-- A line of output. -/
inductive Line (ε : Type)
  | validating (file : String)
  | received (e : ε)
  | streamClosed
  deriving DecidableEq, Repr

/-- The loop (`validate.go` 45-62): the output and, once it has returned, the result. -/
def loop {ε : Type} : List (Signal ε) → List (Line ε) × Option (Except Err Unit)
  | [] => ([], none)
  | .done :: _ => ([], some (.error .cancelled))
  | .err (some e) :: _ => ([], some (.error e))
  | .err none :: rest => loop rest
  | .closed :: _ => ([.streamClosed], some (.ok ()))
  | .event e :: rest => let (out, r) := loop rest; (.received e :: out, r)

/-- The engine's answers to the request for a validation and for its stream. -/
structure Answers where
  create : Except Err Unit
  stream : Except Err Unit

/-- What the handler sends to the engine (`validate.go` 24-30): an empty document. -/
def handlerRequest (_file : String) : DocInfo := ⟨"", "", ""⟩

/-- The handler (`validate.go` 21-63). -/
def handle {ε : Type} (file : String) (a : Answers) (sigs : List (Signal ε)) :
    List (Line ε) × Option (Except Err Unit) :=
  match a.create with
  | .error e => ([.validating file], some (.error (simplifyError e)))
  | .ok _ =>
    match a.stream with
    | .error e => ([.validating file], some (.error e))
    | .ok _ => let (out, r) := loop sigs; (.validating file :: out, r)

/-! ## In a terminal -/

/-- Messages of the program. -/
inductive Msg (ε : Type)
  | select (file : String)
  | clear
  | result (e : Option ε)
  | err (e : Option Err)
  /-- Ctrl-C or Esc. -/
  | interrupt
  deriving DecidableEq, Repr

/-- Commands, which run concurrently and each send one message. -/
inductive Cmd
  | select (file : String)
  | clear
  | start (file : String)
  | wait
  | check
  | quit
  deriving DecidableEq, Repr

/-- `ValidateModel` (`validate_model.go` 44-57). -/
structure View (ε : Type) where
  file : String := ""
  collected : List ε := []
  streaming : Bool := false
  err : Option Err := none
  finished : Bool := false

/-- `ValidateModel.Update` (`validate_model.go` 63-102). -/
def View.update {ε : Type} (v : View ε) : Msg ε → View ε × List Cmd
  | .select f => ({ v with file := f, streaming := true },
      if v.streaming then [] else [.start f, .wait, .check])
  | .result none => ({ v with finished := true }, [.quit])
  | .result (some e) => ({ v with collected := v.collected ++ [e] }, [.wait, .check])
  | .err (some e) => ({ v with err := some e }, [.quit])
  | .err none => (v, [])
  | .clear => (v, [])
  | .interrupt => (v, [])

/-- `MainModel` (`tui.go` 42-50); `selecting` is the session state `validateBlueprintSelect`. -/
structure App (ε : Type) where
  selecting : Bool
  file : String
  quitting : Bool := false
  view : View ε := {}
  error : Option Err := none

/-- The last part of `MainModel.Update` (`tui.go` 88-109) for the model after the first part. The
model for choosing a file ignores these messages; its own keys are steps of the world below. -/
def App.delegate {ε : Type} (a : App ε) (m : Msg ε) (cmds : List Cmd) : App ε × List Cmd :=
  if a.selecting then (a, cmds)
  else
    let (v, c) := a.view.update m
    ({ a with view := v, error := v.err.or a.error }, cmds ++ c)

/-- `MainModel.Update` (`tui.go` 58-110). -/
def App.update {ε : Type} (a : App ε) (m : Msg ε) : App ε × List Cmd :=
  match m with
  | .select f =>
    let (v, c) := a.view.update m
    App.delegate { a with selecting := false, file := f, view := v } m c
  | .clear => App.delegate { a with selecting := true, file := "" } m []
  | .interrupt => ({ a with quitting := true }, [.quit])
  | _ => a.delegate m []

/-- The document the interactive mode asks the engine to validate (`commands.go` 32-43). -/
def interactiveRequest (file : String) : DocInfo := ⟨"file", "/", file⟩

/-- The program with its commands and messages in flight, and the engine. -/
structure World (ε : Type) where
  app : App ε
  pending : List Cmd
  inbox : List (Msg ε)
  /-- Files for which a validation was requested. -/
  requests : List String
  /-- Whether the engine streams. -/
  streams : Bool
  /-- Events taken from the stream so far, and those still to come. -/
  taken : List ε
  todo : List ε
  /-- Whether the engine closes the stream after its last event. -/
  closes : Bool
  /-- How often the closed stream was read. -/
  closedReads : Nat
  /-- Errors the engine is going to report. -/
  errs : List Err
  /-- Whether a message that clears the selection was delivered. -/
  cleared : Bool
  /-- Whether the program has ended. -/
  done : Bool

/-- `NewValidateApp` and `Init` (`tui.go` 51-55, 123-148; `select_blueprint_local_file.go` 73-81). -/
def World.init {ε : Type} (file : String) (isDefault : Bool) (events : List ε) (closes : Bool)
    (errs : List Err) : World ε where
  app := { selecting := !(file ≠ "" && !isDefault), file := file }
  pending := if file ≠ "" && !isDefault then [.select file] else []
  inbox := []
  requests := []
  streams := false
  taken := []
  todo := events
  closes := closes
  closedReads := 0
  errs := errs
  cleared := false
  done := false

/-- One step. Any pending command may finish next and any message in flight may be delivered next.
`Default` gives the zero value of an event: what a closed channel yields (`commands.go` 62-67). -/
inductive Step {ε : Type} [Inhabited ε] : World ε → World ε → Prop
  /-- The user picks a file (`select_blueprint_local_file.go` 120-125). -/
  | pick (w f) : w.done = false → w.app.selecting = true →
      Step w { w with pending := .select f :: w.pending }
  /-- The user picks a file of another type (lines 127-134). -/
  | pickDisabled (w) : w.done = false → w.app.selecting = true →
      Step w { w with pending := .clear :: w.pending }
  | interrupt (w) : w.done = false → Step w { w with inbox := .interrupt :: w.inbox }
  | runSelect (w p q f) : w.pending = p ++ .select f :: q →
      Step w { w with pending := p ++ q, inbox := .select f :: w.inbox }
  | runClear (w p q) : w.pending = p ++ .clear :: q →
      Step w { w with pending := p ++ q, inbox := .clear :: w.inbox }
  /-- `startValidateStreamCmd` (`commands.go` 30-60), success. -/
  | startOk (w p q f) : w.pending = p ++ .start f :: q →
      Step w { w with pending := p ++ q, requests := w.requests ++ [f], streams := true }
  /-- The same, the engine refuses the validation. -/
  | startErr (w p q f e) : w.pending = p ++ .start f :: q →
      Step w { w with pending := p ++ q, requests := w.requests ++ [f],
                      inbox := .err (some (simplifyError e)) :: w.inbox }
  /-- `waitForNextResultCmd` (`commands.go` 62-67) receives an event. -/
  | waitEvent (w p q e t) : w.pending = p ++ .wait :: q → w.streams = true → w.todo = e :: t →
      Step w { w with pending := p ++ q, taken := w.taken ++ [e], todo := t,
                      inbox := .result (some e) :: w.inbox }
  /-- The same on the closed stream. -/
  | waitClosed (w p q) : w.pending = p ++ .wait :: q → w.streams = true → w.todo = [] →
      w.closes = true →
      Step w { w with pending := p ++ q, closedReads := w.closedReads + 1,
                      inbox := .result (some default) :: w.inbox }
  /-- `checkForErrCmd` (`commands.go` 69-80) gives up after a second. -/
  | checkTimeout (w p q) : w.pending = p ++ .check :: q →
      Step w { w with pending := p ++ q, inbox := .err none :: w.inbox }
  /-- The same, receiving an error. -/
  | checkErr (w p q e t) : w.pending = p ++ .check :: q → w.streams = true → w.errs = e :: t →
      Step w { w with pending := p ++ q, errs := t, inbox := .err (some e) :: w.inbox }
  | runQuit (w p q) : w.pending = p ++ .quit :: q → Step w { w with pending := p ++ q, done := true }
  | deliver (w p q m) : w.done = false → w.inbox = p ++ m :: q →
      Step w { w with app := (w.app.update m).1, pending := w.pending ++ (w.app.update m).2,
                      inbox := p ++ q, cleared := w.cleared || (match m with | .clear => true | _ => false) }

/-- Worlds that are reached from a start. -/
inductive Reach {ε : Type} [Inhabited ε] (file : String) (isDefault : Bool) (events : List ε)
    (closes : Bool) (errs : List Err) : World ε → Prop
  | init : Reach file isDefault events closes errs (World.init file isDefault events closes errs)
  | step {w w'} : Reach file isDefault events closes errs w → Step w w' →
      Reach file isDefault events closes errs w'

/-- What the command returns at the end (`cmd/commands/validate.go` 67-76). -/
def World.exit {ε : Type} (w : World ε) : Option Err := w.app.error

end Verif.CliValidate
