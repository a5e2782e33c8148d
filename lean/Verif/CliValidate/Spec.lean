import Verif.CliValidate.Model

/-!
# Specification of the `validate` command
-/

namespace Verif.CliValidate.Spec

/-- A signal that does not end the command. -/
def Harmless {ε : Type} : Signal ε → Prop
  | .event _ => True
  | .err none => True
  | _ => False

/-- The signals that end the command, with the result. -/
inductive Ends {ε : Type} : Signal ε → Except Err Unit → Prop
  | done : Ends .done (.error .cancelled)
  | err (e) : Ends (.err (some e)) (.error e)
  | closed : Ends .closed (.ok ())

/-- The events among signals, in order. -/
def eventsOf {ε : Type} : List (Signal ε) → List ε
  | [] => []
  | .event e :: rest => e :: eventsOf rest
  | _ :: rest => eventsOf rest

/-- An error as the user sees it when no validation could be requested: a missing authentication
method is explained, everything else is passed on. -/
inductive Explained : Err → Err → Prop
  | auth (t) : Explained (.authPrep t) .noAuthMethod
  | other (e) : (∀ t, e ≠ .authPrep t) → Explained e e

/-- A file name as a path: absolute or relative to a directory. -/
def absolute (cwd file : List Char) : List Char :=
  match file with
  | '/' :: _ => file
  | _ => cwd ++ '/' :: file

/-- The file a document info designates: its file name, in its directory unless it is absolute. -/
def designated (d : DocInfo) : List Char :=
  match d.file.toList with
  | '/' :: rest => '/' :: rest
  | rel => if d.directory = "/" then '/' :: rel else d.directory.toList ++ '/' :: rel

/-- A document info is for a file of the machine. -/
def LocalFile (d : DocInfo) (path : List Char) : Prop := d.scheme = "file" ∧ designated d = path

/-- The results among messages. -/
def results {ε : Type} : List (Msg ε) → List ε
  | [] => []
  | .result (some e) :: rest => e :: results rest
  | _ :: rest => results rest

end Verif.CliValidate.Spec
