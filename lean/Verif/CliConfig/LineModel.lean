import Verif.CliConfig.Model

/-!
# Model of the command line of the CLI

Source: `/repo/apps/cli/cmd/commands/root.go`, and `init.go`, `validate.go` and `version.go` beside it.

A command line is taken as already split: flags with their values, of which the short forms are
expanded, and the name of a command. Of the `cobra` library this is modelled: the flags a command knows
are its own, the persistent ones of itself and of its parents, and `help`; an unknown flag is an error;
flags before the name of the command are parsed like those after it; a command that has nothing to run
shows its help text, and the hooks are not called. The `completion` and `help` commands which the
library adds are left out.
-/

namespace Verif.CliConfig

/-- A command line: the flags in order and the command. -/
structure Line where
  flags : List (String × String)
  command : Option Cmd

/-- `rootCmd.PersistentFlags()`: root.go lines 52-88. -/
def persistentFlags : List String :=
  ["deploy-config-file", "connect-protocol", "engine-endpoint", "skip-plugin-config-validation"]

/-- The flags of a command itself: those of the root command are in root.go lines 44-50, those of the
others in init.go lines 38-43 and validate.go lines 80-85. -/
def ownFlags : Option Cmd → List String
  | none => ["config"]
  | some .version => []
  | some .init => ["language"]
  | some .validate => ["blueprint-file"]

/-- The flags a command knows. -/
def knownFlags (c : Option Cmd) : List String := "help" :: ownFlags c ++ persistentFlags

/-- The one flag that is not text: root.go lines 84-88. -/
def valueOk (flag value : String) : Bool :=
  if flag = "skip-plugin-config-validation" then (parseBool value).isSome else true

/-- The text that `flag.Value.String()` gives for a value. -/
def shownValue (flag value : String) : String :=
  if flag = "skip-plugin-config-validation" then
    (if parseBool value = some true then "true" else "false")
  else value

/-- The value of a flag: the last one given. -/
def given (flags : List (String × String)) (name : String) : Option String :=
  (flags.reverse.lookup name).map (shownValue name)

/-- What comes of a command line. -/
inductive LineResult
  | help
  | unknownFlag
  | badValue
  | result (r : Except CliError Effect)

/-- `rootCmd.Execute()`. The variable `configFile` keeps its default unless the flag was parsed:
root.go lines 15 and 44-50. -/
def runLine (w : World) (l : Line) : LineResult :=
  if l.flags.all (fun f => (knownFlags l.command).contains f.1) then
    if l.flags.all (fun f => valueOk f.1 f.2) then
      if (given l.flags "help").isSome then .help
      else
        match l.command with
        | none => .help
        | some c =>
          .result (runCmd w (cliProvider (given l.flags))
            ((given l.flags "config").getD "celerity.config.toml") c)
    else .badValue
  else .unknownFlag

end Verif.CliConfig
