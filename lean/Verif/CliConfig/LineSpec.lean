import Verif.CliConfig.LineModel
import Verif.CliConfig.Spec

/-!
# Specification: what a command line asks for
-/

namespace Verif.CliConfig.Spec

open Verif.CliConfig

/-- The last value given for a flag. -/
def LastValue (flags : List (String × String)) (name value : String) : Prop :=
  ∃ before after, flags = before ++ (name, value) :: after ∧ ∀ v, (name, v) ∉ after

/-- The flag is not given. -/
def NotGiven (flags : List (String × String)) (name : String) : Prop := ∀ v, (name, v) ∉ flags

/-- The config file of a command line: the one named, or the one in the working directory. -/
def ConfigFile (l : Line) (path : String) : Prop :=
  LastValue l.flags "config" path ∨ NotGiven l.flags "config" ∧ path = "celerity.config.toml"

/-- The flags that the help texts list: those of a command, and of the CLI itself, where `--config`
is said to name the file "to source config from as an alternative to flags" (root.go line 49). -/
def documentedFlags : Cmd → List String
  | .version => ["config", "deploy-config-file", "connect-protocol", "engine-endpoint"]
  | .init => ["config", "deploy-config-file", "connect-protocol", "engine-endpoint", "language"]
  | .validate =>
    ["config", "deploy-config-file", "connect-protocol", "engine-endpoint", "blueprint-file"]

end Verif.CliConfig.Spec
