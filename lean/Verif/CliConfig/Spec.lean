import Verif.CliConfig.Model

/-!
# Specification of the CLI's configuration
-/

namespace Verif.CliConfig.Spec

open Verif.CliConfig

/-- The characters that Unicode calls white space. -/
def whiteSpace : List Nat :=
  [0x09, 0x0A, 0x0B, 0x0C, 0x0D, 0x20, 0x85, 0xA0, 0x1680, 0x2000, 0x2001, 0x2002, 0x2003, 0x2004,
    0x2005, 0x2006, 0x2007, 0x2008, 0x2009, 0x200A, 0x2028, 0x2029, 0x202F, 0x205F, 0x3000]

/-- A text with nothing but white space. -/
def Blank (s : String) : Prop := ∀ c ∈ s.toList, c.toNat ∈ whiteSpace

/-- Where the effective value of a setting comes from. -/
inductive Source
  | flag | environment | file | default
  deriving DecidableEq, Repr

/-- The documented precedence (`provider.go` 22-27) as a relation between the sources of a setting,
the effective value and where it is taken from. `flag` is the flag bound to the setting, `env` the
content of its environment variable, `file` the entry of the config file. -/
inductive Effective (flag : Option Flag) (env file : Option String) : String → Source → Prop
  | flag (f : Flag) : flag = some f → f.changed = true → ¬ Blank f.value →
      Effective flag env file f.value .flag
  | environment (v : String) : (∀ f, flag = some f → f.changed = true → Blank f.value) →
      env = some v → ¬ Blank v → Effective flag env file v .environment
  | file (v : String) : (∀ f, flag = some f → f.changed = true → Blank f.value) →
      (∀ v, env = some v → Blank v) → file = some v → Effective flag env file v .file
  | default (v : String) : (∀ f, flag = some f → f.changed = true → Blank f.value) →
      (∀ v, env = some v → Blank v) → file = none →
      (match flag with | some f => v = f.defValue | none => v = "") →
      Effective flag env file v .default

/-- Which texts denote which integers in decimal. -/
def IntText (s : String) (n : Int) : Prop :=
  ∃ sign ds, s.toList = sign ++ ds ∧ ds ≠ [] ∧ (∀ d ∈ ds, d.isDigit = true) ∧
    ((sign = [] ∨ sign = ['+']) ∧ n = (Nat.ofDigitChars 10 ds 0 : Nat) ∨
      sign = ['-'] ∧ n = -((Nat.ofDigitChars 10 ds 0 : Nat) : Int))

/-- Which texts denote which natural numbers in decimal without a sign. -/
def NatText (s : String) (n : Nat) : Prop :=
  s.toList ≠ [] ∧ (∀ d ∈ s.toList, d.isDigit = true) ∧ n = Nat.ofDigitChars 10 s.toList 0

/-- A file name with an extension. -/
def HasExt (path : String) (exts : List String) : Prop :=
  ∃ base, ∃ e ∈ exts, path.toList = base ++ e.toList

/-- A setting: the name in the config file, the flag, the value that the help text shows as default,
and the environment variable. -/
structure Setting where
  name : String
  flag : String
  dflt : String
  envVar : String

/-- The settings of the CLI. -/
def settings : List Setting :=
  [⟨"deployConfigFile", "deploy-config-file", "celerity.deploy.json",
      "CELERITY_CLI_DEPLOY_CONFIG_FILE"⟩,
    ⟨"connectProtocol", "connect-protocol", "unix", "CELERITY_CLI_CONNECT_PROTOCOL"⟩,
    ⟨"engineEndpoint", "engine-endpoint", "http://localhost:8325", "CELERITY_CLI_ENGINE_ENDPOINT"⟩,
    ⟨"skipPluginConfigValidation", "skip-plugin-config-validation", "false",
      "CELERITY_CLI_SKIP_PLUGIN_CONFIG_VALIDATION"⟩,
    ⟨"initLanguage", "language", "", "CELERITY_CLI_INIT_LANGUAGE"⟩,
    ⟨"validateBlueprintFile", "blueprint-file", "app.blueprint.yaml",
      "CELERITY_CLI_VALIDATE_BLUEPRINT_FILE"⟩]

/-- The flag of a setting, when the user gave it a value or not. -/
def flagOf (s : Setting) : Option String → Flag
  | some v => ⟨v, s.dflt, true⟩
  | none => ⟨s.dflt, s.dflt, false⟩

/-- The connect protocol can be used on a platform. -/
def Usable (goos protocol : String) : Prop :=
  protocol = "tcp" ∨ (protocol = "unix" ∧ goos ≠ "windows")

end Verif.CliConfig.Spec
