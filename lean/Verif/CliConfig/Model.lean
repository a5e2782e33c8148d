import Verif.Base
import Verif.Text

/-!
# Model of the CLI's configuration

Source: `/repo/apps/cli/internal/config/provider.go`, `/repo/apps/cli/cmd/commands/root.go`,
`init.go` and `validate.go` beside it, `/repo/apps/cli/internal/engine/client.go` and
`/repo/apps/cli/internal/consts/consts.go`.

Simplified: Go strings are byte sequences, here they are texts; maps are association lists whose
first entry for a key counts. The file system, the decoders of the three file formats, float
parsing and the process environment are parameters. Of the `cobra` and `pflag` libraries only the
value, the default and the `Changed` mark of a flag are modelled.
-/

namespace Verif.CliConfig

open Verif.Text

/-- The part of `pflag.Flag` that is read: the current value as text, the default and whether the
user gave the flag. -/
structure Flag where
  value : String
  defValue : String
  changed : Bool
  deriving DecidableEq, Repr

/-- `pflag` sets the value to the default until the flag is given. -/
def Flag.WellFormed (f : Flag) : Prop := f.changed = false → f.value = f.defValue

/-- `Provider` (`provider.go` 33-38). `defaults = none` is Go's nil map: reading it finds nothing,
writing to it panics. -/
structure Provider where
  config : List (String × String)
  pFlags : List (String × Flag)
  envVars : List (String × String)
  defaults : Option (List (String × String))
  deriving DecidableEq, Repr

/-- `NewProvider` (`provider.go` 42-48): the defaults map is not initialised. -/
def newProvider : Provider := ⟨[], [], [], none⟩

/-- `BindEnvVar` (`provider.go` 72-74). -/
def bindEnvVar (p : Provider) (name env : String) : Provider :=
  { p with envVars := (name, env) :: p.envVars }

/-- `BindPFlag` (`provider.go` 76-78). -/
def bindPFlag (p : Provider) (name : String) (f : Flag) : Provider :=
  { p with pFlags := (name, f) :: p.pFlags }

/-- `SetDefault` (`provider.go` 80-82). -/
def setDefault (p : Provider) (name value : String) : Outcome String Provider :=
  match p.defaults with
  | none => .panic
  | some ds => .ok { p with defaults := some ((name, value) :: ds) }

/-- `unicode.IsSpace`. -/
def isSpace (c : Char) : Bool :=
  let n := c.toNat
  n == 0x20 || (0x09 ≤ n && n ≤ 0x0D) || n == 0x85 || n == 0xA0 || n == 0x1680 ||
    (0x2000 ≤ n && n ≤ 0x200A) || n == 0x2028 || n == 0x2029 || n == 0x202F || n == 0x205F ||
    n == 0x3000

/-- `strings.TrimSpace`. -/
def trimSpace (s : List Char) : List Char :=
  ((s.dropWhile isSpace).reverse.dropWhile isSpace).reverse

/-- `strings.TrimSpace(s) != ""`. -/
def nonBlank (s : String) : Bool := !(trimSpace s.toList).isEmpty

/-- The flag part of `GetString` (lines 88-101): a value set by the user, or the value to fall back
to. -/
def flagPart (p : Provider) (name : String) : Except String String :=
  match p.pFlags.lookup name with
  | none => .ok ""
  | some f =>
    if nonBlank f.value then
      if f.changed then .error f.value else .ok f.value
    else .ok ""

/-- The environment part of `GetString` (lines 103-109). -/
def envPart (p : Provider) (env : String → Option String) (name : String) : Option String :=
  match p.envVars.lookup name with
  | none => none
  | some var =>
    match env var with
    | none => none
    | some v => if nonBlank v then some v else none

/-- `GetString` (`provider.go` 87-121): the value and whether it is a default. -/
def getString (p : Provider) (env : String → Option String) (name : String) : String × Bool :=
  match flagPart p name with
  | .error v => (v, false)
  | .ok defaultFlagValue =>
    match envPart p env name with
    | some v => (v, false)
    | none =>
      match p.config.lookup name with
      | some v => (v, false)
      | none =>
        if defaultFlagValue ≠ "" then (defaultFlagValue, true)
        else (((p.defaults.getD []).lookup name).getD "", true)

/-! ## Numbers -/

/-- `strconv.ParseUint(s, 10, bits)`: digits only, value in range; `none` is an error. -/
def parseUint (bits : Nat) (s : List Char) : Option Nat :=
  if s.isEmpty then none
  else
    match digitsVal 0 s with
    | none => none
    | some n => if n < 2 ^ bits then some n else none

/-- `strconv.ParseInt(s, 10, bits)`: an optional sign, then digits; the cut-off is `2^(bits-1)`. -/
def parseInt (bits : Nat) (s : List Char) : Option Int := parseSigned bits s

/-- Conversion to a signed type of the given width (`int32(v)`): wraps around. -/
def toSigned (bits : Nat) (v : Int) : Int := Int.bmod v (2 ^ bits)

/-- Conversion to an unsigned type of the given width (`uint32(v)`): wraps around. -/
def toUnsigned (bits : Nat) (v : Nat) : Nat := v % 2 ^ bits

/-- `GetInt32` and `GetInt64` (`provider.go` 123-149), `bits` = 32 or 64. -/
def getInt (bits : Nat) (p : Provider) (env : String → Option String) (name : String) : Int × Bool :=
  let (s, isDefault) := getString p env name
  if s = "" then (0, isDefault)
  else
    match parseInt bits s.toList with
    | none => (0, isDefault)
    | some v => (toSigned bits v, isDefault)

/-- `GetUint32` and `GetUint64` (`provider.go` 151-177), `bits` = 32 or 64. -/
def getUint (bits : Nat) (p : Provider) (env : String → Option String) (name : String) : Nat × Bool :=
  let (s, isDefault) := getString p env name
  if s = "" then (0, isDefault)
  else
    match parseUint bits s.toList with
    | none => (0, isDefault)
    | some v => (toUnsigned bits v, isDefault)

/-- `strconv.ParseBool`. -/
def parseBool (s : String) : Option Bool :=
  if s ∈ ["1", "t", "T", "TRUE", "true", "True"] then some true
  else if s ∈ ["0", "f", "F", "FALSE", "false", "False"] then some false
  else none

/-- `GetBool` (`provider.go` 207-219). -/
def getBool (p : Provider) (env : String → Option String) (name : String) : Bool × Bool :=
  let (s, isDefault) := getString p env name
  if s = "" then (false, isDefault)
  else
    match parseBool s with
    | none => (false, isDefault)
    | some v => (v, isDefault)

/-- `GetFloat32` and `GetFloat64` (`provider.go` 179-205), `bits` = 32 or 64; `parse` stands for
`strconv.ParseFloat` and `zero` for 0.0. -/
def getFloat {F : Type} (parse : Nat → String → Option F) (zero : F) (bits : Nat) (p : Provider)
    (env : String → Option String) (name : String) : F × Bool :=
  let (s, isDefault) := getString p env name
  if s = "" then (zero, isDefault)
  else
    match parse bits s with
    | none => (zero, isDefault)
    | some v => (v, isDefault)

/-! ## Loading the file and running a command -/

/-- The three supported formats. -/
inductive Format
  | yaml | json | toml
  deriving DecidableEq, Repr

/-- Errors with which a command can end before it does anything. -/
inductive CliError
  | open'
  | decode
  | unsupportedFormat
  | unixOnWindows
  | badProtocol
  | badLanguage
  | engine
  deriving DecidableEq, Repr

/-- `strings.HasSuffix`. -/
def hasSuffix (s suffix : String) : Bool := suffix.toList.isSuffixOf s.toList

/-- The outside world of a command. -/
structure World where
  /-- Opening and reading a file. -/
  file : String → Option String
  /-- The decoders, given the entries already there; `none` is a decoding error. -/
  decode : Format → String → List (String × String) → Option (List (String × String))
  env : String → Option String
  goos : String

/-- `LoadConfigFile` (`provider.go` 50-70). -/
def loadConfigFile (w : World) (p : Provider) (path : String) : Except CliError Provider :=
  match w.file path with
  | none => .error .open'
  | some text =>
    let dec (f : Format) : Except CliError Provider :=
      match w.decode f text p.config with
      | some c => .ok { p with config := c }
      | none => .error .decode
    if hasSuffix path ".yaml" || hasSuffix path ".yml" then dec .yaml
    else if hasSuffix path ".json" then dec .json
    else if hasSuffix path ".toml" then dec .toml
    else .error .unsupportedFormat

/-- `validateConnectProtocol` (`root.go` 99-120). -/
def validateConnectProtocol (goos protocol : String) : Except CliError Unit :=
  if protocol = "tcp" then .ok ()
  else if protocol = "unix" then
    (if goos = "windows" then .error .unixOnWindows else .ok ())
  else .error .badProtocol

/-- `PersistentPreRunE` (`root.go` 26-38). -/
def preRun (w : World) (p : Provider) (path : String) : Except CliError Provider :=
  match loadConfigFile w p path with
  | .error e => .error e
  | .ok p' =>
    match validateConnectProtocol w.goos (getString p' w.env "connectProtocol").1 with
    | .error e => .error e
    | .ok () => .ok p'

/-- `SupportedLanguages` (`consts.go` 32-39). -/
def supportedLanguages : List String := ["nodejs", "python", "java", "dotnet", "go", "rust"]

/-- `validateLanguage` (`init.go` 50-65). -/
def validateLanguage (lang : String) : Except CliError Unit :=
  if lang = "" then .ok ()
  else if lang ∈ supportedLanguages then .ok ()
  else .error .badLanguage

/-- How the deploy engine client is set up. -/
structure EngineClient where
  protocol : String
  endpoint : String
  deriving DecidableEq, Repr

/-- `engine.Create` (`client.go` 10-17): the provider is not consulted. -/
def createEngine (_p : Provider) (_env : String → Option String) : EngineClient :=
  ⟨"tcp", "http://localhost:8325"⟩

/-- The commands. -/
inductive Cmd
  | version | init | validate
  deriving DecidableEq, Repr

/-- What a command goes on to do. -/
inductive Effect
  | printVersion
  | initScreen (lang : String)
  | validate (client : EngineClient) (blueprint : String) (isDefault : Bool)
  deriving DecidableEq, Repr

/-- A command with its pre-run hook (`root.go` 26-38, `init.go` 26-34, `validate.go` 28-77,
`version.go`). -/
def runCmd (w : World) (p : Provider) (path : String) (c : Cmd) : Except CliError Effect :=
  match preRun w p path with
  | .error e => .error e
  | .ok p' =>
    match c with
    | .version => .ok .printVersion
    | .init =>
      let lang := (getString p' w.env "initLanguage").1
      match validateLanguage lang with
      | .error e => .error e
      | .ok () => .ok (.initScreen lang)
    | .validate =>
      let (file, isDefault) := getString p' w.env "validateBlueprintFile"
      .ok (.validate (createEngine p' w.env) file isDefault)

/-- The bindings of `NewRootCmd`, `setupInitCommand` and `setupValidateCommand` (`root.go` 52-90,
`init.go` 38-45, `validate.go` 80-87), given how the user set the flags. -/
def cliProvider (flags : String → Option String) : Provider :=
  let flag (name dflt : String) : Flag :=
    match flags name with
    | some v => ⟨v, dflt, true⟩
    | none => ⟨dflt, dflt, false⟩
  let bind (p : Provider) (name flagName dflt env : String) : Provider :=
    bindEnvVar (bindPFlag p name (flag flagName dflt)) name env
  let p := newProvider
  let p := bind p "deployConfigFile" "deploy-config-file" "celerity.deploy.json"
    "CELERITY_CLI_DEPLOY_CONFIG_FILE"
  let p := bind p "connectProtocol" "connect-protocol" "unix" "CELERITY_CLI_CONNECT_PROTOCOL"
  let p := bind p "engineEndpoint" "engine-endpoint" "http://localhost:8325"
    "CELERITY_CLI_ENGINE_ENDPOINT"
  let p := bind p "skipPluginConfigValidation" "skip-plugin-config-validation" "false"
    "CELERITY_CLI_SKIP_PLUGIN_CONFIG_VALIDATION"
  let p := bind p "initLanguage" "language" "" "CELERITY_CLI_INIT_LANGUAGE"
  bind p "validateBlueprintFile" "blueprint-file" "app.blueprint.yaml"
    "CELERITY_CLI_VALIDATE_BLUEPRINT_FILE"

end Verif.CliConfig
