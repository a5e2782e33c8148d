import Verif.RtConfig.Model

/-!
# Specification of the runtime's configuration
-/

namespace Verif.RtConfig.Spec

open Verif.RtConfig Verif.Text

/-- A text denotes a number of a 32 bit signed type. -/
def Int32Text (s : String) (n : Int) : Prop :=
  SignedText s.toList n ∧ -2147483648 ≤ n ∧ n ≤ 2147483647

/-- A number that can be used as a port. -/
def Port (n : Int) : Prop := 0 ≤ n ∧ n ≤ 65535

/-- Call modes by name. -/
inductive ModeName : String → CallMode → Prop
  | ffi : ModeName "ffi" .ffi
  | http : ModeName "http" .http

/-- Platforms by name; every unknown name is the platform `other`. -/
inductive PlatformName : String → Platform → Prop
  | aws : PlatformName "aws" .aws
  | azure : PlatformName "azure" .azure
  | gcp : PlatformName "gcp" .gcp
  | local' : PlatformName "local" .local'
  | other (s : String) : s ∉ ["aws", "azure", "gcp", "local"] → PlatformName s .other

/-- Booleans by name. -/
inductive BoolName : String → Bool → Prop
  | yes : BoolName "true" true
  | no : BoolName "false" false

/-- The setting of an optional boolean variable. -/
def OptBool (v : Option String) (b : Option Bool) : Prop :=
  match v, b with
  | none, none => True
  | some s, some b => BoolName s b
  | _, _ => False

/-- Log levels by number. -/
def levelIndex : Level → Nat
  | .error => 1
  | .warn => 2
  | .info => 3
  | .debug => 4
  | .trace => 5

/-- Log levels by name. -/
def levelText : Level → List Char
  | .error => "error".toList
  | .warn => "warn".toList
  | .info => "info".toList
  | .debug => "debug".toList
  | .trace => "trace".toList

/-- The names of a log level: its number or its name in any case. -/
def LevelName (s : String) (l : Level) : Prop :=
  UnsignedText s.toList (levelIndex l) ∨ s.toList.map Char.toLower = levelText l

/-- What the code does with an environment, as one relation. -/
structure Configured (env : Env) (c : Config) : Prop where
  blueprint : env "CELERITY_BLUEPRINT" = some c.blueprintPath
  mode : ∃ s, env "CELERITY_RUNTIME_CALL_MODE" = some s ∧ ModeName s c.callMode
  service : env "CELERITY_SERVICE_NAME" = some c.serviceName
  port : ∃ s, env "CELERITY_SERVER_PORT" = some s ∧ Int32Text s c.serverPort
  loopback : OptBool (env "CELERITY_SERVER_LOOPBACK_ONLY") c.loopbackOnly
  localPort : match env "CELERITY_LOCAL_API_PORT" with
    | some s => Int32Text s c.localApiPort
    | none => c.localApiPort = 8592
  health : OptBool (env "CELERITY_USE_CUSTOM_HEALTH_CHECK") c.customHealthCheck
  endpoint : c.otlpEndpoint = (env "CELERITY_TRACE_OTLP_COLLECTOR_ENDPOINT").getD ""
  level : match env "CELERITY_MAX_DIAGNOSTICS_LEVEL" with
    | some s => LevelName s c.level
    | none => c.level = .info
  platform : ∃ s, env "CELERITY_RUNTIME_PLATFORM" = some s ∧ PlatformName s c.platform
  test : match env "CELERITY_TEST_MODE" with
    | some s => BoolName s c.testMode
    | none => c.testMode = false
  api : c.apiResource = env "CELERITY_API_RESOURCE"
  consumer : c.consumerApp = env "CELERITY_CONSUMER_APP"
  schedule : c.scheduleApp = env "CELERITY_SCHEDULE_APP"

/-- What the documentation of the settings promises (`config.rs` 16-95): the same, except that the
trace endpoint defaults to `http://otelcollector:4317`, the platform to `other`, and ports are
ports. -/
structure Documented (env : Env) (c : Config) : Prop where
  blueprint : env "CELERITY_BLUEPRINT" = some c.blueprintPath
  mode : ∃ s, env "CELERITY_RUNTIME_CALL_MODE" = some s ∧ ModeName s c.callMode
  service : env "CELERITY_SERVICE_NAME" = some c.serviceName
  port : ∃ s, env "CELERITY_SERVER_PORT" = some s ∧ Int32Text s c.serverPort ∧ Port c.serverPort
  loopback : OptBool (env "CELERITY_SERVER_LOOPBACK_ONLY") c.loopbackOnly
  localPort : match env "CELERITY_LOCAL_API_PORT" with
    | some s => Int32Text s c.localApiPort ∧ Port c.localApiPort
    | none => c.localApiPort = 8592
  health : OptBool (env "CELERITY_USE_CUSTOM_HEALTH_CHECK") c.customHealthCheck
  endpoint : c.otlpEndpoint =
    (env "CELERITY_TRACE_OTLP_COLLECTOR_ENDPOINT").getD "http://otelcollector:4317"
  level : match env "CELERITY_MAX_DIAGNOSTICS_LEVEL" with
    | some s => LevelName s c.level
    | none => c.level = .info
  platform : match env "CELERITY_RUNTIME_PLATFORM" with
    | some s => PlatformName s c.platform
    | none => c.platform = .other
  test : match env "CELERITY_TEST_MODE" with
    | some s => BoolName s c.testMode
    | none => c.testMode = false
  api : c.apiResource = env "CELERITY_API_RESOURCE"
  consumer : c.consumerApp = env "CELERITY_CONSUMER_APP"
  schedule : c.scheduleApp = env "CELERITY_SCHEDULE_APP"

/-- The name of a request method (RFC 9110, RFC 5789), in lower case. -/
def methodName : Method → List Char
  | .get => ['g', 'e', 't']
  | .head => ['h', 'e', 'a', 'd']
  | .options => ['o', 'p', 't', 'i', 'o', 'n', 's']
  | .trace => ['t', 'r', 'a', 'c', 'e']
  | .post => ['p', 'o', 's', 't']
  | .put => ['p', 'u', 't']
  | .patch => ['p', 'a', 't', 'c', 'h']
  | .delete => ['d', 'e', 'l', 'e', 't', 'e']

/-- A name of a request method in any case. -/
def NamesMethod (s : String) (m : Method) : Prop := s.toList.map Char.toLower = methodName m

end Verif.RtConfig.Spec
