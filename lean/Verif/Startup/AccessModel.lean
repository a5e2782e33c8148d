import Verif.Startup.Model

/-!
# Model of what guards and CORS settings do in an application

`libs/runtime/core/src/transform_config.rs` 23-74 sets `auth` and `cors` of the configuration to
`None` whatever the blueprint says, and no layer that `run_http_server_app`
(`libs/runtime/core/src/application.rs` 303-308) adds looks at them.
-/

namespace Verif.Startup

open Verif Verif.Subst

variable {F : Type}

/-- `Application::setup`, core/src/application.rs 73-129, after the blueprint was loaded (line 74). -/
def setupFrom (showF : F → Str) (c : RtConfig.Config) (b : Blueprint.ResConfig F) :
    Outcome StartErr Application :=
  match Transform.collectApiConfig showF (view b) (c.apiResource.map String.toList) with
  | .ok cfg => do
    let ws ← wsConfig cfg
    let a ← routerErr (RtConfig.setup c (some ws))
    pure { config := Wire.appConfig (some cfg), tracing := cfg.tracingEnabled, app := a }
  | .error .apiMissing => do
    let a ← routerErr (RtConfig.setup c none)
    pure { config := Wire.appConfig none, tracing := false, app := a }
  | .error e => .err (.config e)

/-- A request to the server. -/
structure HttpRequest where
  path : String
  method : RtConfig.Method
  headers : List (String × String)
  deriving DecidableEq, Repr

/-- What serves a request: the router that the application has when it is run; the layers around it
(core/src/application.rs 303-308) pass every request on. -/
def serve (a : RtConfig.App) (q : HttpRequest) : Option RtConfig.Target :=
  match a.http with
  | none => none
  | some r => RtConfig.dispatch r q.path q.method

end Verif.Startup
