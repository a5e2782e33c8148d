import Verif.Startup.AccessModel
import Verif.Startup.Spec

/-! # What guards and CORS settings are for -/

namespace Verif.Startup.Spec

open Verif Verif.Subst Verif.Blueprint

variable {F : Type}

/-- The API has a default guard that checks a token. -/
def Guarded (api : ResResource F) : Prop :=
  ∃ s auth name g, api.spec = some (.api s) ∧ s.auth = some auth ∧ auth.defaultGuard = some name ∧
    (name, g) ∈ auth.guards ∧ g.guardType = .jwt

/-- The API allows requests from any origin, with any method and header that is used. -/
def Crossing (api : ResResource F) : Prop :=
  ∃ s cors, api.spec = some (.api s) ∧ s.cors = some (.config cors) ∧
    cors.allowOrigins = some ["*".toList] ∧ cors.allowMethods = some ["*".toList] ∧
    cors.allowHeaders = some ["*".toList]

/-- Two resources that differ at most in what an API says about guards, CORS and its domain. -/
structure Alike (r r' : ResResource F) : Prop where
  type : r.type = r'.type
  metadata : r.metadata = r'.metadata
  linkSelector : r.linkSelector = r'.linkSelector
  spec : r.spec = r'.spec ∨ ∃ s s', r.spec = some (.api s) ∧ r'.spec = some (.api s') ∧
    s.protocols = s'.protocols ∧ s.tracingEnabled = s'.tracingEnabled

/-- Resources of the same names that are alike. -/
inductive AllAlike : List (Str × ResResource F) → List (Str × ResResource F) → Prop
  | nil : AllAlike [] []
  | cons {k r r' l l'} : Alike r r' → AllAlike l l' → AllAlike ((k, r) :: l) ((k, r') :: l')

end Verif.Startup.Spec
