import Verif.LocalApi.Model

/-!
# Specification of the local runtime API in terms of observed histories
-/

namespace Verif.LocalApi.Spec

open Verif.LocalApi

variable {P R : Type}

/-- A history as seen from outside: operations and responses. -/
abbrev Trace (P R : Type) := List (Op P R × Response P)

/-- The events submitted, with their submitters, in order. -/
def submitted : List (Op P R) → List (Tx × Event P)
  | [] => []
  | .enqueue tx e :: ops => (tx, e) :: submitted ops
  | _ :: ops => submitted ops

/-- The events handed out by polls, in order. -/
def handedOut : Trace P R → List (Event P)
  | [] => []
  | (_, .next (some e)) :: t => e :: handedOut t
  | _ :: t => handedOut t

/-- The ids of the results that were not answered with 'not found', in order. -/
def accepted : Trace P R → List String
  | [] => []
  | (.result id _, .processed) :: t => id :: accepted t
  | (.result id _, .unexpected) :: t => id :: accepted t
  | _ :: t => accepted t

/-- The submitters that stopped waiting. -/
def gone : List (Op P R) → List Tx
  | [] => []
  | .disconnect tx :: ops => tx :: gone ops
  | _ :: ops => gone ops

/-- The results answered with 'processed', with the data posted. -/
def processed : Trace P R → List (String × R)
  | [] => []
  | (.result id r, .processed) :: t => (id, r) :: processed t
  | _ :: t => processed t

end Verif.LocalApi.Spec
