import Verif.Acks.Model

/-!
# Specification of the acknowledgement worker in terms of histories
-/

namespace Verif.Acks.Spec

open Verif.Acks

/-- The last status recorded for a message, with its time. -/
def lastStatus (id : String) : List Op → Option (Status × Nat)
  | [] => none
  | .status i s now :: ops =>
    match lastStatus id ops with
    | some x => some x
    | none => if i = id then some (s, now) else none
  | _ :: ops => lastStatus id ops

/-- Number of times a message was recorded as pending. -/
def pendings (id : String) : List Op → Nat
  | [] => 0
  | .status i (.pending _ _) _ :: ops => (if i = id then 1 else 0) + pendings id ops
  | _ :: ops => pendings id ops

/-- How often a message was re-sent. -/
def resends (id : String) (as : List Action) : Nat :=
  as.countP (fun a => match a with | .resend _ m _ _ => m == id | .lost _ _ => false)

/-- How often a message was reported lost. -/
def losses (id : String) (as : List Action) : Nat :=
  as.countP (fun a => match a with | .lost m _ => m == id | .resend _ _ _ _ => false)

/-- Every message id is sent once by the application. -/
def sentIds : List Event → List String
  | [] => []
  | .send id _ _ _ :: es => id :: sentIds es
  | _ :: es => sentIds es

/-- The messages acknowledged. -/
def ackedIds : List Event → List String
  | [] => []
  | .ack id _ :: es => id :: ackedIds es
  | _ :: es => ackedIds es

/-- The times of the periodic checks. -/
def tickTimes : List Event → List Nat
  | [] => []
  | .tick now :: es => now :: tickTimes es
  | _ :: es => tickTimes es

/-- How many of the given check times find a message overdue, when it was last sent at `last` and is
sent again at each such time: a check finds it overdue when more than the timeout has elapsed since
the last attempt. -/
def dueCount (timeout last : Nat) : List Nat → Nat
  | [] => 0
  | t :: ts => if t - last > timeout then 1 + dueCount timeout t ts else dueCount timeout last ts

/-- The number of attempts allowed for one message; it is always sent once. -/
def allowed (cfg : Config) : Nat := max 1 cfg.maxAttempts

end Verif.Acks.Spec
