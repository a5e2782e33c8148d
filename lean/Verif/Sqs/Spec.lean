import Verif.Sqs.Model

/-!
# Specification of the SQS consumer

What users of the consumer rely on, in terms of the calls it makes, a queue that remembers its
messages, and the time for which a message is hidden.
-/

namespace Verif.Sqs.Spec

open Verif.Sqs

/-- The handler completed successfully in a round: there is one, the poll was answered, and its
future completed with success within the handler timeout. -/
def Succeeded (c : Config) (registered : Bool) (r : Round) : Prop :=
  registered = true ∧ (∃ ms, r.answer = .ok ms) ∧
    ∃ t, r.completion = .after t true ∧ t ≤ c.handlerTimeout * 1000

/-- The receipt handles of a message belong to that message. -/
def Genuine (owner : String → Option String) (m : Message) : Prop :=
  ∃ i rc, m.id = some i ∧ m.receipt = some rc ∧ owner rc = some i

/-- What a call may do to the messages (identifiers) stored by the queue: a delete request may
remove the messages whose receipts it carries (or fail, wholly or for some entries), nothing else
removes a message. New messages may arrive at any time. -/
def Serves (owner : String → Option String) : List Call → List String → List String → Prop
  | [], s, s' => ∀ i ∈ s, i ∈ s'
  | .delete es :: cs, s, s' => ∃ s1, (∀ i ∈ s, i ∈ s1 ∨ ∃ e ∈ es, owner e.2 = some i) ∧
      Serves owner cs s1 s'
  | _ :: cs, s, s' => ∃ s1, (∀ i ∈ s, i ∈ s1) ∧ Serves owner cs s1 s'

/-- The delete requests among calls. -/
def deletes : List Call → List (List (String × String))
  | [] => []
  | .delete es :: cs => es :: deletes cs
  | _ :: cs => deletes cs

/-- What the handler was given, call by call. -/
def handed : List Call → List (List Message)
  | [] => []
  | .handle m :: cs => [m] :: handed cs
  | .handleBatch ms :: cs => ms :: handed cs
  | _ :: cs => handed cs

/-- The pauses among calls, in milliseconds. -/
def pauses : List Call → List Nat
  | [] => []
  | .sleep d :: cs => d :: pauses cs
  | _ :: cs => pauses cs

/-- The visibility changes that concern a message: when, and for how many seconds from then. The
poll itself hides the message at time 0. -/
def hidings (entry : String × String) : List Call → List (Nat × Nat)
  | [] => []
  | .receive _ _ v :: cs => (0, v) :: hidings entry cs
  | .heartbeat t es v :: cs => if entry ∈ es then (t, v) :: hidings entry cs else hidings entry cs
  | _ :: cs => hidings entry cs

/-- A message is hidden at a time when some change has been made and the latest one made by then
has not expired (a later change replaces an earlier one). -/
def HiddenAt (hs : List (Nat × Nat)) (t : Nat) : Prop :=
  ∃ pre s v post, hs = pre ++ (s, v) :: post ∧ s ≤ t ∧ (∀ p ∈ post, t < p.1) ∧ t < s + v * 1000

/-- How long the handler runs in a round (milliseconds). -/
def busy (c : Config) (r : Round) : Nat :=
  match r.completion with
  | .after t _ => min t (c.handlerTimeout * 1000)
  | .never => c.handlerTimeout * 1000

end Verif.Sqs.Spec
