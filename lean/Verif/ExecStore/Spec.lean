import Verif.ExecStore.Model

/-!
# Specification of the store of workflow executions
-/

namespace Verif.ExecStore.Spec

variable {J D S : Type}

/-- A history of saves, oldest first. -/
abbrev History (J D S : Type) := List (String × Payload J D S)

/-- The payload saved last under an id. -/
def lastSaved (h : History J D S) (id : String) : Option (Payload J D S) :=
  (h.reverse.find? fun kv => kv.1 = id).map (·.2)

/-- The ids in the order in which they were first saved. -/
def created : List String → List String
  | [] => []
  | x :: xs => x :: (created xs).filter fun y => y ≠ x

/-- An execution shows a saved payload. -/
def Shows (e : Execution J D S) (id : String) (p : Payload J D S) : Prop :=
  e.id = id ∧ e.input = p.input ∧ e.started = p.started ∧ e.completed = p.completed ∧
  e.duration = p.duration ∧ e.status = p.status ∧ e.statusDetail = p.statusDetail ∧
  e.currentState = p.currentState ∧ e.states = p.states

/-- Lists of the same length whose elements correspond. -/
inductive Corresponds {α β : Type} (R : α → β → Prop) : List α → List β → Prop
  | nil : Corresponds R [] []
  | cons {a b as bs} : R a b → Corresponds R as bs → Corresponds R (a :: as) (b :: bs)

/-- The events among items. -/
def events {E : Type} : List (Item E) → List E
  | [] => []
  | .event e :: rest => e :: events rest
  | .lagged _ :: rest => events rest

end Verif.ExecStore.Spec
