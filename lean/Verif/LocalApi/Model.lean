import Verif.Base

/-!
# Model of the local runtime API

`libs/runtime/core/src/runtime_local_api.rs` 50-79 and, identical,
`libs/runtime/workflow/src/workflow_runtime_local_api.rs` 42-71.

Each request runs with both mutexes held, so the handlers are atomic steps. A oneshot sender is a
number (`Tx`); what its receiver observes is recorded in the `delivered` log. Event payloads and
result data are abstract.
-/

namespace Verif.LocalApi

/-- `struct EventData`, types.rs 9-17: the id and the rest. -/
structure Event (P : Type) where
  id : String
  payload : P
  deriving Repr, DecidableEq

/-- A oneshot sender. -/
abbrev Tx := Nat

/-- The shared state: `event_queue`, `processing_events_map` (an association list), the receivers
that have been dropped by their owner, and the values received through oneshot channels. -/
structure State (P R : Type) where
  queue : List (Tx × Event P)
  processing : List (String × (Tx × Event P))
  disconnected : List Tx
  delivered : List (Tx × Event P × R)
  deriving Repr, DecidableEq

/-- Empty queue and map, application.rs 216-219. -/
def State.init {P R : Type} : State P R := ⟨[], [], [], []⟩

/-- What can happen: the runtime queues an event (`push_back` on the shared queue, as in the tests
of runtime_local_api.rs; the code that produces events is not part of the repository yet), the
handlers executable polls or posts a result, a submitter stops waiting. -/
inductive Op (P R : Type) where
  | enqueue (tx : Tx) (e : Event P)
  | poll
  | result (id : String) (r : R)
  | disconnect (tx : Tx)
  deriving Repr, DecidableEq

/-- What the caller of an operation observes. -/
inductive Response (P : Type) where
  | none
  | next (e : Option (Event P))
  | processed
  | notFound
  | unexpected
  deriving Repr, DecidableEq

variable {P R : Type}

/-- `HashMap::insert`: the previous value of the key, with its sender, is dropped. -/
def mapInsert {V : Type} (k : String) (v : V) (m : List (String × V)) : List (String × V) :=
  (k, v) :: m.filter (fun kv => kv.1 != k)

/-- `HashMap::remove`. -/
def mapRemove {V : Type} (k : String) (m : List (String × V)) : List (String × V) :=
  m.filter (fun kv => kv.1 != k)

/-- `next_event_handler`, runtime_local_api.rs 50-64. -/
def nextEvent (st : State P R) : State P R × Response P :=
  match st.queue with
  | (tx, e) :: rest =>
    ({ st with queue := rest, processing := mapInsert e.id (tx, e) st.processing },
      .next (some e))
  | [] => (st, .next none)

/-- `event_result_handler`, runtime_local_api.rs 66-79. `tx.send` fails when the receiver has been
dropped. -/
def eventResult (st : State P R) (id : String) (r : R) : State P R × Response P :=
  match st.processing.lookup id with
  | some (tx, e) =>
    let st := { st with processing := mapRemove id st.processing }
    if st.disconnected.contains tx then (st, .unexpected)
    else ({ st with delivered := st.delivered ++ [(tx, e, r)] }, .processed)
  | none => (st, .notFound)

/-- One step. -/
def step (st : State P R) : Op P R → State P R × Response P
  | .enqueue tx e => ({ st with queue := st.queue ++ [(tx, e)] }, .none)
  | .poll => nextEvent st
  | .result id r => eventResult st id r
  | .disconnect tx => ({ st with disconnected := tx :: st.disconnected }, .none)

/-- A history: the state reached and the operations with their responses. -/
def run (st : State P R) : List (Op P R) → State P R × List (Op P R × Response P)
  | [] => (st, [])
  | op :: ops =>
    let r := step st op
    let rest := run r.1 ops
    (rest.1, (op, r.2) :: rest.2)

end Verif.LocalApi
