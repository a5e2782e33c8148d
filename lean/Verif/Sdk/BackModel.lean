import Verif.Base

/-!
# Model of an application that the FFI runs in the background

`/repo/libs/runtime/sdk/bindgen-ffi/src/application.rs` 151-169 and 257-264: a call of `application_run`
that does not block spawns a task that has the address of the application (lines 157-164), and
`application_destroy`, which callers know as `shutdown` (`bindgen-schema/src/application.rs` 126), frees the
application. The task is the future of `run`, `core/src/application.rs` 228-338, cut at the places
where it waits. That it has no tracing to set up and that sockets can be bound is assumed (for these see
`Verif.Sdk.Launch`).
-/

namespace Verif.Sdk.Back

/-- Where the task is: it was never polled; it waits for a socket (`core/src/application.rs` 318 and
275-277); it waits for a server (lines 252-257); or it is done. -/
inductive Phase
  | spawned | bindHttp | bindLocal | waitHttp | waitLocal | done
  deriving DecidableEq, Repr

/-- A server: it serves, was told to stop, or has ended. -/
inductive Server
  | serving | stopping | ended
  deriving DecidableEq, Repr

/-- The application and its task. `http` and `localApi`: it has these servers. `wild` counts the uses of the
application after it was freed. -/
structure State where
  http : Bool
  localApi : Bool
  phase : Phase := .spawned
  httpServer : Option Server := none
  localServer : Option Server := none
  httpSignal : Bool := false
  localSignal : Bool := false
  freed : Bool := false
  wild : Nat := 0
  deriving DecidableEq, Repr

/-- What can happen. -/
inductive Event
  /-- The task is polled, and what it waits for is there. -/
  | poll
  /-- The caller shuts the application down. -/
  | shutdown
  /-- The HTTP server has answered its last requests. -/
  | httpEnds
  /-- So has the local API. -/
  | localEnds
  deriving DecidableEq, Repr

/-- The application is used (`core/src/application.rs`: `self`). What this does when it was freed is
undefined; the model goes on as if the memory had been left alone. -/
def State.use (s : State) : State := if s.freed then { s with wild := s.wild + 1 } else s

/-- The task is polled. `core/src/application.rs`: lines 231-242 and 300-318 up to the socket of the HTTP server,
lines 319-337 and 244-277 up to that of the local API, lines 278-289, and lines 251-269. -/
def State.poll (s : State) : State :=
  match s.phase with
  | .spawned =>
    { s.use with phase := if s.http then .bindHttp else if s.localApi then .bindLocal else .done }
  | .bindHttp =>
    { s.use with
      httpServer := some .serving
      httpSignal := true
      phase := if s.localApi then .bindLocal else .waitHttp }
  | .bindLocal =>
    { s.use with
      localServer := some .serving
      localSignal := true
      phase := if s.http then .waitHttp else .waitLocal }
  | .waitHttp =>
    if s.httpServer = some .ended then { s with phase := if s.localApi then .waitLocal else .done }
    else s
  | .waitLocal => if s.localServer = some .ended then { s with phase := .done } else s
  | .done => s

/-- A server is told to stop (`core/src/application.rs` 281-283 and 329-331). -/
def tell : Option Server → Option Server
  | some .serving => some .stopping
  | s => s

/-- A server that was told to stop ends. -/
def finish : Option Server → Option Server
  | some .stopping => some .ended
  | s => s

/-- `application_destroy` (`bindgen-ffi/src/application.rs` 257-264) with `shutdown`
(`core/src/application.rs` 393-402). -/
def State.shutdown (s : State) : State :=
  { s.use with
    httpServer := if s.httpSignal then tell s.httpServer else s.httpServer
    localServer := if s.localSignal then tell s.localServer else s.localServer
    httpSignal := false
    localSignal := false
    freed := true }

/-- One event. -/
def State.step (s : State) : Event → State
  | .poll => s.poll
  | .shutdown => s.shutdown
  | .httpEnds => { s with httpServer := finish s.httpServer }
  | .localEnds => { s with localServer := finish s.localServer }

/-- A history of an application that is run in the background: `application_run` comes first
(`bindgen-ffi/src/application.rs` 163-165). -/
def history (http localApi : Bool) (events : List Event) : State :=
  events.foldl State.step { http, localApi }

end Verif.Sdk.Back
