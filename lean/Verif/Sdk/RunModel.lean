import Verif.Startup.Model

/-!
# Model of running an application through an SDK

`/repo/libs/runtime/sdk/`: `node/src/lib.rs` 339-347, `python/src/lib.rs` 369-407,
`bindgen-ffi/src/application.rs` 151-169 and 182-218. The core application is that of
`Verif.Startup`. What the libraries for the bindings do with a panic that reaches them is left open.
-/

namespace Verif.Sdk.Launch

open Verif Startup

/-- Those of `general_error` that running an application can end with
(`bindgen-schema/src/shared.rs` 8-66). -/
inductive General
  | nullParameter
  | applicationNotInitialised
  | openTelemetryTrace
  | tracerTryInit
  | runtimeDestroyed
  | cannotBlockWithinAsync
  deriving DecidableEq, Repr

/-- What the caller of `run` is left with. -/
inductive Caller
  /-- The call returned without an error. -/
  | returned
  /-- The call goes on. -/
  | waiting
  /-- The call failed, in the FFI. -/
  | failed (e : General)
  /-- The call failed with an exception, whose text is made from the error of the core runtime. -/
  | raised (e : Result)
  /-- The call panicked. -/
  | panicked
  /-- The process was aborted. -/
  | aborted
  deriving DecidableEq, Repr

/-- `run` of the core (`core/src/application.rs` 251-258): it waits for its servers when told to
block. -/
def coreWaits (block : Bool) (s : Life) : Bool := block && (s.http || s.localApi)

/-- `run` for Node (`node/src/lib.rs` 339-347). -/
def node (o : Outside) (block : Bool) (s : Life) : Life × Caller :=
  match run o s with
  | (s', .ok) => (s', if coreWaits block s then .waiting else .returned)
  | (s', .panic) => (s', .panicked)
  | (s', e) => (s', .raised e)

/-- The other thread of `run` for Python (`python/src/lib.rs` 382-398): an error of the core runtime
aborts the process, a panic ends the thread only. -/
def pythonThread (o : Outside) (s : Life) : Life × Bool :=
  match run o s with
  | (s', .ok) => (s', false)
  | (s', .panic) => (s', false)
  | (s', _) => (s', true)

/-- `run` for Python (`python/src/lib.rs` 369-407). `ready`: `setup` was called, and `run` was not called since
(lines 372-380). The event loop runs until it is interrupted (lines 400-405). -/
def python (o : Outside) (ready : Bool) (s : Life) : Life × Caller :=
  if ready then
    match pythonThread o s with
    | (s', true) => (s', .aborted)
    | (s', false) => (s', .waiting)
  else (s, .panicked)

/-- The runtime that the caller of the FFI has (`sfio-tokio-ffi`): usable, disposed of, or used from within
one of its own tasks. -/
inductive Handle
  | alive | destroyed | inside
  deriving DecidableEq, Repr

/-- `From<ApplicationStartError>` (`bindgen-ffi/src/application.rs` 182-209), for the errors of `run`. -/
def general : Result → Option General
  | .tracerTryInit => some .tracerTryInit
  | .openTelemetryTrace => some .openTelemetryTrace
  | .ok => none
  | .panic => none

/-- `application_run` (`bindgen-ffi/src/application.rs` 151-169); null pointers are `none`. A call that
does not block spawns a task, whose result nobody reads (line 164). The errors of the runtime are as in lines
211-218. -/
def ffi (o : Outside) (block : Bool) (instance' : Option Life) (runtime : Option Handle) :
    Option Life × Caller :=
  match instance' with
  | none => (none, .failed .applicationNotInitialised)
  | some s =>
    match runtime, block with
    | none, _ => (some s, .failed .nullParameter)
    | some .destroyed, _ => (some s, .failed .runtimeDestroyed)
    | some .inside, true => (some s, .failed .cannotBlockWithinAsync)
    | some .alive, true =>
      match run o s with
      | (s', .panic) => (some s', .panicked)
      | (s', r) =>
        match general r with
        | some e => (some s', .failed e)
        | none => (some s', if coreWaits true s then .waiting else .returned)
    | some _, false => (some (run o s).1, .returned)

end Verif.Sdk.Launch
