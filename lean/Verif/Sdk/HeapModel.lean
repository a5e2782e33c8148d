import Verif.Sdk.Model

/-!
# Model of the objects with which the FFI hands out a configuration

`/repo/libs/runtime/sdk/bindgen-ffi/src/app_config.rs` and lines 72-99 of `application.rs`: callers get addresses of
objects, which they destroy themselves. Simplified: an address is not used for a second object, texts have no NUL
characters (for these see `Verif.Sdk.ffiNext`), and an application without an API has no handlers.
-/

namespace Verif.Sdk.Objects

open Verif.RtConfig

/-- `AppConfig`, `ApiConfig` and `HttpConfig` (`app_config.rs` 7-9, 43-45, 79-81). -/
inductive Kind
  | app | api | http
  deriving DecidableEq, Repr

/-- What is at an address: the kind of the object and the handlers it has (lines 7-9, 43-45, 79-81; each
kind contains the next). -/
structure Cell where
  kind : Kind
  handlers : List HandlerDef
  deriving DecidableEq, Repr

/-- The memory: address `i` has an object, or one that was destroyed. -/
abbrev Memory := List (Option Cell)

/-- The calls of a caller. -/
inductive Call
  /-- `application_setup` of an application with these handlers. -/
  | setup (handlers : List HandlerDef)
  /-- `app_config_create`, `api_config_create`, `http_config_create`. -/
  | create (kind : Kind)
  /-- `app_config_get_api_config`. -/
  | getApi (i : Nat)
  /-- `api_config_get_http_config`. -/
  | getHttp (i : Nat)
  /-- `http_config_receive_handlers` with a callback that asks for `n` handlers. -/
  | receive (i n : Nat)
  /-- `app_config_destroy`, `api_config_destroy`, `http_config_destroy`. -/
  | destroy (kind : Kind) (i : Nat)
  /-- The same of the null pointer. -/
  | destroyNull (kind : Kind)
  deriving DecidableEq, Repr

/-- What a call gives. -/
inductive Result
  | handle (i : Nat)
  | handlers (hs : List HandlerDef)
  | unit
  /-- Undefined: an object was used that is not there, or is of another kind. -/
  | wild
  deriving DecidableEq, Repr

/-- `Box::into_raw(Box::new(…))` (`app_config.rs` 22-23, 31-32, 57-58, 75-76, 92-93; `application.rs` 89). -/
def alloc (m : Memory) (kind : Kind) (handlers : List HandlerDef) : Memory × Result :=
  (m ++ [some { kind, handlers }], .handle m.length)

/-- The calls: `application.rs` 80-89; `app_config.rs` 19-24, 55-59 and 91-94; 28-33; 71-77; 98-104, where the
callback gets an iterator over a copy (lines 135-149); and 37-41, 63-67 and 108-112. -/
def step (m : Memory) : Call → Memory × Result
  | .setup hs => alloc m .app hs
  | .create k => alloc m k []
  | .getApi i =>
    match m[i]? with
    | some (some ⟨.app, hs⟩) => alloc m .api hs
    | _ => (m, .wild)
  | .getHttp i =>
    match m[i]? with
    | some (some ⟨.api, hs⟩) => alloc m .http hs
    | _ => (m, .wild)
  | .receive i n =>
    match m[i]? with
    | some (some ⟨.http, hs⟩) => (m, .handlers (hs.take n))
    | _ => (m, .wild)
  | .destroy k i =>
    match m[i]? with
    | some (some c) => if c.kind = k then (m.set i none, .unit) else (m, .wild)
    | _ => (m, .wild)
  | .destroyNull _ => (m, .unit)

/-- One call and its result, written down. -/
def record (s : Memory × List (Call × Result)) (c : Call) : Memory × List (Call × Result) :=
  ((step s.1 c).1, s.2 ++ [(c, (step s.1 c).2)])

/-- All calls of a caller: the memory afterwards, and what each call gave. -/
def run (calls : List Call) : Memory × List (Call × Result) := calls.foldl record ([], [])

end Verif.Sdk.Objects
