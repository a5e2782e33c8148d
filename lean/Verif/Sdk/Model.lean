import Verif.Base
import Verif.Text
import Verif.RtConfig.Model

/-!
# Model of the runtime SDKs for Node.js, Python and foreign function interfaces

Source: `/repo/libs/runtime/sdk/node/src/lib.rs`, `/repo/libs/runtime/sdk/python/src/lib.rs` and
`/repo/libs/runtime/sdk/bindgen-ffi/src/` (`application.rs`, `response.rs`, `app_config.rs`,
`http_handler.rs`). The application they wrap is the one of `Verif.RtConfig`.

Simplified: names and values of headers follow the rules of the `http` crate, without its limits on
the length of a name and on the number of headers. A request is the message the HTTP library hands
to the handler; reading its body is a given outcome, the bytes or an error. Texts of errors of the
JavaScript and Python engines are given. Times are in milliseconds from the moment the call of the
handler returned (with a promise, or having done what it does at once). Pointers are options: a pointer is null or refers to a live object; the use of a dangling
pointer is not modelled.
-/

namespace Verif.Sdk

open Verif.Text Verif.RtConfig

/-! ## Answers -/

/-- `Response` (`node/src/lib.rs` 114-118, `python/src/lib.rs` 159-163) and `ResponseData`
(`bindgen-ffi/src/response.rs` 26-30). The status is a `u16`. -/
structure Response where
  status : Nat
  headers : Option (List (String × String))
  body : Option String
  deriving DecidableEq, Repr

/-- The body of an answer: a text, or the JSON object `{"message": …}` of an error. -/
inductive Content
  | text (s : String)
  | error (message : String)
  deriving DecidableEq, Repr

/-- An answer as the HTTP library sends it. -/
structure Answer where
  status : Nat
  headers : List (String × String)
  content : Content
  deriving DecidableEq, Repr

/-- The characters a header name may have (`http::header::name`, RFC 9110 token). -/
def tokenChar (c : Char) : Bool := c.isAlphanum || "!#$%&'*+-.^_`|~".toList.contains c

/-- `HeaderName::try_from`: names are kept in lower case. -/
def headerName (s : String) : Option String :=
  if s.toList ≠ [] ∧ s.toList.all tokenChar = true then some (String.ofList (s.toList.map Char.toLower))
  else none

/-- `HeaderValue::try_from`: no control characters but the tab. -/
def headerValue (s : String) : Option String :=
  if s.toList.all (fun c => (decide (32 ≤ c.toNat) && decide (c.toNat ≠ 127)) || c == '\t') = true
  then some s else none

/-- The loop over the headers (`node/src/lib.rs` 122-125, `python/src/lib.rs` 167-170,
`response.rs` 34-37): an error stays in the builder. -/
def buildHeaders : List (String × String) → Option (List (String × String))
  | [] => some []
  | (k, v) :: rest =>
    match headerName k, headerValue v, buildHeaders rest with
    | some k', some v', some r => some ((k', v') :: r)
    | _, _, _ => none

/-- `StatusCode::try_from`. -/
def statusCode (n : Nat) : Option Nat := if 100 ≤ n ∧ n < 1000 then some n else none

/-- `into_response` of a response (`node/src/lib.rs` 120-131, `python/src/lib.rs` 165-176,
`response.rs` 32-43): the `unwrap` panics when the builder holds an error. -/
def intoResponse (r : Response) : Outcome String Answer :=
  match buildHeaders (r.headers.getD []), statusCode r.status with
  | some hs, some st => .ok ⟨st, hs, .text (r.body.getD "")⟩
  | _, _ => .panic

/-- `into_response` of a `HandlerError` (`node/src/lib.rs` 376-380, `python/src/lib.rs` 437-441,
`http_handler.rs` 42-46): `Json` answers with the status 200. -/
def errorResponse (message : String) : Answer :=
  ⟨200, [("content-type", "application/json")], .error message⟩

/-- The answer to a request from the result of the handler closure. -/
def answer : Except String Response → Outcome String Answer
  | .ok r => intoResponse r
  | .error e => .ok (errorResponse e)

/-! ## Requests of the Node.js SDK -/

/-- A request of the HTTP library. Header names are in lower case, values are bytes. `body` is the
outcome of reading the body to its end. -/
structure Request where
  method : String
  uri : String
  version : String
  headers : List (String × List UInt8)
  body : Except String (List UInt8)

/-- `HeaderValue::to_str`: only visible ASCII characters and the tab. -/
def toStr (v : List UInt8) : Option String :=
  if v.all (fun b => (decide (32 ≤ b.toNat) && decide (b.toNat < 127)) || b == 9) = true
  then some (String.ofList (v.map fun b => Char.ofNat b.toNat)) else none

/-- `JsRequestWrapperBody` (`node/src/lib.rs` 134-138). `source none` is a body that was taken. -/
inductive Body
  | bytes (b : List UInt8)
  | source (b : Option (Except String (List UInt8)))
  | empty

/-- `JsRequestWrapper` (`node/src/lib.rs` 140-144). -/
structure JsRequest where
  body : Body
  method : String
  uri : String
  version : String
  headers : List (String × List UInt8)

/-- The length announced by a request (`node/src/lib.rs` 167-172). -/
def contentLength (headers : List (String × List UInt8)) : Nat :=
  (((headers.lookup "content-length").bind toStr).bind
    fun s => parseUnsigned (2 ^ 64) s.toList).getD 0

/-- `from_axum_req` (`node/src/lib.rs` 165-181). -/
def fromAxum (q : Request) : JsRequest :=
  { method := q.method, uri := q.uri, version := q.version, headers := q.headers,
    body := if contentLength q.headers > 0 then .source (some q.body) else .empty }

/-- Inserting into a hash map. -/
def insert (m : List (String × String)) (k v : String) : List (String × String) :=
  (k, v) :: m.filter (fun e => e.1 != k)

/-- Collecting pairs in a hash map (`node/src/lib.rs` 204-214); the `unwrap` panics when a value has
other bytes than visible ASCII. -/
def collectHeaders (m : List (String × String)) :
    List (String × List UInt8) → Outcome String (List (String × String))
  | [] => .ok m
  | (k, v) :: rest =>
    match toStr v with
    | some s => collectHeaders (insert m k s) rest
    | none => .panic

/-- `headers` (`node/src/lib.rs` 203-215). -/
def jsHeaders (r : JsRequest) : Outcome String (List (String × String)) :=
  collectHeaders [] r.headers

/-- `String::from_utf8` with the message of lines 223-228 and 246-251; `utf8` is the decoder. -/
def decodeBody (utf8 : List UInt8 → Option String) (b : List UInt8) :
    Outcome String (Option String) :=
  match utf8 b with
  | some s => .ok (some s)
  | none => .err "failed to parse request body"

/-- `body` (`node/src/lib.rs` 220-255): the result and the request afterwards. -/
def readBody (utf8 : List UInt8 → Option String) (r : JsRequest) :
    Outcome String (Option String) × JsRequest :=
  match r.body with
  | .bytes b => (decodeBody utf8 b, r)
  | .source (some (.ok b)) => (decodeBody utf8 b, { r with body := .bytes b })
  | .source (some (.error e)) => (.err e, { r with body := .source none })
  | .source none => (.panic, r)
  | .empty => (.ok none, r)

/-- Calling `body` several times. -/
def readTimes (utf8 : List UInt8 → Option String) : Nat → JsRequest →
    List (Outcome String (Option String))
  | 0, _ => []
  | n + 1, r => (readBody utf8 r).1 :: readTimes utf8 n (readBody utf8 r).2

/-! ## Calls of handlers -/

/-- What a promise does: `t` milliseconds after it was made it resolves or is rejected, or it stays
pending. -/
inductive Promise
  | resolves (t : Nat) (r : Response)
  | rejects (t : Nat) (e : String)
  | pending
  deriving DecidableEq, Repr

/-- What a call of a JavaScript handler does: it fails or returns a promise. -/
inductive JsCall
  | fails (e : String)
  | promises (p : Promise)
  deriving DecidableEq, Repr

/-- The timeout of handlers (`node/src/lib.rs` 323, `bindgen-ffi/src/application.rs` 127). -/
def timeout : Nat := 30000

/-- When a promise is settled and the result the closure makes of it (`node/src/lib.rs` 328-330). -/
def settled : Promise → Option (Nat × Except String Response)
  | .resolves t r => some (t, .ok r)
  | .rejects t e => some (t, .error e)
  | .pending => none

/-- The `select!` of the closure (`node/src/lib.rs` 323-331): the results it can give and when. Both
are possible when the promise is settled at the moment the timer fires. -/
def nodeSelect (p : Promise) : List (Nat × Except String Response) :=
  (match settled p with
    | some (t, r) => if t ≤ timeout then [(t, r)] else []
    | none => []) ++
  (match settled p with
    | some (t, _) => if timeout ≤ t then [(timeout, .error "handler timed out")] else []
    | none => [(timeout, .error "handler timed out")])

/-- The closure `register_http_handler` of the Node.js SDK installs (`node/src/lib.rs` 316-332) for
a handler `h`. -/
def nodeServe (h : JsRequest → JsCall) (q : Request) : List (Nat × Except String Response) :=
  match h (fromAxum q) with
  | .fails e => [(0, .error e)]
  | .promises p => nodeSelect p

/-- A handler of the Python SDK is called without arguments (`python/src/lib.rs` 225, 342): `h` says
what it would do with a request, if it were given one. -/
def pyInvoke {α : Type} (h : Option Request → α) (_q : Request) : α := h none

/-- A handler of the FFI is given the response to write to and nothing else
(`bindgen-ffi/src/application.rs` 112, 125, 176-180). -/
def ffiInvoke {α : Type} (h : Option Request → α) (_q : Request) : α := h none

/-- A handler of the Node.js SDK is given the wrapped request (`node/src/lib.rs` 317-319). -/
def nodeInvoke {α : Type} (h : Option JsRequest → α) (q : Request) : α := h (some (fromAxum q))

/-! ## Responses of the FFI -/

/-- `Response` of the FFI (`bindgen-ffi/src/response.rs` 7-12). `HttpHeaders` is empty
(`bindgen-ffi/src/headers.rs` 1). `sent` is what the channel to the closure holds, `open'` whether
the response still has the channel. -/
structure FfiResponse where
  status : Nat
  body : Option String
  open' : Bool
  sent : Option Response
  deriving DecidableEq, Repr

/-- The response a handler is given (`bindgen-ffi/src/application.rs` 113-119). -/
def ffiInitial : FfiResponse := ⟨0, none, true, none⟩

/-- What a handler can do with its response. -/
inductive FfiOp
  | setStatus (n : Nat)
  | setHeaders (hs : List (String × String))
  | send (body : String)
  deriving DecidableEq, Repr

/-- `response_set_status`, `response_set_headers`, `response_send` and `Response::send`
(`response.rs` 63-67, 71-75, 79-84, 15-24). -/
def ffiStep (r : FfiResponse) : FfiOp → FfiResponse
  | .setStatus n => { r with status := n }
  | .setHeaders _ => r
  | .send b =>
    if r.open' then { r with body := none, open' := false, sent := some ⟨r.status, none, some b⟩ }
    else { r with body := some b }

/-- The operations of a handler with the times at which it performs them, 0 during the callback. -/
abbrev FfiRun := List (Nat × FfiOp)

/-- The first answer of a run and its time. -/
def ffiFirst (r : FfiResponse) : FfiRun → Option (Nat × Response)
  | [] => none
  | (t, op) :: rest =>
    match (ffiStep r op).sent with
    | some x => some (t, x)
    | none => ffiFirst (ffiStep r op) rest

/-- The closure of the FFI (`bindgen-ffi/src/application.rs` 112-143): `timeout` polls the channel
before the timer, so an answer that is there at the last moment counts. -/
def ffiServe (run : FfiRun) : Nat × Except String Response :=
  match ffiFirst ffiInitial run with
  | some (t, r) => if t ≤ timeout then (t, .ok r) else (timeout, .error "Handler timed out")
  | none => (timeout, .error "Handler timed out")

/-! ## The worker of the Python SDK -/

/-- `PythonCall` (`python/src/lib.rs` 203-208): `ticket` stands for the channel back to the request. -/
structure Call where
  handlerId : String
  ticket : Nat
  deriving DecidableEq, Repr

/-- The channel to the worker, the worker and the answers so far. `H` are the handlers. `busy` is the
call the worker is at with the handler it found. -/
structure Py (H : Type) where
  registry : List (String × H)
  queue : List Call
  busy : Option (Call × H)
  answers : List (Nat × Except String Response)
  next : Nat

/-- Steps: a request for a route arrives, the worker takes the next call, the handler it is at
finishes. -/
inductive PyStep
  | arrive (handlerId : String)
  | take
  | finish (result : Except String Response)

/-- The message of a request whose handler failed (`python/src/lib.rs` 349). -/
def pythonError (e : String) : String := "Python error: " ++ e

/-- What the closure makes of the worker's result (`python/src/lib.rs` 346-349). -/
def pyResult : Except String Response → Except String Response
  | .ok r => .ok r
  | .error e => .error (pythonError e)

/-- One step of the closure of a request (`python/src/lib.rs` 334-351) or of `python_worker`
(`python/src/lib.rs` 210-249). -/
def pyStep {H : Type} (s : Py H) : PyStep → Py H
  | .arrive id => { s with queue := s.queue ++ [⟨id, s.next⟩], next := s.next + 1 }
  | .take =>
    match s.busy, s.queue with
    | none, c :: rest =>
      match s.registry.lookup c.handlerId with
      | some h => { s with queue := rest, busy := some (c, h) }
      | none => { s with queue := rest, answers := s.answers ++
          [(c.ticket, pyResult (.error ("Handler not found: " ++ c.handlerId)))] }
    | _, _ => s
  | .finish r =>
    match s.busy with
    | some (c, _) => { s with busy := none, answers := s.answers ++ [(c.ticket, pyResult r)] }
    | none => s

/-- A run of steps. -/
def pyRun {H : Type} (s : Py H) (steps : List PyStep) : Py H := steps.foldl pyStep s

/-- The state after `run` (`python/src/lib.rs` 369-407) started the worker. -/
def pyInit {H : Type} (registry : List (String × H)) : Py H := ⟨registry, [], none, [], 0⟩

/-! ## Applications -/

/-- `CoreRuntimeConfig` (`node/src/lib.rs` 35-39 and the same fields in the other SDKs). The loopback
flag of the FFI always has a value. -/
structure SdkConfig where
  blueprintPath : String
  serverPort : Int
  loopbackOnly : Option Bool
  deriving DecidableEq, Repr

/-- The runtime configuration of the Node.js and Python SDKs (`node/src/lib.rs` 268-283,
`python/src/lib.rs` 264-279). -/
def runtimeConfig (c : SdkConfig) : Config :=
  { blueprintPath := c.blueprintPath, callMode := .ffi, serviceName := "CelerityTestService",
    serverPort := c.serverPort, loopbackOnly := c.loopbackOnly, localApiPort := 8259,
    customHealthCheck := none, otlpEndpoint := "http://localhost:4317", level := .info,
    platform := .local', testMode := false, apiResource := none, consumerApp := none,
    scheduleApp := none }

/-- The runtime configuration of the FFI (`bindgen-ffi/src/application.rs` 40-55). -/
def ffiRuntimeConfig (c : SdkConfig) : Config :=
  { blueprintPath := c.blueprintPath, callMode := .ffi, serviceName := "CelerityTestService",
    serverPort := c.serverPort, loopbackOnly := some true, localApiPort := 3001,
    customHealthCheck := some false, otlpEndpoint := "http://localhost:4317", level := .debug,
    platform := .local', testMode := false, apiResource := none, consumerApp := none,
    scheduleApp := none }

/-- `register_http_handler` of the Node.js SDK (`node/src/lib.rs` 303-335). -/
def nodeRegister (a : App) (path method handler : String) : Outcome String App :=
  register a path method handler

/-- Registering handlers of the Node.js SDK one after the other. -/
def nodeRegisterAll (a : App) : List (String × String × String) → Outcome String App
  | [] => .ok a
  | (path, method, h) :: rest => (nodeRegister a path method h).bind fun a' => nodeRegisterAll a' rest

/-- An application of the Python SDK (`python/src/lib.rs` 252-258): the wrapped application, the
registry of handlers and whether `setup` made the channel to the worker. -/
structure PyApp where
  inner : App
  registry : List (String × String)
  channel : Bool
  deriving DecidableEq, Repr

/-- The identifier of a handler (`python/src/lib.rs` 327). -/
def handlerId (path method : String) : String := path ++ "::" ++ method

/-- `register_http_handler` of the Python SDK (`python/src/lib.rs` 321-361). The route leads to the
closure, which knows the identifier only. -/
def pyRegister (a : PyApp) (path method handler : String) : Outcome String PyApp :=
  let a := { a with registry := insert a.registry (handlerId path method) handler }
  if a.channel then
    (register a.inner path method (handlerId path method)).bind fun i => .ok { a with inner := i }
  else .panic

/-- Registering handlers one after the other. -/
def pyRegisterAll (a : PyApp) : List (String × String × String) → Outcome String PyApp
  | [] => .ok a
  | (path, method, h) :: rest => (pyRegister a path method h).bind fun a' => pyRegisterAll a' rest

/-- The handler the worker calls for a request. -/
def pyHandlerFor (a : PyApp) (path : String) (m : Method) : Option String :=
  match a.inner.http with
  | none => none
  | some r =>
    match dispatch r path m with
    | some (.handler id) => a.registry.lookup id
    | _ => none

/-- `application_register_http_handler` (`bindgen-ffi/src/application.rs` 103-147): the path and the
method are fixed (line 145). -/
def ffiRegister (a : App) (handler : String) : Outcome String App :=
  register a "/orders/:orderId" "POST" handler

/-! ## The configuration `setup` returns -/

/-- `HttpHandlerDefinition` of the runtime (`core/src/config.rs` 222-232). -/
structure HandlerDef where
  name : String
  path : String
  method : String
  location : String
  handler : String
  timeout : Int
  tracing : Bool
  deriving DecidableEq, Repr

/-- `AppConfig`, `ApiConfig` and `HttpConfig` of the runtime (`core/src/config.rs` 197-220): `none`
without an API; `http` are the handlers of its HTTP part, `websocket` says whether there is a
WebSocket part. -/
structure CoreApi where
  http : Option (List HandlerDef)
  websocket : Bool
  deriving DecidableEq, Repr

/-- `CoreHttpHandlerDefinition` (`node/src/lib.rs` 95-100). -/
structure SdkHandler where
  path : String
  method : String
  location : String
  handler : String
  deriving DecidableEq, Repr

/-- `From<HttpHandlerDefinition>` (`node/src/lib.rs` 102-111, `python/src/lib.rs` 134-143). -/
def fromDef (d : HandlerDef) : SdkHandler :=
  { path := d.path, method := d.method, location := d.location, handler := d.handler }

/-- `CoreApiConfig` of the SDKs (`node/src/lib.rs` 54-57). -/
structure SdkApi where
  http : Option (List SdkHandler)
  websocket : Bool
  deriving DecidableEq, Repr

/-- `From<ApiConfig>` and `From<HttpConfig>` (`node/src/lib.rs` 59-67, 74-83). -/
def fromApi (a : CoreApi) : SdkApi := ⟨a.http.map (List.map fromDef), a.websocket⟩

/-- `From<AppConfig>` (`node/src/lib.rs` 46-51). -/
def fromConfig (c : Option CoreApi) : Option SdkApi := c.map fromApi

/-- `CString::new(..).unwrap()`: panics on a text with a NUL character. -/
def cString (s : String) : Outcome String String :=
  if s.toList.contains (Char.ofNat 0) then .panic else .ok s

/-- `HttpHandlerIterator` (`bindgen-ffi/src/app_config.rs` 114-121): the definitions left. -/
abbrev FfiIter := List HandlerDef

/-- The iterator of the configuration `application_setup` returns
(`bindgen-ffi/src/application.rs` 80-88, `app_config.rs` 28-33, 71-77, 98-104, 124-133). -/
def ffiIter (c : Option CoreApi) : FfiIter :=
  match c with
  | some a => a.http.getD []
  | none => []

/-- `next` of the iterator (`bindgen-ffi/src/app_config.rs` 135-149): the definition and the iterator
afterwards. -/
def ffiNext : FfiIter → Outcome String (Option (SdkHandler × FfiIter))
  | [] => .ok none
  | d :: rest => do
    let path ← cString d.path
    let method ← cString d.method
    let handler ← cString d.handler
    let location ← cString d.location
    return some (⟨path, method, location, handler⟩, rest)

/-- What a foreign caller collects that calls `next` until it gives nothing. `fuel` bounds the
calls; one more than the number of definitions is enough. -/
def ffiCollect : Nat → FfiIter → Outcome String (List SdkHandler)
  | 0, _ => .ok []
  | fuel + 1, it => do
    match ← ffiNext it with
    | none => return []
    | some (h, it') => do
      let rest ← ffiCollect fuel it'
      return h :: rest

/-! ## The construction counter of the FFI -/

/-- Calls that change the counter: `destroy true` is `application_destroy` of an application,
`destroy false` of the null pointer. -/
inductive CounterOp
  | create
  | destroy (live : Bool)
  deriving DecidableEq, Repr

/-- `CONSTRUCTION_COUNTER` (`bindgen-ffi/src/application.rs` 21, 31, 258); subtracting from 0 panics,
as in a build with overflow checks. -/
def counterStep (n : Nat) : CounterOp → Outcome String Nat
  | .create => .ok (n + 1)
  | .destroy _ => if n = 0 then .panic else .ok (n - 1)

/-- The value of `construction_counter` (`bindgen-ffi/src/application.rs` 268-270) after calls. -/
def counterRun (n : Nat) : List CounterOp → Outcome String Nat
  | [] => .ok n
  | op :: rest => (counterStep n op).bind fun n' => counterRun n' rest

end Verif.Sdk
