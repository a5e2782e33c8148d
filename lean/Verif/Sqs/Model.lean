import Verif.Base

/-!
# Model of the SQS message consumer

Source: `/repo/libs/runtime/consumer-sqs/src/message_consumer.rs`,
`/repo/libs/runtime/consumer-sqs/src/visibility_timeout.rs` and
`/repo/libs/runtime/consumer-sqs/src/errors.rs`.

One iteration of the consumer's loop is a function from what the environment answers (the result
of the poll, how long the handler's future takes and what it returns) to the list of calls the
consumer makes to the queue service and to the handler.

Simplified: request fields that only name what is asked for (queue URL, attribute names) and logs
are left out; the answers of the delete and change-visibility requests are not part of a round
because the code only logs them (`message_consumer.rs` 226-229 and 178-181). Requests take no time.
The heartbeat task runs on time, that is every tick that is due before the kill signal is sent
fires; the calls are listed with the handler's first.
-/

namespace Verif.Sqs

/-- The fields of `aws_sdk_sqs::types::Message` the consumer reads; both identifiers are optional
in the SDK. -/
structure Message where
  id : Option String
  receipt : Option String
  body : String
  deriving DecidableEq, Repr

/-- `SQSConsumerConfig` with the `VisibilityTimeoutExtenderConfig` of the extender the consumer is
given (`message_consumer.rs` 14-28, `visibility_timeout.rs` 27-32).  Times in seconds except
`pollingWaitMs`. -/
structure Config where
  pollingWaitMs : Nat
  batchSize : Option Nat
  handlerTimeout : Nat
  visibilityTimeout : Option Nat
  waitTimeSeconds : Option Nat
  authErrorTimeout : Option Nat
  terminateVisibility : Bool
  shouldDelete : Bool
  deleteOnFailure : Option Bool
  extenderVisibility : Option Nat
  heartbeatInterval : Option Nat
  deriving DecidableEq, Repr

/-- `SQSConsumerFinalisedConfig` (`message_consumer.rs` 30-44). -/
structure Final where
  pollingWaitMs : Nat
  batchSize : Nat
  handlerTimeout : Nat
  visibilityTimeout : Nat
  waitTimeSeconds : Nat
  authErrorTimeout : Nat
  terminateVisibility : Bool
  shouldDelete : Bool
  deleteOnFailure : Bool
  deriving DecidableEq, Repr

/-- `SQSMessageConsumer::new` (`message_consumer.rs` 61-88): the defaults. -/
def finalise (c : Config) : Final where
  pollingWaitMs := c.pollingWaitMs
  batchSize := c.batchSize.getD 1
  handlerTimeout := c.handlerTimeout
  visibilityTimeout := c.visibilityTimeout.getD 30
  waitTimeSeconds := c.waitTimeSeconds.getD 20
  authErrorTimeout := c.authErrorTimeout.getD 10
  terminateVisibility := c.terminateVisibility
  shouldDelete := c.shouldDelete
  deleteOnFailure := c.deleteOnFailure.getD true

/-- `SdkError<ReceiveMessageError>`: an answer of the service with its status and error code, or a
failure without an answer (construction, timeout, dispatch, response). -/
inductive RecvError
  | service (status : Nat) (code : Option String)
  | noAnswer
  deriving DecidableEq, Repr

/-- `is_connection_error` (`errors.rs` 5-10). -/
def isConnectionError (status : Nat) (code : Option String) : Bool :=
  let errCode := code.getD ""
  status == 403 || (errCode == "CredentialsError" || errCode == "UnknownEndpoint")

/-- How the future returned by the handler behaves: it completes after some milliseconds with
success or failure, or never. -/
inductive Completion
  | after (ms : Nat) (ok : Bool)
  | never
  deriving DecidableEq, Repr

/-- `MessageHandlerError` (`helpers/src/consumers.rs` 23-27) without payloads. -/
inductive HandlerError
  | missingHandler
  | timeout
  | failure
  deriving DecidableEq, Repr

/-- What the consumer does to its environment. Times in heartbeats are milliseconds since the poll
was answered. -/
inductive Call
  | receive (max wait visibility : Nat)
  | handle (m : Message)
  | handleBatch (ms : List Message)
  | heartbeat (at' : Nat) (entries : List (String × String)) (visibility : Nat)
  | delete (entries : List (String × String))
  | changeVisibility (entries : List (String × String)) (visibility : Nat)
  | sleep (ms : Nat)
  deriving DecidableEq, Repr

/-- The entries of a batch request: `build()` fails without an identifier or a receipt handle and
the result is unwrapped (`message_consumer.rs` 211-221, `visibility_timeout.rs` 98-108). `none` is
the panic. -/
def buildEntries : List Message → Option (List (String × String))
  | [] => some []
  | m :: ms =>
    match m.id, m.receipt with
    | some i, some r => (buildEntries ms).map ((i, r) :: ·)
    | _, _ => none

/-- `tokio::time::timeout` (`message_consumer.rs` 149-156): the inner future is polled first, so
completing exactly at the deadline counts. -/
def runWithTimeout (limitMs : Nat) : Completion → Except HandlerError Unit
  | .after t ok => if t ≤ limitMs then (if ok then .ok () else .error .failure) else .error .timeout
  | .never => .error .timeout

/-- How long `handle_msg_future.await` takes. -/
def runDuration (limitMs : Nat) : Completion → Nat
  | .after t _ => min t limitMs
  | .never => limitMs

/-- `derive_handler_future`, `handle_single_message`, `handle_messages`, `handle_messages_future`
(`message_consumer.rs` 116-165): the calls of the handler, the result and the time it took. -/
def handlerRun (f : Final) (registered : Bool) (ms : List Message) (k : Completion) :
    List Call × Except HandlerError Unit × Nat :=
  if registered then
    let call := match ms with
      | [m] => Call.handle m
      | _ => Call.handleBatch ms
    ([call], runWithTimeout (f.handlerTimeout * 1000) k, runDuration (f.handlerTimeout * 1000) k)
  else ([], .error .missingHandler, 0)

/-- The due times of `run_heartbeat_task` (`visibility_timeout.rs` 62-83) before time `d`: the
first tick of a tokio interval is immediate, then one per period; a period of zero panics inside
the spawned task, so there is none. -/
def ticks (periodMs d : Nat) : List Nat :=
  if periodMs = 0 then [] else
  ((List.range (d / periodMs + 1)).map (· * periodMs)).filter fun t => t = 0 || decide (t < d)

/-- `start_heartbeat` and `change_visibility_timeout(messages, None)` (`visibility_timeout.rs`
42-110). A missing identifier panics inside the spawned task: no heartbeat is sent. -/
def heartbeats (c : Config) (ms : List Message) (d : Nat) : List Call :=
  match c.heartbeatInterval, buildEntries ms with
  | some h, some es => (ticks (h * 1000) d).map fun t => .heartbeat t es (c.extenderVisibility.getD 30)
  | _, _ => []

/-- `delete_messages` (`message_consumer.rs` 185-233). -/
def deleteMessages (f : Final) (ms : List Message) (handlerFailed : Bool) : Outcome String (List Call) :=
  if !f.shouldDelete then .ok []
  else if handlerFailed && !f.deleteOnFailure then .ok []
  else if ms.isEmpty then .ok []
  else match buildEntries ms with
    | some es => .ok [.delete es]
    | none => .panic

/-- `terminate_visibility_timeout` (`message_consumer.rs` 167-183). -/
def terminateVisibility (f : Final) (ms : List Message) : Outcome String (List Call) :=
  if !f.terminateVisibility then .ok []
  else match buildEntries ms with
    | some es => .ok [.changeVisibility es 0]
    | none => .panic

/-- What the environment does in one iteration: the answer to the poll (`none` inside `ok` is an
answer without a message list) and the handler's future. -/
structure Round where
  answer : Except RecvError (Option (List Message))
  completion : Completion

/-- The messages of an answered poll (`unwrap_or_default`, line 250). -/
def Round.messages (r : Round) : List Message :=
  match r.answer with
  | .ok ms => ms.getD []
  | .error _ => []

/-- `receive_messages` (`message_consumer.rs` 235-294): the calls made, whether the task panicked,
and the receive error that is returned. -/
def receiveMessages (c : Config) (registered : Bool) (r : Round) :
    List Call × Outcome RecvError Unit :=
  let f := finalise c
  let poll := Call.receive f.batchSize f.waitTimeSeconds f.visibilityTimeout
  match r.answer with
  | .error e => ([poll], .err e)
  | .ok ms? =>
    let ms := ms?.getD []
    let (calls, result, d) := handlerRun f registered ms r.completion
    let before := poll :: calls ++ heartbeats c ms d
    let failed := match result with | .ok _ => false | .error _ => true
    match deleteMessages f ms failed with
    | .ok dels =>
      if failed then
        match terminateVisibility f ms with
        | .ok ts => (before ++ dels ++ ts, .ok ())
        | _ => (before ++ dels, .panic)
      else (before ++ dels, .ok ())
    | _ => (before, .panic)

/-- One iteration of `start` (`message_consumer.rs` 95-114): the sleep uses milliseconds for both
durations. -/
def iteration (c : Config) (registered : Bool) (r : Round) : List Call × Bool :=
  let f := finalise c
  match receiveMessages c registered r with
  | (calls, .ok _) => (calls ++ [.sleep f.pollingWaitMs], true)
  | (calls, .err (.service status code)) =>
    (calls ++ [.sleep (if isConnectionError status code then f.authErrorTimeout
      else f.pollingWaitMs)], true)
  | (calls, .err .noAnswer) => (calls ++ [.sleep f.pollingWaitMs], true)
  | (calls, .panic) => (calls, false)

/-- `start` over a list of rounds: the calls round by round, ending after a panic. -/
def run (c : Config) (registered : Bool) : List Round → List (Round × List Call)
  | [] => []
  | r :: rs =>
    match iteration c registered r with
    | (calls, true) => (r, calls) :: run c registered rs
    | (calls, false) => [(r, calls)]

end Verif.Sqs
