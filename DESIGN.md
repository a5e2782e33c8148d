# Formal model of two-hundred/celerity: design

The model is a set of total Lean 4 functions that follow the Rust runtime
(`/repo/libs/runtime`) and the Go command line tool (`/repo/apps/cli`)
function by function. The code itself is never run: the only link between the
theorems and the code is the reading of the source, so every definition in the
model cites the file and lines it models and says where it simplifies.

## Layout

Each topic has a directory `lean/Verif/<Topic>/` with

* `Model.lean`: the code that exists (definitions cite the source);
* `Spec.lean`: a small specification that does not use the model's helpers;
* `Lemmas.lean`: auxiliary lemmas (where needed);
* `Props.lean`: the property theorems, each with an `example` showing that its
  hypotheses are met by a concrete non-trivial case.

Where a property is false of the code, `Props.lean` contains the full
statement as a definition (`Full…`), a theorem `…_violated` proving its negation with
a concrete witness, and a theorem `…_partial` that holds.

## Plan per property

| id | topic directory | model | proof method |
|----|-----------------|-------|--------------|
| C01 | Subst | char-level state machine of `parse_substitutions`, scanner-level parse of the reference | round trip, induction over the template |
| C02 | Subst | same | invariant over all characters |
| C03 | Subst | plus `resolve_string_or_substitutions_to_string` | composition with C01, independent spec `expand` |
| C04 | Subst | `resolve_scalar_value_from_string_or_substitutions`; float parsing is a parameter | case analysis, round trip for i64 decimals |
| C05 | Subst | `resolve_mapping_node` with its depth counter | structural induction over trees |
| C06 | Subst | same as C01 | false: negation by witness; partial = C01 class |
| C07 | Blueprint | both loaders and the resolution, all resource types | false: witnesses; agreement on a grammar by a binary logical relation |
| C08 | Transform | `select_resources` | false: negation; partial soundness/completeness by key |
| C09 | Transform | `resolve_handler_timeout` | false (`max` instead of `min`): negation; partial precedence |
| C10 | Transform | `resolve_handler_location`, `resolve_tracing_enabled` | decision logic |
| C11 | Transform | `to_axum_path` | segment-wise spec, injectivity |
| C12 | Transform | `collect_http_handler_definitions` etc. | induction over the handler list |
| C13 | LocalApi | queue + processing map + oneshot submitters as a step machine | invariant over histories / refinement to FIFO |
| C14 | LocalApi | same | false: negation by history; partial is C13 |
| C15 | WebSocket | `process_message`, `resolve_route`; JSON parser is a parameter | decision logic |
| C16 | WebSocket | `resolve_binary_route` with explicit panic | round trip; negation for the empty frame |
| C17 | WebSocket | `handle_socket` as a loop over received items | induction over the message list |
| C18 | WebSocket | registry as map, request id as id | false: negation; partial for distinct ids |
| C19 | Acks | ack worker as a step machine over (pending, received, tick) with clock values | invariant over histories |
| C20 | Acks | resend action addressing | false: negation |
| C21 | Cluster | nodes, broadcast, redis filter, ack return | induction over nodes and schedules |
| C22 | Cluster | listen loop with socket outcome | false: negation; partial |
| C23 | Sqs | `receive_messages` loop as a trace of effects | false with defaults: negation; partial with flag off |
| C24 | Sqs | same | trace theorem |
| C25 | Workflow | the state machine as small steps; handlers, store and clock answer as functions of the log | false: for every n more than n attempts |
| C26 | Workflow | same | induction over the chain |
| C27 | Workflow | same, trace of saves and broadcasts | invariant over traces |
| C28 | Workflow | same | false: witness; partial without catch rules |
| C29 | Workflow | same | false: witness; partial for retryable kinds |
| C30 | Workflow | `catch`, `error_matches` | first-match spec |
| C31 | Workflow | `calculate_retry_wait_time_ms` over exact rationals (float rounding not modelled) | monotonicity, bounds; negation for the caller |
| C32 | ExecStore | `MemoryWorkflowExecutionService` | refinement to map and log |
| C33 | ExecStore | `run_handler` | false: witness; partial for fresh names |
| C34 | TmplParser | `template_func_parser.rs` over the scanner | round trip by induction on call trees |
| C35 | TmplParser | same | false: witnesses; partial |
| C36 | TmplFuncs | list functions | algebraic laws |
| C37 | TmplFuncs | `format` | false: witness; partial for placeholder-free arguments |
| C38 | Sig | `sigv1.rs` over abstract MAC and base64 | round trip |
| C39 | Sig | same | inversion, injectivity; negation for separator-containing values |
| C40 | Sig | u64 arithmetic of the skew check | arithmetic |
| C41 | Sig | explicit panic outcome | false: witness; partial |
| C42 | CliConfig | `GetString` | decision logic |
| C43 | CliConfig | `GetInt32` … with `strconv` modelled | round trip + range |
| C44 | CliConfig | pre-run checks | decision logic |
| C45 | CliValidate | select loop over an arbitrary schedule | induction over the schedule |
| C46 | CliValidate | bubbletea `Update` functions | induction; negation for closed streams |
| C47 | RtConfig | `RuntimeConfig::from_env` | decision logic; negation for documented defaults |
| C48 | Scanner | `Scanner` | invariants over operation sequences |
| C49 | Transform | all orders of the hash maps as permutations of association lists | permutation invariance; negation by two orders |
| C50, C51 | Transform, RtConfig | `derive_route_key`, router construction | decision logic; negation |
| C52–C54 | WebSocket | `send_messages`, the lock of the socket as a queue, the route table | induction, invariant over schedules; negations |
| C55 | Cluster | `has_received_ack` | negation; partial |
| C56–C58 | Sqs | one round of the consumer, heartbeats on a time line | trace theorems, arithmetic of ticks; negations |
| C59, C60 | CliConfig | `client.go`, `SetDefault` | decision logic; negations |
| C61–C63 | RtConfig | `from_env`, binding address, registration of handlers | decision logic; negations |
| C64, C65 | CliValidate | path handling, `Update` over message sequences | decision logic, invariant; negations |
| C66–C68 | ExecStore | save payload, API stubs, event channel with lag | refinement; negations |
| C69–C74 | TmplFuncs | all 21 functions with explicit panics | exact characterisation of panics, algebraic laws |
| C75 | TmplParser | recursion with fuel | fuel measured by the length of the text |
| C76–C81 | Payload | rendering, injection, evaluation of calls | independent semantics, soundness and completeness |
| C82–C88 | Workflow | see C25–C31 | invariants over all interleavings; negations |
| C89–C96 | Blueprint | same as C07 | invariants of the loops over fields, the relation applied to one loader; negations |
| C110 | Blueprint | same as C07 | refinement: a typed source, the document it is written as, its meaning as a relation; both loaders decide that relation |
| C111 | Sdk | `JsRequestWrapper`, `python_worker` | a relation between a request and what its handler sees; proved under framing and ASCII, violated otherwise |
| C112 | Sdk | `JsRequestWrapper::body` | induction over calls |
| C113 | Sdk | `into_response` | decision logic: exact set of responses that are delivered |
| C114 | Sdk | `HandlerError` | decision logic over all results of a call |
| C115 | Sdk | `register_http_handler`, `python_worker` | relation of results and times; invariant for the blocked worker |
| C116 | Sdk | `python_worker` | invariant over all interleavings of arrivals, worker and handlers |
| C117 | Sdk | registration in the three SDKs | induction over registrations, injectivity of identifiers |
| C118 | Sdk | conversions, `HttpHandlerIterator` | induction over definitions |
| C119 | Sdk | `response.rs`, construction counter | induction over calls of a handler and over constructions |
| C120 | Startup | `setup` | composition: the meaning of a source document (C110) and the declared handlers, through all stages |
| C121 | Startup | `setup` | equivalence of starting and a condition on the meaning |
| C122 | Startup | `setup`, `load_and_parse_blueprint` | relation of the runs in the two formats |
| C123 | Startup | `load_and_parse_blueprint` in both runtimes | decision logic over all paths |
| C124 | Startup | `setup`, `get_api_resource` | consequence of C110 and of the transformation |
| C125 | Startup | `run`, `shutdown` | invariant over all histories |
| C126 | Startup | `run`, `setup_tracing` | the same invariant, with the number of servers |
| C127 | Workflow | times of ends in records and executions | invariant over all interleavings |
| C128 | Workflow | `record_transition` and its callers | negation; invariants |
| C129 | Workflow | the numbers of attempts | negation; invariant on first records |
| C130 | FlowApi | derived `Serialize` of events, executions and states | documented schema as predicates; induction over nested records |
| C131 | FlowApi | derived `Serialize` and `Deserialize` | round trip by induction over nested records |
| C132 | FlowApi | events of the state machine | consequence of C129 |
| C133 | FlowApi | `run_handler` | decision logic; store of C32 |
| C134 | Trace | `XrayTraceId` conversions | round trip by induction over digits |
| C135 | Trace | `run_http_server_app`, `attach_tracing_layers`, `enrich_span`, `log_request`, `request_id` | layers as functions; induction over requests |
| C136 | Trace | `setup_tracing`, `attach_tracing_layers` | consequence of C135 |
| C137 | Startup | `collect_api_config`, `setup` | non-interference; routers of C62 |
| C138 | Startup | `setup_http_server_app`, `register_http_handler` | equivalence by induction over registrations |
| C139 | FlowApi | `setup_workflow_api` | equivalence with the documented paths, for all texts |
| C140 | FlowApi | `setup_workflow_api` | decision logic over all requests |
| C97–C101, C107–C109 | Wire | derived encoders and decoders as functions on JSON values; the OpenAPI documents as predicates | decoding of all documents of a schema; round trips; negations |
| C102–C106 | Wire | `create_local_runtime_api_config` and its copy in the workflow crate, `collect_workflow_app_config` | induction over lists, injectivity of tags; negations |
| C141 | CliConfig | flags of the commands, `root.go` | decision logic; negation |
| C142 | Sig | the documented header as text | negation for all documented requests; translation |
| C143 | Subst | same as C01, texts that contain references | inversion of the parser; negation |
| C144 | Wire | derived decoders | inversion; negation |
| C145, C146 | Workflow, FlowApi | the state machine and what is sent | invariants over all steps; negation |
| C147-C150 | Acks | all tasks around the worker: callers, periodic check, waiting tasks, reacting task | invariants over all interleavings; negation |
| C151-C152 | Blueprint | resolution with the paths of fields | a table of fields and their variables, read off the document; negation |
| C153 | Blueprint | resolution under other declarations | non-interference; negations |
| C154-C155 | CliValidate | `View` as lists of parts, results of the handler | decision logic on reachable states; negations |
| C156 | Sdk | life of a response of the FFI as a state machine | invariant over schedules; negations |
| C157 | CliConfig | the provider with the bindings of the CLI | non-interference, independence |
| C158 | ExecStore | the stream of executions as a client sees it | invariant |
| C159 | Wire | derived readers of requests, results and messages | non-interference |
| C160 | Workflow | the state machine, all interleavings | termination by a measure, progress |
| C161 | Workflow | executions and registrations as threads around the lock of the handlers | invariant over schedules, measure; false for successive steps |
| C162 | Cluster | nodes, channels and Redis as queues | refinement: writes and channels together are the list of sends |
| C163 | FlowApi | a server with any number of executions, their store and their events | invariant over schedules, simulation both ways |
| C164 | Acks | the worker and the closed loop | simulation by the history of one message |
| C165 | Payload | the template engine | non-interference by mutual induction |
| C166 | Sig | verification with the conversions of errors | decision logic, complete in both directions |
| C167 | Cluster | two tasks of a node with bounded channels | state machine, deadlock reachable, sole deadlock, measure |
| C168 | Workflow | whole state machine, without parallel states | simulation by a specification of paths |
| C169 | Startup | an application with its server and its local API | invariant over all histories: the queue of events stays empty |
| C170 | WebSocket | the tasks of all connections | invariant and non-interference over all histories |
| C171 | LocalApi | deadlines of events | negation for all timeouts, theorems about timed histories |
| C172 | Transform | resources of other applications | negation by witness, non-interference theorem |
| C173 | CliInit | the program of the init command | negation for all widgets, theorems about all sequences of messages |
| C174 | Workflow | the state machine beside the queue of events of the local API | negation as an invariant, calls over all interleavings, steps with local handlers |
| C175 | WebSocket | the notice of a lost message as bytes | round trip with the grammar of JSON strings |
| C176 | Startup | handlers of queues and schedules | refinement from the blueprint to the configuration |
| C177 | FlowApi | executions and the workflow of the blueprint | composition of loader, collection, state machine and server; invariant |
| C178 | Sdk | failed starts in the SDKs | case analysis over the core and the bindings, refinement |
| C179 | Sdk | applications that the FFI runs in the background | invariants over all interleavings, witness |
| C180 | Sdk | the objects of a configuration of the FFI | invariant between the memory and what the caller has seen |
| C181 | Transform | requests and the paths of blueprints | induction over segments against the matching of the router |
| C182 | Startup | base paths of WebSocket APIs | routes of the application that was set up, for all blueprints |

## Trusted base

* The Lean 4.33.0 kernel. Theorems may depend on `propext`, `Classical.choice`
  and `Quot.sound` only; no axioms are added, and `sorry`, `native_decide` and
  `bv_decide` are not used.
* The reading of the source recorded in the citations.
* External components appear as parameters of the model and nothing is assumed
  of them except what a theorem states as a hypothesis: HMAC-SHA256 and
  base64, the JSON and JSON-path libraries, float parsing, UTF-8 validation,
  clocks, random numbers, sockets, Redis, SQS, the deploy engine.

The axioms of each property theorem are listed in `AXIOMS.md`.

## What is modelled, what is not

| topic | modelled | left out or simplified |
|-------|----------|------------------------|
| Base, Text, Json, Assoc | outcomes with panics; `trim`, `split`, `str::parse` for integers; `serde_json::Value`; association lists | bytes of texts (a text is a list of characters); the value of floats |
| Scanner | `helpers/src/scanner.rs`, all | |
| Subst | `parse_substitutions.rs`, `resolve_substitutions.rs` 1637-1919 | Unicode classes are parameters |
| Blueprint | the rest of `blueprint-config-parser/src`: `blueprint.rs`, `blueprint_with_subs.rs`, `parse.rs`, `parse_blueprint_resource.rs`, `parse_helpers.rs`, `parse_mapping_node.rs`, `parse_yaml.rs`, `yaml_helpers.rs`, `yaml_workflow.rs`, `resolve_substitutions.rs`, `validate_parsed.rs` | the texts of documents: models start from the tree that serde_json or yaml_rust2 make of them; serde_json's limit on nesting; `-0` in JSON; YAML keys that are not strings, and `.inf`; error messages. Derived deserializers are modelled by the documented behaviour of serde |
| Transform | `core/src/transform_config.rs`, `core/src/blueprint_helpers.rs` | the display of floats |
| LocalApi | event queue and results of `runtime_local_api.rs` and its copy in the workflow crate | HTTP framing, JSON coding of payloads |
| WebSocket | `websocket.rs` 94-368, `request.rs`, connections of the registry, batch send; the lock of the socket (`Lock.lean`) | upgrade handshake, message ids, logs, tracing; closing while the lock is held |
| Acks | `acks.rs` 24-310, `registry.rs` 99-163, 218-221, 272-326, 346-387 | bounds and closing of channels |
| Cluster | `registry.rs` 172-279 and 346-387, `pubsub.rs` 84-156 | loss of messages in Redis, changing sets of connections |
| Sig | `sigv1.rs` 44-297 | HMAC, base64, bytes of UTF-8 |
| Sqs | `message_consumer.rs`, `visibility_timeout.rs`, `errors.rs` | answers to delete requests (only logged), time taken by requests |
| CliConfig | `provider.go`, `root.go`, `init.go`, `validate.go`, `client.go` | cobra and pflag beyond value, default and mark of a flag; decoders; floats |
| CliInit | `initui/tui.go`, `init.go` | the list widget of bubbles, styles, bubbletea beyond taking messages until one ends the program |
| CliValidate | `handlers/validate.go`, `engine/errors.go`, `validateui/*.go` | colours and layout, widgets, window sizes |
| RtConfig | `config.rs`, `consts.rs`, start of `application.rs` | path parameters and overlapping patterns of axum, middleware, tracing |
| ExecStore | `workflow_executions.rs`, handlers of `workflow/src/application.rs` | HTTP framing |
| TmplFuncs | `template_functions_v1.rs`, all public functions | float arithmetic, codecs, hashes, generators (parameters) |
| TmplParser | `template_func_parser.rs`, all | positions in error values |
| Payload | `payload_template.rs` 99-339, `jsonpath.rs` 40-81 | the JSON path library (parameter), error messages |
| Workflow | `state_machine.rs`, all; `helpers.rs` 9-32 | the start time of executions, durations of states, rounding of floats, widths of attempt numbers and intervals |
| Wire | `core/src/types.rs`, `workflow/src/types.rs` 16-48, `ws-registry/src/types.rs` 1-34, `MessageWithSourceNode`, `runtime_local_api.rs` 81-303, `workflow_runtime_local_api.rs` 58-140, `workflow/src/transform_config.rs`, what serde derives for them; `Spec.lean` is `api-docs/local-runtime-api` and `api-docs/workflow-local-runtime-api` | texts of JSON; formats of documented strings (dates, UUIDs); the schemas' `required` lists are corrected where they name `event` and `routeKey`, which are no fields of these objects; maximum of 100 messages in a request |
| Sdk | `sdk/node/src/lib.rs` but the request constructor, `sdk/python/src/lib.rs` 65-441, `sdk/bindgen-ffi/src`: `application.rs` but error codes, `response.rs`, `app_config.rs`, `http_handler.rs` 25-46 | header rules of the `http` crate are transcribed, without its limits on sizes; the engines of JavaScript and Python and their event loops; a handler that keeps a response after its request ended (a dangling pointer); `run` and `shutdown` |
| Startup | `core/src/application.rs` 43-129, 228-338, 393-402; `workflow/src/application.rs` 89-117; `telemetry.rs` 35-106 as far as it can fail | the loaders, transformation and routers are those of the topics Blueprint, Transform, Wire and RtConfig; a file is what the lexical readers make of it; sockets, the trace pipeline and the runtime of tokio are choices of the outside; what `run` does with `block` is left out |
| FlowApi | `workflow/src/types.rs` 88-133; `workflow/src/workflow_executions.rs` 118-171; `workflow/src/application.rs` 119-143, 168-243, 245-263 | the texts of JSON (values only); how axum refuses requests that are not JSON, of which only that they are refused matters |
| Trace | `core/src/aws_telemetry.rs`; `core/src/telemetry.rs` 108-174; `core/src/request.rs`; `core/src/application.rs` 303-308, 405-440 | `TraceId` of opentelemetry is a number of 128 bits, shown and read as that crate does; trace ids of new spans and generated request ids are parameters; requests do not overlap; durations in the log |

Not modelled at all: the Java binding and the generators of bindings, telemetry, AWS
helpers, the crates that are empty, the `init` templates of the
CLI, and everything outside `libs/runtime` and `apps/cli`.

## Testing the theorems

`seeded/LOG.jsonl` has one line for each wrong version of the model that was built in a
scratch copy. An edit that broke a claim and was not noticed led to a tighter
theorem; an edit described as a repair makes a property true that is false of the code, and has
to make the `_violated` theorem fail. A theorem that fails shows only that the proof no
longer works; where the edit breaks no claim the note says so.

## Status: proved in full

* **C01** (Substitution templates round-trip through the parser): `Subst.parse_render_roundtrip`. Names after the dot and between brackets use the Unicode classes of the Rust standard library, which are a parameter.
* **C02** (Substitution parsing never produces an empty value and leaves plain text untouched): `Subst.parse_plain_text`, `Subst.parse_never_empty`, `Subst.resolve_parsed_no_panic`.
* **C03** (Resolving a template inserts variable values verbatim and in place): `Subst.resolve_template`.
* **C04** (Typing of a substituted scalar is determined only by the value's text): `Subst.scalar_typing`, `Subst.scalar_int_roundtrip`, `Subst.scalar_not_single_ref_is_string`, `Subst.scalar_string_verbatim`. Float parsing is a parameter.
* **C05** (Resolving a mapping node preserves its structure): `Subst.resolve_node_structure`, `Subst.resolve_node_succeeds`.
* **C10** (Handler code location and tracing settings follow one precedence order): `Transform.location_precedence`, `Transform.tracing_precedence`.
* **C100** (Outcomes of other handlers are understood): `Wire.outcome_understood`. For results without undocumented fields; a result that also had the fields of an HTTP response would be taken for one.
* **C107** (Events and results of workflow steps are as documented): `Wire.step_event`, `Wire.step_result`. Steps only have inputs that are objects according to the document.
* **C108** (Messages between nodes arrive as sent): `Wire.cluster_message`, `Wire.cluster_message_injective`. From JSON values to JSON values; the texts are those of serde_json.
* **C11** (Blueprint HTTP paths convert to router paths segment by segment): `Transform.axum_path_segments`, `Transform.path_has_segments`, `Transform.axum_path_injective`.
* **C110** (A blueprint is loaded as what it says): `Blueprint.Source.json_meaning`, `Blueprint.Source.yaml_meaning`, `Blueprint.Source.meaning_unique`. Acceptance and value, both directions, for documents written from typed sources in one order of fields (C90 has the other orders in YAML, C07 portable documents in any order). The limits of the formats (types YAML skips, lists of transforms it ignores, references for numbers that JSON refuses, resources without specification) are part of the meaning, and are the subject of C07 and C91-C95. Texts of free-form values that start with a quotation mark are left out, and so are references with brackets for numbers and booleans.
* **C116** (Answers of Python handlers go to their requests): `Sdk.python_answers`. For registries that do not change while the worker runs, as `run` holds the application from then on.
* **C12** (Each linked handler is collected once with its declared route): `Transform.http_handlers_collected_once`, `Transform.api_handlers_distinct`, `Transform.ws_handlers_collected_once`. Float annotation display is a parameter.
* **C13** (Local runtime API: events are handed out once, in order, and results reach their submitter): `LocalApi.fifo_once`, `LocalApi.result_not_found`, `LocalApi.result_delivered`, `LocalApi.delivered_log`, `LocalApi.delivered_once`, `LocalApi.no_event_lost`. Each request handler is one atomic step (both mutexes are held throughout).
* **C134** (An X-Ray trace id names the trace it was made from): `Trace.xray_format`, `Trace.xray_names`, `Trace.xray_roundtrip`, `Trace.xray_zero`, `Trace.xray_valid`, `Trace.xray_lenient`, `Trace.xray_reads`. The reader accepts other texts too (other versions, fewer digits); the field of the type is private, so that only ids that were written are read.
* **C135** (Every request is answered by the router and described by its span and log lines): `Trace.recorded`. Requests one after the other; when they overlap, only the order of the lines in the log changes. The router is a parameter that writes no spans or lines itself. Events of tower_http are not modelled.
* **C139** (The workflow API serves exactly the documented operations): `FlowApi.operation_served`, `FlowApi.served_documented`, `FlowApi.health_served`, `FlowApi.not_found_iff`, `FlowApi.answered_elsewhere`, `FlowApi.answered_reads`. Matching of paths is that of axum 0.7; what the operations answer is in C66, C67, C68 and C133.
* **C15** (WebSocket text messages are routed by the configured route key): `WebSocket.text_routed`. JSON parsing is a parameter; objects have no repeated keys. See C54 for the route table of the running server.
* **C151** (A loaded blueprint depends only on the variables it refers to): `Blueprint.Field.json_same`, `Blueprint.Field.yaml_same`, `Blueprint.Field.json_needs`, `Blueprint.Field.yaml_needs`, `Blueprint.Field.resolve_same`, `Blueprint.Field.resolve_needs`. The variables referred to are read off the parsed document by a separate specification. Defaults of variables are not used by the code: an unset variable is an error also if it has one.
* **C157** (Settings of the CLI do not interfere): `CliConfig.settings_apart`, `CliConfig.values_apart`, `CliConfig.settings_independent`. For the six settings of the CLI, whose names, flags and variables are written out in the specification. Parsing of floats is a parameter.
* **C158** (What a client of the stream sees has no gaps): `ExecStore.stream_no_gaps`, `ExecStore.stream_accounts`. The broadcast channel is modelled by what it documents: a bounded number of latest events, and an error that counts those missed. That an error ends the body of the response is known of hyper.
* **C159** (Documents are read by the names of their fields): `Wire.events_by_name`, `Wire.results_by_name`, `Wire.messages_by_name`. Names are written out in the statements. What serde derives is modelled by its documented behaviour; JSON as text is not modelled.
* **C162** (Messages of a node to a connection arrive in the order in which they were sent): `Cluster.in_order`, `Cluster.all_in_order`. For distinct node names and message ids that are used for one message only. Channels and Redis are modelled as FIFO queues without loss, as they document for one publisher. The runtime itself gives all nodes the same name and no broadcaster, so that only messages to connections of the same node are written (C21, same_name_never_written).
* **C163** (Executions of a server do not interfere): `FlowApi.isolated`, `FlowApi.finished`, `FlowApi.unhindered`. Ids that are used twice are C33. A save is one step here; that it takes two locks is in the topic ExecStore. The lock on the handlers is C161.
* **C164** (Messages that wait for acknowledgements do not affect each other): `Acks.alone`, `Acks.loop_alone`. For the worker with any interleaving of recording, checking and handing over, and for the closed loop in which messages sent again are recorded again.
* **C165** (Payloads depend on what their paths select only): `Payload.local_payload`, `Payload.constant_payload`. The JSON path library and the generators of random values are parameters that do not change during a rendering.
* **C166** (A refused signature says what is missing): `Sig.refusals`, `Sig.accepted_iff`, `Sig.accepted_checked_iff`, `Sig.accepted_wrapping_iff`. That some malformed headers panic instead of being refused is C41. accepted_iff is for dates to which the skew can be added and from which it can be subtracted; the other two are for all dates, with and without overflow checks.
* **C170** (Clients of the WebSocket endpoint do not affect each other): `WebSocket.calls_step`, `WebSocket.tasks_open`, `WebSocket.isolated`. Ids that two clients share are C18. The routes are a parameter; that the server has none is C54. Ids of messages and the outcome of handlers, which is only logged, are left out; a handler is assumed to return.
* **C175** (The notice of a lost message can be read): `WebSocket.lost_notice`, `WebSocket.lost_distinct`, `WebSocket.lost_read`, `WebSocket.means_unique`. How serde_json writes a string is modelled by its documented behaviour; what JSON strings mean is that of RFC 8259, surrogate pairs included. When notices are sent is C149.
* **C180** (Objects of a configuration of the FFI do not depend on each other): `Sdk.Objects.objects_independent`, `Sdk.Objects.objects_freed`. The caller is described by the calls it makes and what they gave it, not by the memory. Texts with NUL characters, with which the iterator panics, are C118; an address is not used for a second object.
* **C21** (A message sent to a connection anywhere in the cluster is delivered exactly once): `Cluster.at_most_once`, `Cluster.exactly_once`, `Cluster.local_writes`, `Cluster.same_name_never_written`. For distinct node names, no loss in the channel, and a message id sent once. same_name_never_written shows that distinct names are needed.
* **C24** (Messages of a successful batch are deleted and none else): `Sqs.success_deletes_batch`, `Sqs.deletes_only_received`, `Sqs.disabled_keeps_all`. Messages carry an identifier and a receipt handle (SQS always sends them).
* **C26** (A linear workflow runs its steps in order and threads the data): `Workflow.linear_chain`. For chains of distinct execute-step states where saving succeeds. The output of the execution itself is never set (C85); the last output is that of the last record.
* **C32** (The in-memory execution store behaves like a map with a creation log): `ExecStore.get_last_saved`, `ExecStore.latest_created`, `ExecStore.created_spec`, `ExecStore.listing_complete`. Sequential refinement, and absence of gaps and duplicates in listings for every interleaving of the two locked halves of a save.
* **C40** (Requests outside the clock skew window are rejected): `Sig.accepted_in_window`, `Sig.bad_date_rejected`. With and without overflow checks.
* **C43** (Numeric CLI settings are parsed exactly or read as zero): `CliConfig.int_exact`, `CliConfig.uint_exact`, `CliConfig.bool_exact`, `CliConfig.float_exact`. Any width, in particular 32 and 64 bits. Parsing of floats is a parameter.
* **C44** (The CLI refuses unusable settings before doing anything): `CliConfig.load_iff`, `CliConfig.protocol_iff`, `CliConfig.language_iff`, `CliConfig.command_runs_iff`, `CliConfig.command_does`. The decoders are parameters.
* **C45** (Non-interactive validate prints every event in order and stops for the right reason): `CliValidate.prints_and_ends`, `CliValidate.prints_while_running`, `CliValidate.succeeds_iff`, `CliValidate.refused`. Every order in which select may pick is a list of signals. Formatting of an event is not modelled.
* **C48** (The blueprint scanner only moves forward and backtracks exactly): `Scanner.scanner_in_bounds`, `Scanner.scanner_forward`, `Scanner.scanner_backtrack_exact`, `Scanner.scanner_reads`.
* **C57** (A message stays hidden while its handler runs): `Sqs.heartbeat_keeps_hidden`, `Sqs.hidden_without_heartbeat`. Requests are instantaneous and heartbeats on time.
* **C61** (The application is reachable from other machines only when configured): `RtConfig.exposure`.
* **C71** (jsonmerge has the fields of both objects, the second taking precedence): `TmplFuncs.jsonmerge_fields`, `TmplFuncs.jsonmerge_refuses`. Objects are sorted association lists, as in BTreeMap.
* **C73** (A wrong number of arguments is reported as such): `TmplFuncs.arity_checked`. All functions but format (C37) and list (any number).
* **C74** (Arithmetic, coding and hashing functions do what their names say): `TmplFuncs.arithmetic`, `TmplFuncs.random_in_range`, `TmplFuncs.coding_inverse`, `TmplFuncs.hash_algorithm`, `TmplFuncs.generated_ids`. Floating point arithmetic, the generator, the codecs and the hash functions are parameters; inverse coding and the range are hypotheses about them.
* **C75** (Parsing a template function call terminates): `TmplParser.terminates`. With a bound on the depth of recursion.
* **C76** (A payload template renders to what it means): `Payload.render_iff`, `Payload.renders_unique`, `Payload.render_order`, `Payload.renders_iff_leaves`, `Payload.error_of_leaf`. The JSON path library is a parameter; the generators of random values are constant during a rendering.
* **C77** (Constant templates are copied verbatim): `Payload.verbatim`.
* **C80** (Injection sets one field and nothing else): `Payload.inject_ok`, `Payload.inject_total`, `Payload.extract_inject`. That the library finds fields of objects is a hypothesis of extract_inject.
* **C81** (A function call in a template is evaluated from the inside out): `Payload.call_value`, `Payload.unknown_function`, `Payload.function_error`, `Payload.names_callable`, `Payload.names_distinct`. For texts written according to the grammar of C34.
* **C92** (Loaded blueprints are valid): `Blueprint.yaml_sound`, `Blueprint.json_sound`.

## Status: partial, and where the code disagrees

The full statement is a definition `Full…` next to the theorems; theorems called
`…_violated` prove its negation; what holds instead is proved by the others.

* **C06** (Parsing a value loses no text): False of the code as stated: two witnesses prove the negation, and adjacent_lost and stray_brace_lost prove for every text that what stands before an unsupported reference is lost when another reference follows directly or a closing brace follows later (so JSON text holding such a reference loses its beginning). The partial theorems cover well-formed templates followed by any number of unsupported references, each after the first with some text before it, with balanced quotes.
  Theorems: `Subst.text_preserved_violated`, `Subst.refs_recognised_violated`, `Subst.text_preserved_partial`, `Subst.text_preserved_many_partial`, `Subst.adjacent_lost`, `Subst.stray_brace_lost`.
* **C07** (JSON and YAML blueprints mean the same thing): False of the code in six ways, each with a document. The two loaders agree on all documents of the grammar Spec.Portable, which covers the six types both know.
  Theorems: `Blueprint.same_violated`, `Blueprint.same_types_violated`, `Blueprint.same_order_violated`, `Blueprint.same_fields_violated`, `Blueprint.same_missing_transform_violated`, `Blueprint.same_transforms_violated`, `Blueprint.same_substitutions_violated`, `Blueprint.same_partial`.
* **C08** (Link selectors select exactly the labelled resources): False of the code: the label value is never compared. The partial theorem gives completeness, soundness by key, and exactness when no other value occurs.
  Theorems: `Transform.select_violated`, `Transform.select_partial`, `Transform.select_none`.
* **C09** (Handler timeout precedence and cap): False of the code: max is used instead of min. The partial theorem states precedence and exactly when the documented value is obtained.
  Theorems: `Transform.timeout_violated`, `Transform.timeout_partial`.
* **C101** (Documented requests to send messages are accepted): False of the code for every request: an undocumented name of a node is required. Proved for messages that have one.
  Theorems: `Wire.messages_violated`, `Wire.messages_refused`, `Wire.messages_partial`.
* **C102** (The served configuration lists the handlers as documented): False of the code: the default method is in capitals, the documented ones are not. Proved for documented methods; what is listed is proved for all applications.
  Theorems: `Wire.config_violated`, `Wire.config_partial`, `Wire.config_lists`, `Wire.config_serves`.
* **C103** (Handlers have distinct names): False of the code: no handler ever gets a name. Names that are in the configuration are kept.
  Theorems: `Wire.names_violated`, `Wire.names_always_empty`, `Wire.names_partial`.
* **C104** (Tags tell handlers apart): False of the code: a queue and a schedule may share a tag, and so may identifiers with a double colon. Proved within each kind without colons.
  Theorems: `Wire.tags_violated`, `Wire.tags_violated_queues`, `Wire.tags_partial`.
* **C105** (The workflow that runs is that of the blueprint): False of the code: the workflow collected is always empty. One is collected exactly when there is a workflow resource.
  Theorems: `Wire.workflow_violated`, `Wire.workflow_always_empty`, `Wire.workflow_partial`.
* **C106** (The workflow configuration lists the state handlers where documented): False of the code: handlers are written to state_handlers, not to workflow.handlers. They are complete there, and their tags tell them apart.
  Theorems: `Wire.state_handlers_violated`, `Wire.state_handlers_partial`.
* **C109** (Events and results survive the trip between two programs with the same types): False of the code for attributes that are null and for results of batches, schedules and events, which become results of WebSocket messages. Proved for the rest.
  Theorems: `Wire.same_violated`, `Wire.same_events_partial`, `Wire.same_results_partial`, `Wire.other_results`.
* **C111** (Handlers see the request they serve): False of the code: a body without an announced length is lost, repeated headers collapse, header values outside visible ASCII panic; Python and FFI handlers are given no request. Proved for the other requests to Node.js handlers.
  Theorems: `Sdk.sees_violated`, `Sdk.body_lost`, `Sdk.headers_panic`, `Sdk.headers_collapse`, `Sdk.sees_partial`, `Sdk.python_given_violated`, `Sdk.ffi_given_violated`, `Sdk.node_given`.
* **C112** (The body of a request can be asked for again): False of the code: the second call after a failed read panics. Proved for bodies that could be read.
  Theorems: `Sdk.reread_violated`, `Sdk.reread_panics`, `Sdk.reread_partial`.
* **C113** (Clients get the response of the handler): False of the code: a response HTTP cannot carry panics. Proved for all responses it can, with the exact limits.
  Theorems: `Sdk.delivered_violated`, `Sdk.delivered_partial`.
* **C114** (Failures of handlers are reported as failures): False of the code: failures are answered with the status 200. The message of the failure is delivered.
  Theorems: `Sdk.error_status_violated`, `Sdk.error_answer_partial`.
* **C115** (Handlers are given their time, and no more): False of the code: the timeout is always 30 seconds in Node.js and the FFI (see C119); in Python there is none and one handler blocks all others. Proved for 30 seconds from the promise.
  Theorems: `Sdk.timeout_violated`, `Sdk.timeout_partial`, `Sdk.node_answered`, `Sdk.independent_violated`, `Sdk.python_blocked`.
* **C117** (Registered handlers are the ones that are called, at the configured address): False of the code: the FFI registers every handler for the same path, so that a second one panics, and ignores the loopback flag; in Python an ignored registration can take over an identifier. Proved for Python with known methods, and for the address in Node.js and Python. Node.js registers as the runtime does (C62).
  Theorems: `Sdk.python_registered_violated`, `Sdk.python_registered_partial`, `Sdk.python_before_setup`, `Sdk.ffi_registered_violated`, `Sdk.ffi_second_panics`, `Sdk.node_registered`, `Sdk.address`, `Sdk.ffi_address_violated`.
* **C118** (Setting up an application lists its handlers): False of the FFI for texts with NUL characters, which panic. Proved otherwise, without restriction for Node.js and Python.
  Theorems: `Sdk.listed_violated`, `Sdk.listed_partial`.
* **C119** (Responses and counters of the foreign function interface): False of the code: headers are dropped, a forgotten status panics, the counter is lowered by destructors. Status and body are proved, and that the counter is the number of live applications unless the null pointer is destroyed.
  Theorems: `Sdk.ffi_response_violated`, `Sdk.ffi_response_partial`, `Sdk.ffi_sent_once`, `Sdk.ffi_status_forgotten`, `Sdk.counter_violated`, `Sdk.counter_partial`, `Sdk.counter_null`.
* **C120** (The configuration of an application lists the handlers of its blueprint): False of the code: labels are compared by name only (C08), so that handlers of other applications are served. Proved for blueprints that the code does not misread (`Spec.Clear`), from the text's document through loader, transformation and setup, in both formats.
  Theorems: `Startup.routes_violated`, `Startup.routes_partial`.
* **C121** (Complete blueprints start): False of the code: a handler that two labels select, or a hybrid API, is an error. Proved as an equivalence for clear blueprints.
  Theorems: `Startup.starts_violated`, `Startup.starts_partial`.
* **C122** (A blueprint gives the same API in JSON and in YAML): False of the code: references in annotations are kept as text in JSON and resolved in YAML. Proved for blueprints whose annotations and route keys have no references; then both start or neither.
  Theorems: `Startup.formats_violated`, `Startup.formats_partial`.
* **C123** (The name of a blueprint file says its format): False of the code: the workflow runtime reads .jsonc files as YAML. Proved for the runtime of applications, and for the other files in that of workflows.
  Theorems: `Startup.extension_violated`, `Startup.extension_partial`.
* **C124** (A missing API is reported): False of the code: it starts without an API. Proved: it then has no routes, and registering handlers has no effect.
  Theorems: `Startup.missing_violated`, `Startup.missing_partial`.
* **C125** (Shutting down stops the servers): False of the code: when the runtime of tokio has ended, the first shutdown panics. Proved for all other histories, with at most two servers accepting connections at any time.
  Theorems: `Startup.shutdown_violated`, `Startup.shutdown_partial`.
* **C126** (An application can be run again): False of the code: with tracing the global subscriber cannot be set a second time. Proved otherwise, and that a run that succeeds has exactly one server per router.
  Theorems: `Startup.rerun_violated`, `Startup.rerun_partial`, `Startup.run_listeners`.
* **C127** (States and executions that ended say when): False of the code: executions that failed do not say when (never, if everything can be saved and there is no parallel state). Proved for all states anywhere and for executions that succeeded; all completions have a duration.
  Theorems: `Workflow.times_violated`, `Workflow.times_partial`, `Workflow.failed_untimed`, `FlowApi.times_sent`.
* **C128** (A transition shows the state that was left as it ended): False of the code: the previous state is shown as it was when entered, in progress and without outputs (for every transition between states of different names). Proved: without rules for errors to be caught it is the right state. With them the code shows the first record of the state that is entered.
  Theorems: `Workflow.previous_violated`, `Workflow.previous_fresh`, `Workflow.previous_partial`.
* **C129** (The attempts of a step are numbered): False of the code: retries count from the first record of the state, so that the third and all later tries have the number 2; this is why retries are unbounded (C25). Proved: the number is more than 1 exactly if the state is entered again from itself, and at most 2 unless a state is its own successor.
  Theorems: `Workflow.numbers_violated`, `Workflow.numbers_partial`.
* **C130** (The events of the workflow stream have the documented format): False of the code for every event: it is wrapped in an object with the name of the variant. What is inside is as documented except for null errors, boolean inputs and outputs, and states of unknown type; failed states without those are exactly as documented.
  Theorems: `FlowApi.format_violated`, `FlowApi.format_never`, `FlowApi.format_partial`, `FlowApi.format_failed`, `FlowApi.format_succeeded`.
* **C131** (Executions and events are read back as they were written): False of the code: an output null is read back as none. Proved for all others with numbers that fit their types.
  Theorems: `FlowApi.executions_violated`, `FlowApi.executions_partial`, `FlowApi.sequences_partial`, `FlowApi.transitions_partial`, `FlowApi.failures_partial`, `FlowApi.retries_partial`, `FlowApi.completions_partial`.
* **C132** (Retries are announced): False of the code: no retry event is ever sent. Proved: that a state is entered again is seen from a transition between records of the same name.
  Theorems: `FlowApi.retries_violated`, `FlowApi.retry_never`, `FlowApi.retries_seen_partial`.
* **C133** (Starting an execution works as documented): False of the code: 200 instead of 201, and 500 with plain text. Proved: documented requests are accepted, the id is given back, and the execution is found under it; requests that are not understood or cannot be saved are answered with an error and start nothing.
  Theorems: `FlowApi.run_violated`, `FlowApi.run_never`, `FlowApi.run_partial`, `FlowApi.run_refused`, `FlowApi.starts_with_stored`.
* **C136** (A request that names its trace is recorded in that trace): False of the code: the propagator is installed but nothing reads the header, so that every request starts a new trace.
  Theorems: `Trace.propagation_violated`, `Trace.propagation_never`.
* **C137** (Guards keep requests without a token from handlers): False of the code: guards are read from the blueprint and dropped; every registered handler can be reached without headers. Proved: blueprints that differ only in guards, CORS settings and domain give the same application.
  Theorems: `Startup.guards_violated`, `Startup.guards_never`, `Startup.access_ignored`.
* **C138** (CORS settings are applied): False of the code: CORS settings are dropped. Proved: a preflight request is answered exactly where the application has an OPTIONS handler of its own.
  Theorems: `Startup.preflight_violated`, `Startup.preflight_partial`, `Startup.access_ignored`.
* **C14** (Local runtime API: duplicate event ids do not disturb other events): False of the code: a second event with the same id replaces the first one's sender. Events with an unrepeated id are undisturbed.
  Theorems: `LocalApi.duplicates_violated`, `LocalApi.duplicates_partial`.
* **C140** (The workflow API can only be used with credentials): False of the code: no layer looks at credentials, and no answer is 401. Proved: only POST /run changes the store.
  Theorems: `FlowApi.authenticated_violated`, `FlowApi.authenticated_never`, `FlowApi.authenticated_partial`.
* **C141** (The config file named with --config is the one read): False of the code: the flag belongs to the root command only, so that every other command refuses it and reads the file in the working directory. Proved for command lines without the flag, with the last value of each flag.
  Theorems: `CliConfig.config_file_violated`, `CliConfig.config_flag_never`, `CliConfig.config_flag_alone`, `CliConfig.config_file_fixed`, `CliConfig.config_file_needed`, `CliConfig.config_file_partial`.
* **C142** (Requests signed as documented are accepted): False of the code, which looks for headers of other names and separates the parts by commas in place of blanks. Proved after translation of the names and separators.
  Theorems: `Sig.documented_violated`, `Sig.documented_never`, `Sig.documented_text_never`, `Sig.documented_partial`.
* **C143** (Only references are replaced): False of the code: whatever is written between the name and the closing brace is dropped. Proved up to such text, with one hypothesis about the Unicode classes (the dollar sign is not alphanumeric).
  Theorems: `Subst.only_references_violated`, `Subst.junk_dropped`, `Subst.only_references_partial`.
* **C144** (Results and messages not in the documented format are refused): False of the code: lists are accepted in place of objects, and any status below 65536. Proved for the parts that the document requires. JSON as text is not modelled.
  Theorems: `Wire.refused_violated`, `Wire.status_unchecked`, `Wire.refused_partial`, `Wire.messages_refused_partial`.
* **C145** (The last event tells what happened): False of the code: every execution that succeeded says that its last state is being executed. Proved: input, states entered in order, last state, and the error of an execution that failed, for workflows without parallel states whose progress can be saved.
  Theorems: `FlowApi.history_violated`, `FlowApi.history_busy`, `FlowApi.history_partial`.
* **C146** (The states of branches are shown in their parallel state): False of every execution: the list of branches is always empty. Proved: the states of branches are shown among those of the execution.
  Theorems: `Workflow.branches_violated`, `Workflow.branches_never`, `Workflow.branches_partial`, `FlowApi.branches_empty`.
* **C147** (A send that waits succeeds only if the message was delivered): False of the code: the sender to the worker is set in a spawned task, so that a message sent before that task has run is reported as delivered at once; and without a broadcaster a message to an unknown connection is dropped and reported as delivered. Proved in a cluster once the sender has been set.
  Theorems: `Acks.Wait.success_violated`, `Acks.Wait.early_success`, `Acks.Wait.alone_success`, `Acks.Wait.success_partial`.
* **C148** (A loss is reported only for lost messages): False of the code: an acknowledgement recorded between the computation of the losses and the removal of the entry is dropped, and messages sent before the worker runs count as lost after one broadcast. Proved: a reported loss names the message of the call, the worker has declared it lost, and it was broadcast as often as configured.
  Theorems: `Acks.Wait.loss_violated`, `Acks.Wait.acked_reported_lost`, `Acks.Wait.unrecorded_reported_lost`, `Acks.Wait.loss_partial`.
* **C149** (Clients are told of lost messages): False of the code: the result of the write is unwrapped, so that one failing write ends the task that informs all clients. Proved while no write fails: exactly the connected clients named are told, in order and once for each loss; whatever fails, a client is told only of messages with which it was named.
  Theorems: `Acks.Wait.told_violated`, `Acks.Wait.told_never_again`, `Acks.Wait.told_partial`, `Acks.Wait.told_all`, `Acks.Wait.told_named`, `Acks.Wait.broadcast_content`.
* **C150** (Waiting for an acknowledgement ends): False of the code: after one failing write nothing is sent again, and with two or more attempts a waiting call never returns, whatever happens. Proved while no write has failed and the id of the message is not that of a connection here (resends are addressed to the id, C20).
  Theorems: `Acks.Wait.ends_violated`, `Acks.Wait.waits_forever`, `Acks.Wait.ends_partial`.
* **C152** (Errors of resolution name the field): False of the code: the schedule is called `scheduleName`, the domain name `domain_name`; guards are not told apart and their types are not named; `condition` is left out; and values nested too deeply are reported without a field. Proved for blueprints without schedules, domains, guards and single conditions.
  Theorems: `Blueprint.Field.fault_violated`, `Blueprint.Field.schedule_violated`, `Blueprint.Field.domain_violated`, `Blueprint.Field.guard_violated`, `Blueprint.Field.guardType_violated`, `Blueprint.Field.condition_violated`, `Blueprint.Field.fault_iff`, `Blueprint.Field.fault_partial`, `Blueprint.Field.fault_named_partial`.
* **C153** (Declarations of variables are respected): False of the code, which looks at the environment only: with other declarations the result is the same. Proved: a variable is reported as missing only if one referred to is not set.
  Theorems: `Blueprint.Field.default_violated`, `Blueprint.Field.default_never`, `Blueprint.Field.allowed_violated`, `Blueprint.Field.undeclared_violated`, `Blueprint.Field.declarations_ignored`, `Blueprint.Field.missing_partial`.
* **C154** (The validate command tells every diagnostic): False of the code: an error replaces all diagnostics, a line without column is not shown, and without a terminal the address of the range is printed in place of the range. Proved while there is no error, for diagnostics with a known level and a column.
  Theorems: `CliValidate.shown_violated`, `CliValidate.screen_violated`, `CliValidate.error_hides`, `CliValidate.interrupt_hides`, `CliValidate.unknown_level`, `CliValidate.line_only`, `CliValidate.position_unprinted`, `CliValidate.screen_partial`, `CliValidate.item_partial`, `CliValidate.item_location`.
* **C155** (The validate command fails for invalid blueprints): False of the code: the result does not depend on the diagnostics at all. Proved: it fails for errors of the engine.
  Theorems: `CliValidate.fails_violated`, `CliValidate.result_ignores`, `CliValidate.exit_ignores`, `CliValidate.fails_partial`.
* **C156** (Responses of the FFI are used only while they exist): False of the code: the response is a local variable of the closure, which ends after thirty seconds or when the client disconnects, while the handler keeps its address. Proved for handlers that answer in time while the client is there, and for those that act in the callback only. That the server drops the future of a client that disconnects is known of hyper and not modelled further.
  Theorems: `Sdk.alive_violated`, `Sdk.gone_violated`, `Sdk.wild_of_gone`, `Sdk.alive_partial`, `Sdk.alive_in_callback`, `Sdk.life_outcome`.
* **C16** (Binary WebSocket frames round-trip): Round trip proved. 'Never crashes' is false for the empty frame and proved for all others. UTF-8 decoding is a parameter.
  Theorems: `WebSocket.binary_roundtrip`, `WebSocket.binary_ignored`, `WebSocket.binary_total_violated`, `WebSocket.binary_total_partial`.
* **C160** (Workflows without loops end): False of the code, because retries are not limited (C25). Proved for workflows without retries, with parallel states in all interleavings: a bound on the number of steps, and that an execution can go on until it is over or has panicked. Handlers and the store are assumed to answer.
  Theorems: `Workflow.loopless_violated`, `Workflow.forever`, `Workflow.loopless_partial`, `Workflow.goes_on`.
* **C161** (Handlers can be registered while executions run): False of the code: execute_step keeps its read guard while the states that follow are executed, and the lock of tokio hands out no read guards while a writer waits, so every execution with a step after a successful step stops for good when a registration comes in between. At this commit nothing but the user of the library registers handlers with that lock: the table of WorkflowApplication has a lock of another type and is not connected to the state machine. Parallel states are left out of this model.
  Theorems: `Workflow.Lock.served_violated`, `Workflow.Lock.nested_stops`, `Workflow.Lock.served_partial`, `Workflow.Lock.undisturbed_partial`, `Workflow.Lock.bounded`, `Workflow.Lock.exclusive`.
* **C167** (A node keeps passing messages on): False: the task that talks to Redis waits while the channel to listen is full, and publishes nothing meanwhile; listen waits with an acknowledgement while the channel to that task is full. Once both wait, the node writes and publishes nothing any more, whatever happens (stops shows how to get there with channels of any size). It is the only way to stop (alive_iff_partial), it takes at least two messages from other nodes more than a channel holds (few_partial), nothing is lost or reordered (kept), what arrives is written and acknowledged in the order of arrival (passed_on), and otherwise everything is published and passed on (settles_partial). Locks, failures of Redis and lost connections are not part of this model.
  Theorems: `Cluster.Bounded.alive_violated`, `Cluster.Bounded.stops`, `Cluster.Bounded.stuck_forever`, `Cluster.Bounded.alive_iff_partial`, `Cluster.Bounded.few_partial`, `Cluster.Bounded.kept`, `Cluster.Bounded.passed_on`, `Cluster.Bounded.settles_partial`.
* **C168** (An execution follows its workflow): False of the code: executions stop at states of the types pass, decision, success and failure (C88). Otherwise proved as a simulation of the state machine by a specification of paths through the workflow (FollowSpec.Path), whether or not progress can be saved: an execution that ends early because something was not saved does not succeed. Two deviations are part of the specification: retries have no maximum (C25), and errors without a name of their own are caught by wildcards only (C30). When a wait that is not a plain number of seconds fails is C87. Parallel states are excluded, they never succeed (C83).
  Theorems: `Workflow.follows_violated`, `Workflow.follows_partial`, `Workflow.call_at`.
* **C169** (Handlers in another process get the requests): False of the code: nothing but tests puts events into the queue. Whatever is asked, the handlers executable is told that there is no event, and requests for handlers are answered as for unknown paths (remote_idle). The list of handlers is right. Handlers that the host program registers itself are C62; what would happen to queued events is C13.
  Theorems: `Startup.remote_violated`, `Startup.remote_idle`, `Startup.remote_config_partial`.
* **C17** (A connection is registered exactly while its socket is open): False of the code after an empty binary frame: the task panics before removing the registration.
  Theorems: `WebSocket.registered_violated`, `WebSocket.registered_partial`.
* **C171** (Events whose deadline has passed are removed): False of the code whatever the timeouts are: no clock is read, an event that was handed out is kept until a result for it arrives, also when its submitter has given up; such a result is answered with status 500 instead of 404. Proved: a result is taken at any time and goes to the submitter (whenever_partial), and the first one that is accepted removes the event (removed_partial). Missing: deadlines. Events that share an id are C14.
  Theorems: `LocalApi.deadline_violated`, `LocalApi.given_up`, `LocalApi.whenever_partial`, `LocalApi.removed_partial`.
* **C172** (Resources that are not linked to an API do not change it): False of the code because values of labels are not compared (C08): a handler labelled app: invoices becomes part of the API whose handlers are labelled app: orders. Proved for resources without a label of a key that is asked for. The order in which the resource map is iterated is fixed but arbitrary; that it can change the configuration is C49.
  Theorems: `Transform.indep_violated`, `Transform.indep_partial`.
* **C173** (The init command uses the language that the user chose): False of the code for those who name a language: the program says that it was chosen and waits for a key nevertheless, and the enter key replaces it by the first language of the list. Proved for those who name none; and the choice is always a supported language or none. The command does nothing with the choice so far. The list widget is a parameter; that unsupported languages are refused is C44.
  Theorems: `CliInit.init_violated`, `CliInit.waits`, `CliInit.replaced`, `CliInit.offered`, `CliInit.init_partial`, `CliInit.choice_supported`.
* **C174** (Steps of workflows whose handlers are in another process are executed): False of the code: the state machine does not have the queue of events, so the other process is never given one and all its results are not found. A step without a handler in this process stops the execution, whatever its rules for retries and catches. Proved for steps whose handlers are in this process, which are called. (Nothing in the repository makes the `WorkflowAppState` that the state machine reads its handlers from, either: the map that `register_workflow_state_handler` fills has a lock of another type.)
  Theorems: `Workflow.remote_violated`, `Workflow.idle`, `Workflow.only_registered`, `Workflow.remote_fails`, `Workflow.local_partial`.
* **C176** (Handlers of queues and schedules are set up): False of the code: consumers and schedules are never collected (application.rs 77-78) and the functions that set up consumers do nothing, so no application ever has such a handler; one that has no API is set up and run without an error and nothing runs. Proved: an application has the declared handlers of this kind exactly when there are none.
  Theorems: `Startup.events_violated`, `Startup.events_never`, `Startup.events_idle`, `Startup.events_partial`.
* **C177** (Executions run the workflow of the blueprint): False of the code: the workflow that is collected is always empty, whatever the blueprint. Every execution panics when it records that its first state was not found; no handler is called, no event is sent, and the execution stays stored as being prepared. Proved for a state machine that is given a workflow of the blueprint directly; for workflows of steps also which handlers are called, in which order and with what. That a program hands the collected workflow over to the server is assumed, as no code in the repository does it.
  Theorems: `FlowApi.Deploy.deployed_violated`, `FlowApi.Deploy.never_runs`, `FlowApi.Deploy.preparing_forever`, `FlowApi.Deploy.deployed_partial`, `FlowApi.Deploy.steps_partial`.
* **C178** (Whoever runs an application through an SDK learns when it does not start): False of the code: in Python a port that is taken ends another thread only and the program waits for ever; a call of the FFI that does not block spawns a task whose result nobody reads. Proved for Node, for blocking calls of the FFI, and for Python when no socket is the reason. In Node and in the FFI a port that is taken is a panic of the call; what the libraries for the bindings do with it is not modelled. That an application that has what it needs is started is proved for all.
  Theorems: `Sdk.Launch.told_violated`, `Sdk.Launch.python_silent`, `Sdk.Launch.spawn_silent`, `Sdk.Launch.told_partial`, `Sdk.Launch.reason`, `Sdk.Launch.started`.
* **C179** (An application of the FFI is not used after it was shut down): False of the code: the task has the bare address of the application, and `shutdown` frees the application without waiting for the task. When it comes before the servers were started, the next poll of the task uses freed memory, always; and if that memory was left alone, the servers are started after the shutdown and nobody can stop them. Proved for shutdowns that come after the task was polled once and once more for every server. What a use of freed memory does is undefined and only counted. That sockets can be bound and that servers end only when told is assumed (for these see C178 and C125); a second shutdown is excluded.
  Theorems: `Sdk.Back.life_violated`, `Sdk.Back.quiet_violated`, `Sdk.Back.up_iff`, `Sdk.Back.life_partial`, `Sdk.Back.early_always`, `Sdk.Back.serves`.
* **C18** (Clients cannot take over each other's connections): False of the code: the connection id is taken from a client header.
  Theorems: `WebSocket.own_connection_violated`, `WebSocket.takeover_disconnects_victim`, `WebSocket.own_connection_partial`, `WebSocket.own_connection_unique_partial`.
* **C181** (Requests that fit a path of the blueprint have the path of its handler): False of the code: text and names are given to the router as they are, and a colon or an asterisk in them is syntax of the router: /v1:all is a path with a parameter, and registering a handler for /a:b:c panics. Proved for all paths without these two characters. The router is axum 0.7 by its documented behaviour for a single path; which of several paths it prefers is left open (a request that fits the path of one handler only is served by this one, whatever the router prefers), and percent-decoding is not modelled.
  Theorems: `Transform.Route.paths_violated`, `Transform.Route.paths_panic`, `Transform.Route.paths_partial`, `Transform.Route.one_part`, `Transform.Route.served`.
* **C182** (WebSocket clients connect at the base path that the blueprint declares): False of the code: base paths are loaded from the blueprint, but collect_api_config leaves the base paths of both protocols empty, so the endpoint is at / whatever is declared, and every hybrid API fails with the error that asks for a base path. Proved: clients connect at / and nowhere else, exactly when there are WebSocket handlers (so the claim holds of APIs that declare /), and nothing that an API says about its domain changes the outcome of the setup.
  Theorems: `Startup.base_path_violated`, `Startup.hybrid_path_violated`, `Startup.base_path_partial`, `Startup.domain_ignored`.
* **C19** (Unacknowledged messages are retried a bounded number of times and then reported lost once): False of the code when the check interleaves with an acknowledgement or runs again before a re-send is recorded. Proved in full when nothing interleaves with a check; the timeout condition is proved for every interleaving.
  Theorems: `Acks.action_only_if_overdue_partial`, `Acks.acknowledged_violated`, `Acks.bounded_violated`, `Acks.acknowledged_partial`, `Acks.unacknowledged_fate_partial`, `Acks.bounded_partial`.
* **C20** (Retries go to the original recipient): False of the code: the message id is used as the address. Id, text and clients to inform are preserved.
  Theorems: `Acks.address_violated`, `Acks.resend_content_partial`.
* **C22** (An acknowledgement implies delivery): False of the code: the result of the write is ignored. An acknowledgement implies a write attempt.
  Theorems: `Cluster.ack_delivered_violated`, `Cluster.ack_delivered_partial`.
* **C23** (A queue message is removed only after it was handled successfully): False of the code with default settings: deletion on handler failure is on by default, also when no handler is registered. Proved for deletion on failure switched off.
  Theorems: `Sqs.kept_violated`, `Sqs.missing_handler_deletes`, `Sqs.kept_partial`.
* **C25** (Retries of a workflow step are bounded by the configured maximum): False of the code: the number of attempts is read from the first record of the state, so that every maximum of at least 1 allows any number of retries. What is decided for each failure is characterised exactly. Rules that allow no retry are obeyed.
  Theorems: `Workflow.bounded_violated`, `Workflow.retries_unbounded`, `Workflow.retried_partial`, `Workflow.unretried_partial`.
* **C27** (Progress is persisted before it is announced): False of the code for failures: they are announced although saving failed. Transitions and successes are always saved first, in all interleavings; failures too as long as saving succeeds.
  Theorems: `Workflow.saved_violated`, `Workflow.progress_saved_partial`, `Workflow.all_saved_partial`.
* **C28** (An execution announces completion at most once, and only when it is over): False of the code: an error that is caught is announced as a failed completion first. True without catch rules and branches, with retries.
  Theorems: `Workflow.once_violated`, `Workflow.once_partial`.
* **C29** (An uncaught failure always ends the execution): False of the code for errors of templates and input paths, which end the execution silently in progress. True of steps and waits without such errors, with any retry and catch rules, handlers and saves.
  Theorems: `Workflow.ends_violated`, `Workflow.catchable_silent`, `Workflow.ends_partial`.
* **C30** (Catch rules are applied in declaration order): False of the code for errors without a name of their own, which are matched as the empty name. True of all others. routed_name says which rule is used in all cases.
  Theorems: `Workflow.catch_violated`, `Workflow.routed_name`, `Workflow.catch_partial`.
* **C31** (Retry delays grow with the attempt number up to the configured maximum): False of executions: every retry waits for the interval divided by the rate. The helper function is right for retries counted from 0. Floats are exact rationals.
  Theorems: `Workflow.zero_rate_zero_interval`, `Workflow.negative_delay`, `Workflow.backoff_violated`, `Workflow.wait_helper_partial`, `Workflow.wait_monotone`, `Workflow.constant_delay_partial`, `Workflow.zero_rate_waits`.
* **C33** (Starting an execution never destroys another one): False of the code for a name in use: its record is overwritten.
  Theorems: `ExecStore.start_violated`, `ExecStore.reused_name_erases`, `ExecStore.start_partial`.
* **C34** (Template function calls parse to what was written): False of the code for strings that end in a backslash, which no text can express. For all other trees, every way to write them according to the grammar parses back.
  Theorems: `TmplParser.parse_written`, `TmplParser.written_unambiguous`, `TmplParser.trees_violated`, `TmplParser.trees_partial`.
* **C35** (Malformed template function calls are rejected): False of the code: text after a call, missing parentheses, trailing commas and misspelt literals are accepted. Proved for missing names and opening parentheses, missing separators, unclosed strings and integers out of range at the top level.
  Theorems: `TmplParser.strict_violated`, `TmplParser.trailing_text_accepted`, `TmplParser.malformed_accepted`, `TmplParser.accepted_head_partial`, `TmplParser.missing_separator_partial`, `TmplParser.unclosed_string_partial`, `TmplParser.overflow_partial`.
* **C36** (List template functions obey their algebraic laws): False of the code for a chunk size of 0 and for negative sizes and positions, which crash. Everything else is proved.
  Theorems: `TmplFuncs.list_functions_violated`, `TmplFuncs.list_elem_violated`, `TmplFuncs.chunk_list_partial`, `TmplFuncs.list_elem_partial`, `TmplFuncs.remove_duplicates_keeps_first`, `TmplFuncs.contains_agrees`, `TmplFuncs.split_join`, `TmplFuncs.list_collects`.
* **C37** (format fills placeholders with the given arguments): False of the code: arguments are filled in one after the other, so that a placeholder in (or formed by) an argument takes the next argument.
  Theorems: `TmplFuncs.format_violated`, `TmplFuncs.format_empty_argument_violated`, `TmplFuncs.format_partial`, `TmplFuncs.format_checks`.
* **C38** (Signed requests verify): False of the code for key ids with a comma or equals sign and for the date header listed in mixed case. HMAC and base64 are parameters.
  Theorems: `Sig.roundtrip_violated`, `Sig.mixed_case_date_rejected`, `Sig.roundtrip_partial`, `Sig.signing_iff`, `Sig.signed_text`.
* **C39** (Verification accepts only what the key holder signed): Authenticity of the message is proved; that the message determines the header values is false (values with commas) and proved for values without commas.
  Theorems: `Sig.accepted_authentic`, `Sig.accepted_text`, `Sig.tamper_violated`, `Sig.tamper_partial`.
* **C41** (A malformed signature header is rejected without crashing): False of the code: an empty value in the signature header makes the verifier panic.
  Theorems: `Sig.anybody_can_crash`, `Sig.no_panic_violated`, `Sig.no_panic_partial`.
* **C42** (CLI settings follow one precedence order): False of the code for a flag given with a blank value: its own default is lost.
  Theorems: `CliConfig.effective_unique`, `CliConfig.precedence_violated`, `CliConfig.precedence_partial`, `CliConfig.settings_partial`, `CliConfig.line_text`, `CliConfig.line_bool`.
* **C46** (The interactive validation view shows all results and ends when the stream ends): False of the code: the end of the stream never ends the program and produces empty results without limit; errors more than a second after the last result are not received. Order and uniqueness of results are proved.
  Theorems: `CliValidate.interactive_violated`, `CliValidate.single_consumer`, `CliValidate.requested_once`, `CliValidate.shown_in_order_partial`, `CliValidate.shown_subsequence`, `CliValidate.error_quits`, `CliValidate.ends_only_with_error`, `CliValidate.never_finishes`, `CliValidate.phantom_results`, `CliValidate.error_missed`.
* **C47** (Runtime configuration from the environment is complete or the process refuses to start): False of the code: the documented defaults of the platform and the trace endpoint are missing and ports are not checked for their range. fromEnv_iff says exactly what is accepted.
  Theorems: `RtConfig.fromEnv_iff`, `RtConfig.fromEnv_panics`, `RtConfig.platform_required`, `RtConfig.endpoint_default_empty`, `RtConfig.negative_port_accepted`, `RtConfig.config_violated`, `RtConfig.config_partial`.
* **C49** (Loading a blueprint does not depend on hash map iteration order): False of the code when several handler configurations or APIs match. Proved when there is one candidate for the API and linked configurations do not differ, for any order of the resource map and of the annotations, labels and link selectors inside resources.
  Theorems: `Transform.order_independent_violated`, `Transform.order_independent_partial`, `Transform.all_orders_partial`, `Transform.selector_order_matters`.
* **C50** (The WebSocket endpoint routes by the configured route key): False of the code: the endpoint always uses the default key.
  Theorems: `Transform.route_key_violated`, `Transform.route_key_partial`.
* **C51** (An API with HTTP and WebSocket handlers can be started): False of the code for every API with handlers of both kinds.
  Theorems: `Transform.hybrid_never_starts`, `Transform.hybrid_starts_violated`, `Transform.hybrid_starts_partial`, `Transform.started_configured`.
* **C52** (The batch send endpoint reports success only when all messages were sent): False of the code for unknown connections.
  Theorems: `WebSocket.batch_violated`, `WebSocket.batch_partial`.
* **C53** (Messages can be pushed to an open connection at any time): False of the code: the connection task holds the socket lock while receiving and handling. FIFO grant order of tokio's mutex is an assumption of the model.
  Theorems: `WebSocket.Lock.idle_violated`, `WebSocket.Lock.reply_violated`, `WebSocket.Lock.receiving_stuck`, `WebSocket.Lock.reply_deadlock`, `WebSocket.Lock.push_overtaken_once_partial`, `WebSocket.Lock.push_while_sleeping_partial`, `WebSocket.Lock.pushes_in_order_partial`.
* **C54** (Configured WebSocket handlers receive their messages): False of the code: the route table is always empty.
  Theorems: `WebSocket.configured_violated`, `WebSocket.server_never_dispatches`.
* **C55** (A re-broadcast message is not written twice): False of the code: the recipient looks the id up in its own table of sent messages, so every broadcast is written.
  Theorems: `Cluster.duplicates_violated`, `Cluster.written_once_per_broadcast`, `Cluster.duplicates_partial`.
* **C56** (The queue handler is invoked for messages): False of the code for polls that find nothing: the batch handler is invoked with an empty batch.
  Theorems: `Sqs.handed_violated`, `Sqs.handed_exactly`, `Sqs.handed_partial`.
* **C58** (A rejected poll is followed by the configured pause): False of the code: the number is used as milliseconds. Seconds is the unit in the consumer's integration test and of the other timeouts.
  Theorems: `Sqs.pause_violated`, `Sqs.pause_partial`.
* **C59** (The CLI talks to the configured deploy engine): False of the code: protocol and endpoint are hard coded.
  Theorems: `CliConfig.engine_violated`, `CliConfig.engine_ignores_settings`, `CliConfig.engine_partial`.
* **C60** (Defaults registered with the configuration provider are used): False of the code: the defaults map is never created, so registering a default panics.
  Theorems: `CliConfig.set_default_panics`, `CliConfig.defaults_violated`, `CliConfig.defaults_partial`.
* **C62** (Registered HTTP handlers are served): False of the code: CONNECT handlers are dropped silently and the health check path panics. Paths are plain text; axum path parameters are not modelled.
  Theorems: `RtConfig.registered_violated`, `RtConfig.health_path_panics`, `RtConfig.registered_partial`.
* **C63** (WebSocket handlers of the blueprint are reached): False of the code: the route map is always empty, so no configured WebSocket handler can be reached.
  Theorems: `RtConfig.websocket_unreachable`, `RtConfig.websocket_violated`, `RtConfig.websocket_partial`.
* **C64** (The validate command validates the file the user named): False of the code: without a terminal the request names no file; in a terminal relative names are looked up in /.
  Theorems: `CliValidate.file_violated`, `CliValidate.request_ignores_file`, `CliValidate.relative_file_in_root`, `CliValidate.file_partial`.
* **C65** (The interactive results belong to the file on the screen): False of the code when a second file is picked before the first selection is processed.
  Theorems: `CliValidate.shown_file_violated`, `CliValidate.shown_file_partial`.
* **C66** (The output of a workflow execution is kept): False of the code: the payload of a save has no output and the record's output is always empty.
  Theorems: `ExecStore.output_never_recorded`, `ExecStore.output_violated`, `ExecStore.saved_partial`.
* **C67** (The workflow API answers with the stored executions): False of the code: both handlers are stubs that answer null.
  Theorems: `ExecStore.api_null`, `ExecStore.api_violated`, `ExecStore.api_partial`.
* **C68** (The event stream of an execution carries that execution's events): False of the code: the id is not used, so the events of all executions are sent. Order and completeness for subscribers that keep up are proved for any capacity.
  Theorems: `ExecStore.stream_violated`, `ExecStore.stream_partial`.
* **C69** (Template functions report misuse as errors): False of the code; the calls that crash are characterised exactly, for all 21 functions.
  Theorems: `TmplFuncs.no_crash_violated`, `TmplFuncs.no_crash_partial`.
* **C70** (Computed numbers can be used as positions and sizes): False of the code: arithmetic always gives floating point numbers, and those crash list_elem and chunk_list.
  Theorems: `TmplFuncs.computed_position_violated`, `TmplFuncs.computed_position_always_violated`, `TmplFuncs.computed_position_partial`.
* **C72** (len counts characters and elements): False of the code for texts outside ASCII: len counts bytes.
  Theorems: `TmplFuncs.len_violated`, `TmplFuncs.len_partial`.
* **C78** (A path that can match several values gives a list): False of the code: a single match is unwrapped, so that the shape of the result depends on the number of matches. What a path gives is characterised exactly.
  Theorems: `Payload.path_lists_violated`, `Payload.path_lists_partial`, `Payload.path_ambiguous`.
* **C79** (Rendering a template never crashes): False of the code: numbers that overflow to infinity, and the calls of C69. The crashing parts are characterised exactly.
  Theorems: `Payload.no_crash_violated`, `Payload.crash_partial`, `Payload.no_crash_without_calls`.
* **C82** (An input path selects what a handler gets): False of the code: the handler gets the whole input. Without an input path, the payload is made from the recorded input. No branches.
  Theorems: `Workflow.inputPath_violated`, `Workflow.payload_partial`, `Workflow.recorded_partial`.
* **C83** (A parallel state succeeds with the outputs of its branches): False of the code: the records of branches are never found, so that the first success in a branch panics; a parallel state with branches of steps and waits never succeeds. What follows once the branches have ended is right.
  Theorems: `Workflow.parallel_violated`, `Workflow.parallel_never_succeeds`, `Workflow.join_partial`.
* **C84** (An execution never panics): False of the code: a missing state, a timestamp in the past and a failed save of the completion panic. Proved for workflows without the causes listed in Sound.
  Theorems: `Workflow.safe_violated`, `Workflow.unrecorded_crashes`, `Workflow.unsaved_crashes`, `Workflow.safe_partial`.
* **C85** (A completed execution reports its output): False of the code: no execution ever has an output.
  Theorems: `Workflow.output_violated`, `Workflow.output_never`, `FlowApi.times_sent`.
* **C86** (The outcome of an attempt is recorded for that attempt): False of the code: success is recorded for the first attempt. Proved for states with a single record.
  Theorems: `Workflow.latest_violated`, `Workflow.latest_partial`.
* **C87** (A wait state waits for as long as it says): False of the code for paths, whose result is a list and never a number. Proved for constants, also for timestamps; those that are past are shown to panic.
  Theorems: `Workflow.wait_violated`, `Workflow.wait_path_refused`, `Workflow.wait_partial`, `Workflow.wait_until_partial`, `Workflow.wait_past`.
* **C88** (Pass, decision, success and failure states take effect): False of the code: these states are stubs that leave the execution in progress.
  Theorems: `Workflow.states_violated`, `Workflow.stubs_halt`.
* **C89** (Loading a blueprint never panics): False of YAML texts without a document, such as the empty text. Proved for every other YAML text and all JSON documents. Depth of recursion is not modelled.
  Theorems: `Blueprint.json_never_panics`, `Blueprint.yaml_never_panics_violated`, `Blueprint.yaml_never_panics_partial`.
* **C90** (Resources of foreign types have no effect): Proved for YAML. False of JSON when a field precedes the type or is unknown; proved for the rest.
  Theorems: `Blueprint.yaml_foreign`, `Blueprint.json_foreign_violated`, `Blueprint.json_foreign_partial`.
* **C91** (The order of the fields of a resource does not matter): Proved for YAML. False of JSON: the type must precede the specification; proved for the order of all fields after the type.
  Theorems: `Blueprint.yaml_order`, `Blueprint.json_order_violated`, `Blueprint.json_order_partial`.
* **C93** (The loaded resources are those declared): False of YAML for four of the ten types, and of JSON for resources without a specification, which are dropped silently. Proved for the rest.
  Theorems: `Blueprint.yaml_resources_violated`, `Blueprint.yaml_resources_partial`, `Blueprint.json_resources_violated`, `Blueprint.json_resources_partial`.
* **C94** (Integers are loaded as written or rejected): Proved for YAML. False of JSON from 2^63 to 2^64-1, where integers become negative; proved for the integers of 64 bits.
  Theorems: `Blueprint.yaml_integers`, `Blueprint.json_integers_violated`, `Blueprint.json_integers_partial`.
* **C95** (Literal annotations are loaded verbatim): Proved for YAML. False of JSON for texts that are themselves JSON strings; proved for all other texts.
  Theorems: `Blueprint.yaml_texts`, `Blueprint.json_texts_violated`, `Blueprint.json_texts_partial`.
* **C96** (Declared transforms and variables are loaded): Proved for JSON. False of YAML for lists of transforms and variables that are not mappings, which are ignored.
  Theorems: `Blueprint.json_top`, `Blueprint.yaml_top_violated`, `Blueprint.yaml_top_partial`.
* **C97** (Events handed to handlers have the documented format): False of the code for every event: the data is one level deeper, in an object with the name of the Rust variant. All else is as documented, for events whose type is that of their data, with distinct keys and a documented method.
  Theorems: `Wire.events_violated`, `Wire.events_never_documented`, `Wire.events_partial`, `Wire.event_values`.
* **C98** (Documented results of HTTP handlers are understood): False of the code: the body, which is documented to be optional, must be there. Proved for results with a body, fields in any order. Repeated fields are no JSON documents here.
  Theorems: `Wire.http_result_violated`, `Wire.http_result_partial`.
* **C99** (Partial failures of a batch are understood): False of the code for every documented result: it is taken for the result of a WebSocket message, and the failures are dropped. Whether the batch as a whole was processed is known.
  Theorems: `Wire.failures_violated`, `Wire.failures_always_lost`, `Wire.failures_partial`.
